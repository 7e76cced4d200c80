import Verif.Basic.Dict

/-!
# Auxiliary files and their parameters (model)

Models `AuxiliaryFileReader` (`/repo/dedop/conf/auxiliary_file_reader.py`) and `AuxiliaryParameter`,
`AuxiliaryParameterArray` (`/repo/dedop/conf/auxiliary_parameter.py`).  `V` is the type of Python
values other than `None`; a value that may be `None` is an `Option V`.  Casting to a type or by a
function and `isinstance` are parameters of a descriptor.
-/
namespace Dedop.Conf

variable {V : Type}

/-- `MissingParameterError`, `ParameterTypeError`, `IncompatibleAuxiliaryFileError`.  `auxiliary_errors.py:17-47`. -/
def missing : PyErr := .other "MissingParameterError"
/-- `ParameterTypeError` (`auxiliary_errors.py:32-47`). -/
def wrongType : PyErr := .other "ParameterTypeError"
/-- `IncompatibleAuxiliaryFileError` (`auxiliary_errors.py:49-68`). -/
def incompatible : PyErr := .other "IncompatibleAuxiliaryFileError"

/-- The key of the metadata block (`auxiliary_file_reader.py:51`). -/
def metaKey : String := "__metainf__"

/-- A parsed JSON file: the version entry of `__metainf__` (`none`: no such block; `some none`: block
without a version) and, in order, the other entries with what they have under `'value'` (`none`: no
such key; `some none`: null).  Read in `auxiliary_file_reader.py:43-61`. -/
structure Json (V : Type) where
  metainf : Option (Option Int)
  entries : List (String × Option (Option V))

/-- The items of the file as `json.load(file).items()` gives them: the position of the metadata block
does not matter, it is put first.  `auxiliary_file_reader.py:50`. -/
def Json.items (j : Json V) : List (String × Option (Option V)) :=
  match j.metainf with
  | none => j.entries
  | some _ => (metaKey, none) :: j.entries

/-- `get_version` (`auxiliary_file_reader.py:64-74`). -/
def getVersion (j : Json V) : Except PyErr Int :=
  match j.metainf with
  | none => .ok (-1)
  | some none => .error (.keyError "version")
  | some (some v) => .ok v

/-- The loop of `_read_file` (`auxiliary_file_reader.py:50-61`): data so far and warnings. -/
def readItems (known : List String) (data : Dict String (Option V)) (warnings : List String) :
    List (String × Option (Option V)) → Except PyErr (Dict String (Option V) × List String)
  | [] => .ok (data, warnings)
  | (name, param) :: rest =>
    if name = metaKey then readItems known data warnings rest
    else
      let warnings := if name ∈ known then warnings else warnings ++ [name]
      match param with
      | none => .error (.keyError "value")
      | some v => readItems known (data.set name v) warnings rest

/-- `_read_file` (`auxiliary_file_reader.py:35-62`); `known` are the declared parameter names and
`fileversion` the version of the class. -/
def readFile (known : List String) (fileversion : Int) (j : Json V) :
    Except PyErr (Dict String (Option V) × List String) :=
  match getVersion j with
  | .error e => .error e
  | .ok v => if v ≠ fileversion then .error incompatible else readItems known [] [] j.items

/-- `dict.update`.  Used in `auxiliary_file_reader.py:33`. -/
def update (d : Dict String (Option V)) (kw : List (String × Option V)) : Dict String (Option V) :=
  kw.foldl (fun d p => d.set p.1 p.2) d

/-- `AuxiliaryFileReader.__init__` (`auxiliary_file_reader.py:19-33`): the data of the instance. -/
def create (known : List String) (fileversion : Int) (file : Option (Json V))
    (kw : List (String × Option V)) : Except PyErr (Dict String (Option V)) :=
  match file with
  | none => .ok (update [] kw)
  | some j =>
    match readFile known fileversion j with
    | .error e => .error e
    | .ok (data, _) => .ok (update data kw)

/-- A descriptor (`auxiliary_parameter.py:16-35`; arrays `76-97`).  `optional` is the attribute of that
name, which includes "has a default".  For arrays `cast` is `asarray` and `reshape`. -/
structure Param (V : Type) where
  name : String
  cast : Option (V → Except PyErr V)
  type : Option (V → Bool)
  optional : Bool
  default : Option V
  array : Bool

/-- `AuxiliaryFileReader.__getitem__` (`auxiliary_file_reader.py:88-94`). -/
def getItem (known : List String) (data : Dict String (Option V)) (name : String) :
    Except PyErr (Option V) :=
  if name ∈ known then
    match data.get? name with
    | some v => .ok v
    | none => .error missing
  else .error missing

/-- `_retreive_value` (`auxiliary_parameter.py:63-73`). -/
def retrieve (known : List String) (data : Dict String (Option V)) (p : Param V) :
    Except PyErr (Option V) :=
  match getItem known data p.name with
  | .ok v => .ok v
  | .error e =>
    if e = missing then
      if p.optional then .ok p.default else .error e
    else .error e

/-- Casting and type check (`auxiliary_parameter.py:54-58`). -/
def convert (p : Param V) (v : Option V) : Except PyErr (Option V) :=
  let casted : Except PyErr (Option V) :=
    match p.cast, v with
    | some f, some x => (match f x with | .ok y => .ok (some y) | .error e => .error e)
    | _, v => .ok v
  match casted with
  | .error e => .error e
  | .ok v =>
    match p.type with
    | none => .ok v
    | some isinstance =>
      match v with
      | none => .error wrongType
      | some x => if isinstance x then .ok (some x) else .error wrongType

/-- The instances created so far (by identity) and, per descriptor (by its position in the class), its
cache (`auxiliary_parameter.py:35`). -/
structure World (V : Type) where
  instances : List (Dict String (Option V))
  caches : Nat → Dict Nat (Option V)

/-- `__get__` of a scalar parameter (`auxiliary_parameter.py:37-61`). -/
def getScalar (known : List String) (data : Dict String (Option V)) (p : Param V)
    (cache : Dict Nat (Option V)) (inst : Nat) : Except PyErr (Option V) × Dict Nat (Option V) :=
  match cache.get? inst with
  | some v => (.ok v, cache)
  | none =>
    match retrieve known data p with
    | .error e => (.error e, cache)
    | .ok v =>
      match convert p v with
      | .error e => (.error e, cache)
      | .ok v => (.ok v, cache.set inst v)

/-- `__get__` of an array parameter (`auxiliary_parameter.py:99-118`): no cache, no type check. -/
def getArray (known : List String) (data : Dict String (Option V)) (p : Param V) :
    Except PyErr (Option V) :=
  match retrieve known data p with
  | .error e => .error e
  | .ok none => .ok none
  | .ok (some x) =>
    match p.cast with
    | none => .ok (some x)
    | some f => (match f x with | .ok y => .ok (some y) | .error e => .error e)

/-- Reading parameter number `k` of instance `inst` of a class with the given descriptors.
`auxiliary_parameter.py:37-61, 99-118`. -/
def read (params : List (Param V)) (w : World V) (inst k : Nat) : Except PyErr (Option V) × World V :=
  let known := params.map (·.name)
  match params[k]?, w.instances[inst]? with
  | some p, some data =>
    if p.array then (getArray known data p, w)
    else
      let r := getScalar known data p (w.caches k) inst
      (r.1, { w with caches := fun j => if j = k then r.2 else w.caches j })
  | _, _ => (.error (.other "AttributeError"), w)

/-- What happens to a class: new instances and reads, in any order.
Calls of `auxiliary_file_reader.py:19-33` and `auxiliary_parameter.py:37-61`. -/
inductive Event (V : Type) where
  | create (file : Option (Json V)) (kw : List (String × Option V))
  | read (inst k : Nat)

/-- A history of events.
Not a function of the code: any sequence of calls of `auxiliary_file_reader.py:19-33` and `auxiliary_parameter.py:37-61`. -/
def run (params : List (Param V)) (fileversion : Int) (w : World V) : List (Event V) → World V
  | [] => w
  | .create file kw :: es =>
    match create (params.map (·.name)) fileversion file kw with
    | .ok data => run params fileversion { w with instances := w.instances ++ [data] } es
    | .error _ => run params fileversion w es
  | .read inst k :: es => run params fileversion (read params w inst k).2 es

/-- No instance yet.  The state before the first `AuxiliaryFileReader.__init__` (`auxiliary_file_reader.py:19`). -/
def World.empty : World V := ⟨[], fun _ => []⟩

end Dedop.Conf
