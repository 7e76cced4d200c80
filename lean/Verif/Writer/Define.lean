import Verif.Basic.Dict
import Mathlib.Data.Rat.Floor
/-!
# Defining and creating the variables of an output file (C113)

Models the part of `dedop/data/output/netcdf_writer.py` before the first record: `define_dimension`, `define_variable`, `open`,
and what is then in the file.  The names of dimensions and variables are those of `Enum` members or plain strings.
-/
namespace Dedop.Writer

/-- The data types used by the writers (numpy types passed to `define_variable`, netcdf_writer.py 155). -/
inductive NcType where
  | i8 | u8 | i16 | u16 | i32 | u32 | f64
  deriving DecidableEq, Repr

/-- The smallest and the largest value of an integer type; `none` for floating point (numpy, netcdf_writer.py 309-312). -/
def NcType.range : NcType → Option (ℤ × ℤ)
  | .i8 => some (-128, 127)
  | .u8 => some (0, 255)
  | .i16 => some (-32768, 32767)
  | .u16 => some (0, 65535)
  | .i32 => some (-2147483648, 2147483647)
  | .u32 => some (0, 4294967295)
  | .f64 => none

/-- A value of an attribute (netcdf_writer.py 316-331): a text, a tuple of texts, a tuple of numbers, a number, `None`, or a tuple
of texts and other things. -/
inductive Att where
  | none
  | str (s : String)
  | strs (l : List String)
  | ints (l : List ℤ)
  | num (x : ℚ)
  | mixed
  deriving DecidableEq, Repr

/-- A value in the dictionary of a definition (netcdf_writer.py 166-173): the type, the dimensions, the `properties` or an attribute. -/
inductive Entry where
  | type (t : NcType)
  | dims (l : List String)
  | props (l : Dict String Att)
  | att (a : Att)
  deriving DecidableEq, Repr

/-- What is passed to `define_variable` in the writers (netcdf_writer.py 155-156): name, type, dimensions, keyword arguments.
Positional attribute pairs are not used by any writer and left out.  A name stands for the `Enum` member or the string; the
members of the writers' classes have their own names as values. -/
structure VarDef where
  name : String
  type : NcType
  dims : List String
  attrs : List (String × Att)
  deriving DecidableEq, Repr

/-- An attribute in the file: bytes, numbers or a number (netcdf_writer.py 329-331). -/
inductive NcAtt where
  | bytes (s : String)
  | ints (l : List ℤ)
  | num (x : ℚ)
  deriving DecidableEq, Repr

/-- A variable in the file: name, type, dimensions, fill value and attributes (netcdf_writer.py 309-331). -/
structure NcVar where
  name : String
  type : NcType
  dims : List String
  fill : Option ℚ
  attrs : List (String × NcAtt)
  deriving DecidableEq, Repr

/-- What an instance attribute set by `open` refers to (netcdf_writer.py 246, 267). -/
inductive Handle where
  | dim (name : String)
  | var (name : String)
  deriving DecidableEq, Repr

/-- A writer (netcdf_writer.py 95-107): the definitions, what is in the file, the created dimensions, the instance attributes set by
`setattr`, and the index of the next record. -/
structure W where
  dimDefs : Dict String (Option Nat)
  varDefs : Dict String (Dict String Entry)
  fileDims : List (String × Option Nat)
  fileVars : List NcVar
  dims : Dict String String
  handles : Dict String Handle
  index : Nat
  deriving DecidableEq, Repr

/-- `os.path.dirname` (netcdf_writer.py 97): the part before the last slash, without its trailing slashes unless it is made of slashes. -/
def dirname (path : List Char) : List Char :=
  let head := (path.reverse.dropWhile (· ≠ '/')).reverse
  if head.all (· = '/') then head else (head.reverse.dropWhile (· = '/')).reverse

/-- `NetCDFWriter.__init__` (netcdf_writer.py 88-116): the folder of the file is made, then the file is created.  `makedirs` of an
empty name raises `FileNotFoundError`; other failures of the file system are left out. -/
def newWriter (path : List Char) : Except PyErr W :=
  if dirname path = [] then .error .ioError else .ok ⟨[], [], [], [], [], [], 0⟩

/-- `define_dimension` (netcdf_writer.py 145-153). -/
def W.defineDim (w : W) (name : String) (size : Option Nat) : W := { w with dimDefs := w.dimDefs.set name size }

/-- The dictionary of a definition (netcdf_writer.py 166-173): `OrderedDict(pairs)` updated with the keyword arguments. -/
def entries (d : VarDef) : Dict String Entry :=
  d.attrs.foldl (fun e p => e.set p.1 (.att p.2)) [("data_type", .type d.type), ("dimensions", .dims d.dims)]

/-- `define_variable` (netcdf_writer.py 155-173). -/
def W.defineVar (w : W) (d : VarDef) : W := { w with varDefs := w.varDefs.set d.name (entries d) }

/-- `create_dimension` and the `setattr` after it (netcdf_writer.py 239-246, 269-286).  netCDF4 raises `RuntimeError` for a name which
the file already has. -/
def createDim (w : W) (name : String) (size : Option Nat) : Except PyErr W :=
  if name ∈ w.fileDims.map Prod.fst then .error (.other "RuntimeError")
  else .ok { w with fileDims := w.fileDims ++ [(name, size)], dims := w.dims.set name name,
                    handles := w.handles.set name (.dim name) }

/-- The loop of `create_all_dimensions` without arguments (netcdf_writer.py 235-246). -/
def createDims : List (String × Option Nat) → W → W × Option PyErr
  | [], w => (w, none)
  | (n, s) :: t, w =>
    match createDim w n s with
    | .error e => (w, some e)
    | .ok w' => createDims t w'

/-- A descriptor (netcdf_writer.py 28-51): the attributes with `long_name` last, the fill value among the properties. -/
structure Desc where
  type : NcType
  dims : List String
  attrs : Dict String Att
  props : Dict String Att
  deriving DecidableEq, Repr

/-- The attributes among the entries of a definition, passed on as keyword arguments (netcdf_writer.py 204-207). -/
def attEntries (d : Dict String Entry) : Dict String Att :=
  d.filterMap fun p => match p.2 with
    | .att a => some (p.1, a)
    | _ => none

/-- `get_variable_descriptor` (netcdf_writer.py 185-213) from the dictionary of the definition.  The entries it takes out are gone
afterwards (`popped`).  A keyword `name` would be given twice to the constructor: `TypeError`. -/
def descriptor (d : Dict String Entry) : Except PyErr Desc :=
  match d.get? "data_type", d.get? "dimensions" with
  | none, _ => .error (.keyError "data_type")
  | _, none => .error (.keyError "dimensions")
  | some (.type t), some (.dims ds) =>
    let rest := attEntries ((((d.erase "data_type").erase "dimensions").erase "long_name").erase "properties")
    if (rest.get? "name").isSome then .error .typeError
    else
      let long := match d.get? "long_name" with
        | some (.att a) => a
        | _ => .none
      let fill : Dict String Att := match rest.get? "fill_value" with
        | some .none => []
        | some a => [("fill_value", a)]
        | none => []
      let props := match d.get? "properties" with
        | some (.props l) => l
        | _ => []
      .ok ⟨t, ds, (rest.erase "fill_value").set "long_name" long, props.foldl (fun e p => e.set p.1 p.2) fill⟩
  | _, _ => .error .typeError

/-- What `get_variable_descriptor` leaves of the definition (netcdf_writer.py 196-201). -/
def popped (d : Dict String Entry) : Dict String Entry :=
  (((d.erase "data_type").erase "dimensions").erase "long_name").erase "properties"

/-- The fill value converted to the type of the variable (inside netCDF4, netcdf_writer.py 309-312).  A number outside an integer
type is an `OverflowError` in numpy from version 2 on (`strict`) and wraps around before.  Fractions are cut to an integer. -/
def fillOf (strict : Bool) (t : NcType) (props : Dict String Att) : Except PyErr (Option ℚ) :=
  match props.get? "fill_value" with
  | none => .ok none
  | some (.num x) =>
    match t.range with
    | none => .ok (some x)
    | some (lo, hi) =>
      if lo ≤ ⌊x⌋ ∧ ⌊x⌋ ≤ hi then .ok (some ⌊x⌋)
      else if strict then .error (.other "OverflowError")
      else .ok (some (((⌊x⌋ - lo) % (hi - lo + 1) + lo : ℤ) : ℚ))
  | some _ => .error .typeError

/-- The value given to `setncattr` (netcdf_writer.py 322-331): tuples with a text are joined with spaces, texts encoded.  `None`
cannot be stored, tuples of texts and other things cannot be joined. -/
def ncAtt : Att → Except PyErr NcAtt
  | .none => .error .typeError
  | .str s => .ok (.bytes s)
  | .strs l => .ok (.bytes (" ".intercalate l))
  | .ints l => .ok (.ints l)
  | .num x => .ok (.num x)
  | .mixed => .error .typeError

/-- The loop over the attributes (netcdf_writer.py 316-331). -/
def setAtts : List (String × Att) → NcVar → NcVar × Option PyErr
  | [], v => (v, none)
  | (n, a) :: t, v =>
    match ncAtt a with
    | .error e => (v, some e)
    | .ok b => setAtts t { v with attrs := v.attrs ++ [(n, b)] }

/-- The names of the dimensions of a variable in the file (netcdf_writer.py 303-306). -/
def dimNames (w : W) : List String → Except PyErr (List String)
  | [] => .ok []
  | n :: t =>
    match w.dims.get? n with
    | none => .error (.keyError n)
    | some m =>
      match dimNames w t with
      | .error e => .error e
      | .ok l => .ok (m :: l)

/-- `create_variable` and the `setattr` after it (netcdf_writer.py 260-267, 288-333). -/
def createVar (strict : Bool) (w : W) (name : String) (d : Desc) : W × Option PyErr :=
  match dimNames w d.dims with
  | .error e => (w, some e)
  | .ok ds =>
    if name ∈ w.fileVars.map NcVar.name then (w, some (.other "RuntimeError"))
    else
      match fillOf strict d.type d.props with
      | .error e => (w, some e)
      | .ok f =>
        match setAtts d.attrs ⟨name, d.type, ds, f, []⟩ with
        | (v, some e) => ({ w with fileVars := w.fileVars ++ [v] }, some e)
        | (v, none) => ({ w with fileVars := w.fileVars ++ [v], handles := w.handles.set name (.var name) }, none)

/-- The loop of `create_all_variables` without arguments (netcdf_writer.py 256-267). -/
def createVars (strict : Bool) : List (String × Dict String Entry) → W → W × Option PyErr
  | [], w => (w, none)
  | (n, d) :: t, w =>
    match descriptor d with
    | .error e => (w, some e)
    | .ok desc =>
      match createVar strict { w with varDefs := w.varDefs.set n (popped d) } n desc with
      | (w', some e) => (w', some e)
      | (w', none) => createVars strict t w'

/-- `open` (netcdf_writer.py 215-223). -/
def W.open (strict : Bool) (w : W) : W × Option PyErr :=
  match createDims w.dimDefs w with
  | (w', some e) => (w', some e)
  | (w', none) =>
    match createVars strict w'.varDefs w' with
    | (w'', some e) => (w'', some e)
    | (w'', none) => ({ w'' with index := 0 }, none)

/-- The names which the class and its subclasses use themselves (netcdf_writer.py 20-388, l1b_writer.py 94-103): `setattr` with one of
these names would hide it. -/
def ownNames : List String :=
  ["VariableDescriptor", "_file_path", "_root", "_dimensions", "_variables", "dimensions", "variables", "output_index", "file_path",
   "define_dimension", "define_variable", "get_dimension_size", "get_variable_descriptor", "open", "create_all_dimensions",
   "create_all_variables", "create_dimension", "create_variable", "close", "get_variable", "write_record", "write_globals",
   "write_global", "chd", "cnf", "cst"]

/-- The expressions in the `write_record` methods (l1b_writer.py 840-934, 1562-1643, l1bs_writer.py 627-704): attributes of the surface,
of its closest burst and of the constants, local variables, numbers and arithmetic. -/
inductive Src where
  | missing
  | surf (a : String)
  | burst (a : String)
  | cst (a : String)
  | loc (a : String)
  | const (x : ℚ)
  | neg (e : Src)
  | degrees (e : Src)
  | sub (e f : Src)
  | mul (e f : Src)
  | div (e f : Src)
  deriving DecidableEq, Repr

end Dedop.Writer
