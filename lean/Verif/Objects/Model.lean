import Verif.Basic.Dict
/-!
# Surfaces and bursts as Python objects (C110, C111)

`SurfaceData` and `L1AProcessingData` keep most of their values in a dictionary `_data`.  Each name is declared as a property
of the class; the objects can also be indexed by name.  The velocity of a burst is kept in a matrix outside the dictionary,
its norm is computed once.

Left out: names beginning with an underscore as attributes (`surface._data = …`), the attributes `cst` and `chd`, methods read
as attributes, and changes made inside a stored array or list through another reference to it.
-/
namespace Dedop.Objects

/-- What the getter of a property does (surface_data.py 23-1055, l1a_processing_data.py 30-820).
* `cell k`: `return self["k"]`;
* `cellOrFalse k`: stores `False` first if there is no entry (surface_data.py 55-58);
* `view l`: the tuple or column of the attributes `l`;
* `vel i`, `velAll`: from the matrix `_vel_sat_sar` (l1a_processing_data.py 242-279);
* `norm`: the norm of the velocity, computed at the first use (l1a_processing_data.py 815-820);
* `field f`: `return self.f`;
* `derived l`: a value computed from the attributes `l`;
* `undeclared`: a value computed from `chd.n_bursts_cycle`, which no characterisation file declares
  (l1a_processing_data.py 796-812): `AttributeError`. -/
inductive Getter where
  | cell (key : String)
  | cellOrFalse (key : String)
  | view (names : List String)
  | vel (i : Fin 3)
  | velAll
  | norm
  | field (f : String)
  | derived (names : List String)
  | undeclared
  deriving DecidableEq, Repr

/-- What the setter of a property does (surface_data.py 23-1061, l1a_processing_data.py 30-790).
* `cell k`: `self["k"] = value`;
* `view l`: `self.a, self.b, self.c = value`;
* `vel i`, `velAll`: into the matrix, for `velAll` component by component (l1a_processing_data.py 249-285);
* `field f`: `self.f = value`. -/
inductive Setter where
  | cell (key : String)
  | view (names : List String)
  | vel (i : Fin 3)
  | velAll
  | field (f : String)
  deriving DecidableEq, Repr

/-- A declared property: `@property`, `@name.setter` and `@name.deleter` (the key which the deleter deletes), as used in
surface_data.py 23-1061 and l1a_processing_data.py 30-820. -/
structure Attr where
  name : String
  getter : Getter
  setter : Option Setter
  deleter : Option String
  deriving DecidableEq, Repr

/-- A class: its properties in the order of their definitions, and its other names (methods and what every Python class has),
which `hasattr(self.__class__, key)` also finds (surface_data.py 1101-1104, l1a_processing_data.py 845-848). -/
structure Cls where
  attrs : List Attr
  others : String → Bool

/-- The property of a name: of two definitions of the same name in a class body the later one counts (`stack_mask` is defined
at surface_data.py 776 and 806). -/
def findAttr (attrs : List Attr) (name : String) : Option Attr := attrs.reverse.find? (fun a => decide (a.name = name))

/-- `hasattr(self.__class__, key)` (surface_data.py 1102, l1a_processing_data.py 846). -/
def Cls.has (c : Cls) (key : String) : Bool := (findAttr c.attrs key).isSome || c.others key

/-- What the two classes need to know about the values stored in them: `False`, `0`, tuples (or columns), the norm of a
velocity and the computed attributes (surface_data.py 849-851 and 932-933, l1a_processing_data.py 792-793).  Left abstract. -/
structure Vals (V : Type) where
  no : V
  zero : V
  pack : List V → V
  unpack : V → Option (List V)
  unpack_pack : ∀ l, unpack (pack l) = some l
  norm : V → V → V → V
  derive : String → List V → Except PyErr V

/-- An object: `_data`, the matrix `_vel_sat_sar`, `_vel_sat_norm` and the other instance attributes
(surface_data.py 1075-1082, l1a_processing_data.py 824-836).  A surface has no velocity matrix; its properties do not use it. -/
structure Obj (V : Type) where
  data : Dict String V
  vel : Fin 3 → V
  norm : Option V
  fields : Dict String V

variable {V : Type}

/-- The exception of a missing or read-only attribute; not tied to a line of the code. -/
def attributeError : PyErr := .other "AttributeError"

/-- Look up an entry: `self._data[key]` (surface_data.py 1106-1107, l1a_processing_data.py 850-851). -/
def Obj.entry (o : Obj V) (key : String) : Except PyErr V :=
  match o.data.get? key with
  | some v => .ok v
  | none => .error (.keyError key)

/-- Read a property which does not refer to other properties (surface_data.py 23-1055, l1a_processing_data.py 30-820). -/
def readBase (p : Vals V) (o : Obj V) (g : Getter) : Except PyErr V × Obj V :=
  match g with
  | .cell k => (o.entry k, o)
  | .cellOrFalse k =>
    match o.data.get? k with
    | some v => (.ok v, o)
    | none => (.ok p.no, { o with data := o.data.set k p.no })
  | .vel i => (.ok (o.vel i), o)
  | .velAll => (.ok (p.pack [o.vel 0, o.vel 1, o.vel 2]), o)
  | .norm =>
    match o.norm with
    | some n => (.ok n, o)
    | none => (.ok (p.norm (o.vel 0) (o.vel 1) (o.vel 2)), { o with norm := some (p.norm (o.vel 0) (o.vel 1) (o.vel 2)) })
  | .field f =>
    match o.fields.get? f with
    | some v => (.ok v, o)
    | none => (.error attributeError, o)
  | .undeclared => (.error attributeError, o)
  | .view _ => (.error attributeError, o)
  | .derived _ => (.error attributeError, o)

/-- Read several attributes of the same object from left to right, up to the first exception; the attributes are themselves
properties (surface_data.py 155, 212, 268, 325, 382, 454, 849-851, 932-933; l1a_processing_data.py 216-218, 337-339, 461-463, 524-526,
793).  A property that refers to other properties does not refer to one that does so too (`reads_simple`). -/
def readAll (c : Cls) (p : Vals V) : Obj V → List String → Except PyErr (List V) × Obj V
  | o, [] => (.ok [], o)
  | o, a :: t =>
    match findAttr c.attrs a with
    | none => (.error attributeError, o)
    | some at' =>
      match readBase p o at'.getter with
      | (.error e, o') => (.error e, o')
      | (.ok v, o') =>
        match readAll c p o' t with
        | (.error e, o'') => (.error e, o'')
        | (.ok l, o'') => (.ok (v :: l), o'')

/-- `object.name` (surface_data.py 23-1055, l1a_processing_data.py 30-820).  A name without a property is an attribute of the
instance or missing. -/
def getAttr (c : Cls) (p : Vals V) (o : Obj V) (name : String) : Except PyErr V × Obj V :=
  match findAttr c.attrs name with
  | none => readBase p o (.field name)
  | some a =>
    match a.getter with
    | .view names =>
      match readAll c p o names with
      | (.error e, o') => (.error e, o')
      | (.ok l, o') => (.ok (p.pack l), o')
    | .derived names =>
      match readAll c p o names with
      | (.error e, o') => (.error e, o')
      | (.ok l, o') => (p.derive name l, o')
    | g => readBase p o g

/-- `self[key] = value` (surface_data.py 1101-1104, l1a_processing_data.py 845-848). -/
def setItem (c : Cls) (o : Obj V) (key : String) (v : V) : Except PyErr Unit × Obj V :=
  if c.has key then (.ok (), { o with data := o.data.set key v }) else (.error (.keyError key), o)

/-- Store one velocity component: `self._vel_sat_sar[i, 0] = value` (l1a_processing_data.py 250, 261, 272, 283-285).  The
conversion to a float is not modelled. -/
def setVel (o : Obj V) (i : Fin 3) (v : V) : Obj V := { o with vel := fun j => if j = i then v else o.vel j }

/-- Write through a setter which does not refer to other properties (surface_data.py 23-1061, l1a_processing_data.py 30-790).
For `velAll` the three components are assigned one after the other; a shorter value raises `IndexError` after the components it
has (l1a_processing_data.py 283-285), a value without components `TypeError`. -/
def writeBase (c : Cls) (p : Vals V) (o : Obj V) (s : Setter) (v : V) : Except PyErr Unit × Obj V :=
  match s with
  | .cell k => setItem c o k v
  | .vel i => (.ok (), setVel o i v)
  | .velAll =>
    match p.unpack v with
    | none => (.error .typeError, o)
    | some [] => (.error .indexError, o)
    | some [x] => (.error .indexError, setVel o 0 x)
    | some [x, y] => (.error .indexError, setVel (setVel o 0 x) 1 y)
    | some (x :: y :: z :: _) => (.ok (), setVel (setVel (setVel o 0 x) 1 y) 2 z)
  | .field f => (.ok (), { o with fields := o.fields.set f v })
  | .view _ => (.error attributeError, o)

/-- Assign several attributes from left to right: `self.a, self.b, self.c = value` after unpacking (surface_data.py 159, 216, 272,
329, 386, 458; l1a_processing_data.py 221-224, 342-345, 466-469, 529-532). -/
def writeAll (c : Cls) (p : Vals V) : Obj V → List (String × V) → Except PyErr Unit × Obj V
  | o, [] => (.ok (), o)
  | o, (a, v) :: t =>
    match (findAttr c.attrs a).bind (·.setter) with
    | none => (.error attributeError, o)
    | some s =>
      match writeBase c p o s v with
      | (.error e, o') => (.error e, o')
      | (.ok (), o') => writeAll c p o' t

/-- `object.name = value` (surface_data.py 23-1061, l1a_processing_data.py 30-790).  A name without a property becomes an attribute
of the instance; a property without a setter raises `AttributeError`; unpacking a value with another number of elements raises
before anything is assigned. -/
def setAttr (c : Cls) (p : Vals V) (o : Obj V) (name : String) (v : V) : Except PyErr Unit × Obj V :=
  match findAttr c.attrs name with
  | none => writeBase c p o (.field name) v
  | some a =>
    match a.setter with
    | none => (.error attributeError, o)
    | some (.view names) =>
      match p.unpack v with
      | none => (.error .typeError, o)
      | some l => if l.length = names.length then writeAll c p o (names.zip l) else (.error .valueError, o)
    | some s => writeBase c p o s v

/-- `del self[key]` (surface_data.py 1109-1110, l1a_processing_data.py 853-854). -/
def delItem (o : Obj V) (key : String) : Except PyErr Unit × Obj V :=
  match o.data.get? key with
  | some _ => (.ok (), { o with data := o.data.erase key })
  | none => (.error (.keyError key), o)

/-- `del object.name` (the deleters of surface_data.py 23-930 and l1a_processing_data.py 30-790). -/
def delAttr (c : Cls) (o : Obj V) (name : String) : Except PyErr Unit × Obj V :=
  match findAttr c.attrs name with
  | none =>
    match o.fields.get? name with
    | some _ => (.ok (), { o with fields := o.fields.erase name })
    | none => (.error attributeError, o)
  | some a =>
    match a.deleter with
    | none => (.error attributeError, o)
    | some k => delItem o k

/-- What a program can do with an object: read, store and delete an attribute or an item; not tied to a line of the code. -/
inductive Op (V : Type) where
  | get (name : String)
  | set (name : String) (v : V)
  | del (name : String)
  | getItem (key : String)
  | setItem (key : String) (v : V)
  | delItem (key : String)
  deriving DecidableEq, Repr

/-- One operation: what it returns (`none` for a statement) and the object afterwards (surface_data.py 1101-1110,
l1a_processing_data.py 845-854 and the properties).  An exception leaves the object as it was when it was raised. -/
def step (c : Cls) (p : Vals V) (o : Obj V) : Op V → Except PyErr (Option V) × Obj V
  | .get n => ((getAttr c p o n).1.map some, (getAttr c p o n).2)
  | .set n v => ((setAttr c p o n v).1.map fun _ => none, (setAttr c p o n v).2)
  | .del n => ((delAttr c o n).1.map fun _ => none, (delAttr c o n).2)
  | .getItem k => ((o.entry k).map some, o)
  | .setItem k v => ((setItem c o k v).1.map fun _ => none, (setItem c o k v).2)
  | .delItem k => ((delItem o k).1.map fun _ => none, (delItem o k).2)

/-- A history of operations (a program that handles every exception); not tied to a line of the code. -/
def run (c : Cls) (p : Vals V) : Obj V → List (Op V) → Obj V
  | o, [] => o
  | o, op :: t => run c p (step c p o op).2 t

/-- Store a list of entries one by one with `self[name] = value`, up to the first exception: `set_values` called once per
dictionary (surface_data.py 1084-1088, 1094-1099). -/
def setValues (c : Cls) : Obj V → List (String × V) → Except PyErr (Obj V)
  | o, [] => .ok o
  | o, (k, v) :: t =>
    match setItem c o k v with
    | (.error e, _) => .error e
    | (.ok (), o') => setValues c o' t

/-- `SurfaceData(cst, chd, number, *dicts, **values)` (surface_data.py 1063-1092).  `entries` are the entries of the dictionaries
followed by the keyword values; `null` is `SurfaceType.surface_null`. -/
def newSurface (c : Cls) (p : Vals V) (null number : V) (entries : List (String × V)) : Except PyErr (Obj V) :=
  setValues c
    { data := [("surface_type", null), ("stack_all_beams_indices", p.pack []), ("stack_all_beams_indices_abs", p.pack []),
        ("stack_all_bursts", p.pack [])]
      vel := fun _ => p.zero
      norm := none
      fields := [("_surface_counter", number)] }
    entries

/-- `dict.update` (l1a_processing_data.py 838-840), entry by entry; the second argument is the entries to store. -/
def update : Dict String V → List (String × V) → Dict String V
  | d, [] => d
  | d, (k, v) :: t => update (d.set k v) t

/-- `values.pop(name, 0)` (l1a_processing_data.py 832-834). -/
def popped (p : Vals V) (values : Dict String V) (name : String) : V := (values.get? name).getD p.zero

/-- `L1AProcessingData(cst, chd, number, *dicts, **values)` (l1a_processing_data.py 822-843): the velocity is taken out of the
keyword values only, all other entries are stored without a check of their names.  `null` is `PacketPid.null`;
`False` stands for the `None` of `_beam_angles_trend`, which nothing reads. -/
def newBurst (p : Vals V) (null number : V) (dicts : List (String × V)) (values : Dict String V) : Obj V :=
  { data := update (update [("isp_pid", null)] dicts)
      (((values.erase "x_vel_sat_sar").erase "y_vel_sat_sar").erase "z_vel_sat_sar")
    vel := fun i => popped p values (if i = 0 then "x_vel_sat_sar" else if i = 1 then "y_vel_sat_sar" else "z_vel_sat_sar")
    norm := none
    fields := [("_counter", number), ("_seq_count_sar", number), ("_beam_angles_trend", p.no), ("_burst_processed", p.no)] }

end Dedop.Objects
