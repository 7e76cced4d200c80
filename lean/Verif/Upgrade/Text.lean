import Verif.Web.JsonText
import Mathlib.Data.Rat.Defs
import Mathlib.Algebra.Order.Ring.Unbundled.Rat

/-!
# Configuration upgrade on files (model)

Models `upgrade_config`, `_do_upgrade_config` and `upgrade_all_config` of
`/repo/dedop/ui/workspace_manager.py:310-369` on the text of the files: nothing is assumed about what the
user's file or the reference contains.
-/
namespace Dedop.UpgradeText

open Dedop.Names Dedop.Workspace Dedop.JsonText

/-- What Python makes of the text of a number: the text `repr` gives for the number that is read (or an
infinity if it is too large for a `float`), and the value of a text.  Used in reading and writing
(`workspace_manager.py:357`, `:362`, `:368`). -/
structure Numbers where
  canonical : Name → Json
  value : Name → ℚ

mutual
/-- The value with its numbers as they are after reading (`parse_int`, `parse_float` of `json/decoder.py`). -/
def readNums (N : Numbers) : Json → Json
  | .lit l => .lit l
  | .num t => N.canonical t
  | .str s => .str s
  | .arr l => .arr (readItems N l)
  | .obj m => .obj (readMembers N m)
/-- The elements of an array (`workspace_manager.py:362`, `:368`). -/
def readItems (N : Numbers) : List Json → List Json
  | [] => []
  | x :: rest => readNums N x :: readItems N rest
/-- The members of an object (`workspace_manager.py:362`, `:368`). -/
def readMembers (N : Numbers) : List (Name × Json) → List (Name × Json)
  | [] => []
  | kv :: rest => readMember N kv :: readMembers N rest
/-- A member (`workspace_manager.py:362`, `:368`). -/
def readMember (N : Numbers) : Name × Json → Name × Json
  | (k, v) => (k, readNums N v)
end

/-- `json.load(…, object_pairs_hook=OrderedDict)` with the numbers read (`workspace_manager.py:362`, `:368`). -/
def load (N : Numbers) (text : Name) : Except PyErr Json :=
  match loads text with
  | .error e => .error e
  | .ok v => .ok (readNums N v)

/-- `v[k]` with a string: `KeyError` for a missing key of an object, `TypeError` for everything else
(`workspace_manager.py:328`, `:331`, `:336-339`, `:349`). -/
def item (v : Json) (k : Name) : Except PyErr Json :=
  match v with
  | .obj m =>
    match Dict.get? m k with
    | some x => .ok x
    | none => .error (.keyError (String.ofList k))
  | _ => .error .typeError

/-- `v[i]` with a number: the element of an array, the character of a string; an object has no such key
(`workspace_manager.py:340-345`). -/
def nth (v : Json) (i : Nat) : Except PyErr Json :=
  match v with
  | .arr l =>
    match l[i]? with
    | some x => .ok x
    | none => .error .indexError
  | .str s =>
    match s[i]? with
    | some c => .ok (.str [c])
    | none => .error .indexError
  | .obj _ => .error (.keyError (toString i))
  | _ => .error .typeError

/-- `for x in v`: the elements of an array, the keys of an object, the characters of a string
(`workspace_manager.py:336`, `:339`). -/
def elements (v : Json) : Except PyErr (List Json) :=
  match v with
  | .arr l => .ok l
  | .obj m => .ok (m.map fun p => .str p.1)
  | .str s => .ok (s.map fun c => .str [c])
  | _ => .error .typeError

/-- A number for comparison (`workspace_manager.py:332`, `:337`). -/
inductive Num where
  | nan | minus | fin (q : ℚ) | plus
  deriving DecidableEq

/-- `a <= b` for numbers; never true for NaN (`workspace_manager.py:332`, `:337`). -/
def Num.le : Num → Num → Bool
  | .nan, _ => false
  | _, .nan => false
  | .minus, _ => true
  | _, .plus => true
  | .fin a, .fin b => decide (a ≤ b)
  | _, _ => false

/-- What a value is in a comparison: a number (booleans are numbers), a string or something else
(`workspace_manager.py:332`, `:337`). -/
inductive Operand where
  | num (x : Num)
  | str (s : Name)
  | other
  deriving DecidableEq

/-- The operand of a value (`workspace_manager.py:332`, `:337`). -/
def operand (N : Numbers) : Json → Operand
  | .lit .null => .other
  | .lit .true => .num (.fin 1)
  | .lit .false => .num (.fin 0)
  | .lit .nan => .num .nan
  | .lit .infinity => .num .plus
  | .lit .minusInfinity => .num .minus
  | .num t => .num (.fin (N.value t))
  | .str s => .str s
  | _ => .other

/-- `a <= b` (`workspace_manager.py:332`, `:337`).  Simplification: comparing two arrays, which Python does
element by element, is a `TypeError` here. -/
def pyLe (a b : Operand) : Except PyErr Bool :=
  match a, b with
  | .num x, .num y => .ok (x.le y)
  | .str s, .str t => .ok (decide (s ≤ t))
  | _, _ => .error .typeError

/-- `'__metainf__'` (`workspace_manager.py:328`). -/
def metaKey : Name := "__metainf__".toList
/-- `'version'` (`workspace_manager.py:328`). -/
def versionKey : Name := "version".toList
/-- `'changelog'` (`workspace_manager.py:336`). -/
def changelogKey : Name := "changelog".toList
/-- `'parameters'` (`workspace_manager.py:339`). -/
def parametersKey : Name := "parameters".toList

/-- `config['__metainf__']['version']` (`workspace_manager.py:328`, `:331`). -/
def metaVersion (v : Json) : Except PyErr Json :=
  match item v metaKey with
  | .error e => .error e
  | .ok m => item m versionKey

/-- `workspace_manager.py:327-330`: -1 after a `KeyError`. -/
def currentVersion (N : Numbers) (cur : Json) : Except PyErr Operand :=
  match metaVersion cur with
  | .ok v => .ok (operand N v)
  | .error (.keyError _) => .ok (.num (.fin (-1)))
  | .error e => .error e

/-- `(added_or_modified_list, removed_list)` (`workspace_manager.py:334-335`). -/
abbrev Lists := List Name × List Name

/-- `workspace_manager.py:341-347` for a key and its operation. -/
def put (s : Lists) (key : Name) (op : Json) : Lists :=
  match op with
  | .str op =>
    if op = ['*'] ∨ op = ['+'] then
      (if key ∈ s.1 then s.1 else s.1 ++ [key], if key ∈ s.2 then s.2.erase key else s.2)
    else if op = ['-'] then
      (if key ∈ s.1 then s.1.erase key else s.1, if key ∈ s.2 then s.2 else s.2 ++ [key])
    else s
  | _ => s

/-- `workspace_manager.py:340-347`: one parameter of a change.  Simplification: a key which is not a string is
a `TypeError`; the code goes on and fails at line 349 or ignores it. -/
def parameter (s : Lists) (p : Json) : Except PyErr Lists :=
  match nth p 0 with
  | .error e => .error e
  | .ok key =>
    match nth p 1 with
    | .error e => .error e
    | .ok op =>
      match key with
      | .str key => .ok (put s key op)
      | _ => .error .typeError

/-- `workspace_manager.py:339-347`. -/
def parameters (s : Lists) : List Json → Except PyErr Lists
  | [] => .ok s
  | p :: rest =>
    match parameter s p with
    | .error e => .error e
    | .ok s => parameters s rest

/-- `workspace_manager.py:337-347`: one change; what is not newer than the file is passed over. -/
def change (N : Numbers) (cv : Operand) (s : Lists) (c : Json) : Except PyErr Lists :=
  match item c versionKey with
  | .error e => .error e
  | .ok v =>
    match pyLe (operand N v) cv with
    | .error e => .error e
    | .ok true => .ok s
    | .ok false =>
      match item c parametersKey with
      | .error e => .error e
      | .ok ps =>
        match elements ps with
        | .error e => .error e
        | .ok ps => parameters s ps

/-- `workspace_manager.py:336-347`. -/
def changes (N : Numbers) (cv : Operand) (s : Lists) : List Json → Except PyErr Lists
  | [] => .ok s
  | c :: rest =>
    match change N cv s c with
    | .error e => .error e
    | .ok s => changes N cv s rest

/-- `workspace_manager.py:348-349`. -/
def add (dflt : Json) (cur : Dict Name Json) : List Name → Except PyErr (Dict Name Json)
  | [] => .ok cur
  | k :: rest =>
    match item dflt k with
    | .error e => .error e
    | .ok v => add dflt (Dict.set cur k v) rest

/-- `workspace_manager.py:350-351`. -/
def remove (cur : Dict Name Json) : List Name → Dict Name Json
  | [] => cur
  | k :: rest => remove (Dict.erase cur k) rest

/-- `_do_upgrade_config` (`workspace_manager.py:325-353`).  A value that is not an object fails at line 328. -/
def doUpgrade (N : Numbers) (cur dflt : Json) : Except PyErr Json :=
  match currentVersion N cur with
  | .error e => .error e
  | .ok cv =>
    match metaVersion dflt with
    | .error e => .error e
    | .ok dv =>
      match pyLe (operand N dv) cv with
      | .error e => .error e
      | .ok true => .ok cur
      | .ok false =>
        match item dflt metaKey with
        | .error e => .error e
        | .ok m =>
          match item m changelogKey with
          | .error e => .error e
          | .ok log =>
            match elements log with
            | .error e => .error e
            | .ok log =>
              match changes N cv ([], []) log with
              | .error e => .error e
              | .ok (added, removed) =>
                match cur with
                | .obj members =>
                  match add dflt members added with
                  | .error e => .error e
                  | .ok members => .ok (.obj (Dict.set (remove members removed) metaKey m))
                | _ => .error .typeError

/-- `config_json['__metainf__']['version'] if '__metainf__' in config_json else -1`
(`workspace_manager.py:292`, `:320`). -/
def version (v : Json) : Except PyErr Json :=
  match v with
  | .obj m =>
    match Dict.get? m metaKey with
    | none => .ok (.num ['-', '1'])
    | some x => item x versionKey
  | _ => .error .typeError

/-- `upgrade_config` (`workspace_manager.py:316-323`) between reading and writing the file: the new text and
the version that is returned. -/
def upgradeText (N : Numbers) (cur dflt : Name) : Except PyErr (Name × Json) :=
  match load N cur with
  | .error e => .error e
  | .ok c =>
    match names c with
    | .error e => .error e
    | .ok _ =>
      match load N dflt with
      | .error e => .error e
      | .ok d =>
        match doUpgrade N c d with
        | .error e => .error e
        | .ok c =>
          match version c with
          | .error e => .error e
          | .ok v => .ok (dumps c, v)

/-- `upgrade_config` (`workspace_manager.py:316-323`) on the files. -/
def upgradeFile (N : Numbers) (dflt : Name → Name) (fs : FS) (w c key : Name) : Res Json :=
  match Dict.get? fs (cfgFile w c key) with
  | some (.file text) =>
    match upgradeText N text (dflt key) with
    | .error e => (.error e, fs)
    | .ok (new, v) =>
      match writeConfigFile fs w c key new with
      | (.error e, fs1) => (.error e, fs1)
      | (.ok (), fs1) => (.ok v, fs1)
  | _ => (.error .ioError, fs)

/-- `upgrade_all_config` (`workspace_manager.py:310-314`); the files in the order given. -/
def upgradeFiles (N : Numbers) (dflt : Name → Name) (fs : FS) (w c : Name) : List Name → Res (List Json)
  | [] => (.ok [], fs)
  | key :: rest =>
    match upgradeFile N dflt fs w c key with
    | (.error e, fs1) => (.error e, fs1)
    | (.ok v, fs1) =>
      match upgradeFiles N dflt fs1 w c rest with
      | (.error e, fs2) => (.error e, fs2)
      | (.ok vs, fs2) => (.ok (v :: vs), fs2)

end Dedop.UpgradeText
