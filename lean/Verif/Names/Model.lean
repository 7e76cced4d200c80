import Verif.Basic.Dict

/-!
# Names of workspaces, configurations, notebooks, products (model)

Strings are modelled as lists of characters (`Name`).
-/
namespace Dedop.Names

/-- A Python `str`.  Not tied to a line of the code. -/
abbrev Name := List Char

/-- The decimal digit `d` (for `d < 10`). -/
def digitChar (d : Nat) : Char := Char.ofNat ('0'.toNat + d)

/-- `'%d' % n` for a natural number, as used in `cli/main.py:374`, `673` and
`workspace_manager.py:506`. -/
def decimal (n : Nat) : Name :=
  if _h : n < 10 then [digitChar n] else decimal (n / 10) ++ [digitChar (n % 10)]

/-! ## Unique names -/

/-- Loop of `ensure_unique_name` (`cli/main.py:372-375`, `671-674`), started with the candidate and
the next index.  `none` means that `fuel` rounds were not enough. -/
def uniqueLoop (existing : List Name) (base : Name) : Nat → Name → Nat → Option Name
  | 0, _, _ => none
  | fuel + 1, candidate, index =>
    if candidate ∈ existing then
      uniqueLoop existing base fuel (base ++ ['_'] ++ decimal index) (index + 1)
    else some candidate

/-- `ManageWorkspacesCommand.ensure_unique_name` (`cli/main.py:367-376`). -/
def uniqueWorkspaceName (fuel : Nat) (existing : List Name) (base : Name) : Option Name :=
  uniqueLoop existing base fuel base 2

/-- `ManageConfigsCommand.ensure_unique_name` (`cli/main.py:666-675`).  `get_config_names` returns
`None` when the workspace has no `configs` directory (`workspace_manager.py:274-279`), and
`x in None` raises `TypeError`. -/
def uniqueConfigName (fuel : Nat) (existing : Option (List Name)) (base : Name) :
    Except PyErr (Option Name) :=
  match existing with
  | none => .error .typeError
  | some names => .ok (uniqueLoop names base fuel base 2)

/-! ## Notebooks -/

/-- `'%s-%d.ipynb' % (notebook_basename, index)` (`workspace_manager.py:506`). -/
def notebookName (base : Name) (index : Nat) : Name :=
  base ++ ['-'] ++ decimal index ++ ['.', 'i', 'p', 'y', 'n', 'b']

/-- Loop of `_launch_notebook_from_template` (`workspace_manager.py:503-509`): first index, counted
from `index + 1`, whose file does not exist.  `none`: `fuel` rounds were not enough. -/
def notebookLoop (dir : Dict Name String) (base : Name) : Nat → Nat → Option Nat
  | 0, _ => none
  | fuel + 1, index =>
    match dir.get? (notebookName base (index + 1)) with
    | none => some (index + 1)
    | some _ => notebookLoop dir base fuel (index + 1)

/-- `_launch_notebook_from_template` (`workspace_manager.py:491-517`) on the contents of the
notebooks directory: the new contents and the file written.  A missing directory is created empty
first (`497-501`).  Starting the notebook server (`517`) does not touch these files in the model. -/
def launch (fuel : Nat) (dir : Dict Name String) (base : Name) (json : String) :
    Option (Dict Name String × Name) :=
  match notebookLoop dir base fuel 0 with
  | none => none
  | some i => some (dir.set (notebookName base i) json, notebookName base i)

/-! ## Listing of NetCDF files -/

/-- Insertion into a sorted list of strings.  Python semantics, for `workspace_manager.py:649`. -/
def insertName (a : Name) : List Name → List Name
  | [] => [a]
  | b :: l => if a ≤ b then a :: b :: l else b :: insertName a l

/-- Python's `sorted` on strings: by code points, lexicographically.  Used in `workspace_manager.py:649`. -/
def sortNames : List Name → List Name
  | [] => []
  | a :: l => insertName a (sortNames l)

/-- `fn.endswith('.nc')`.  `workspace_manager.py:639`. -/
def isNc (fn : Name) : Bool := ['.', 'n', 'c'].isSuffixOf fn

/-- The `pattern` argument of `get_nc_filename_list` (`workspace_manager.py:637`): `None`, one
string or an iterable of strings.  The pattern language is a parameter of the model. -/
inductive PatternArg (P : Type) where
  | absent
  | single (p : P)
  | many (ps : List P)

/-- `get_nc_filename_list` (`workspace_manager.py:637-649`).  `entries` is the directory with, for
each name, whether it is a regular file; `fnmatch` is the matching of a name against a pattern. -/
def ncList {P : Type} (fnmatch : Name → P → Bool) (entries : List (Name × Bool))
    (pattern : PatternArg P) : List Name :=
  let fnList := (entries.filter (fun e => isNc e.1 && e.2)).map (·.1)
  match pattern with
  | .absent => sortNames fnList
  | .single p => sortNames (fnList.filter (fun fn => fnmatch fn p))
  | .many ps =>
    if ps.isEmpty then sortNames fnList
    else sortNames (fnList.flatMap (fun fn =>
      ps.flatMap (fun p => if fnmatch fn p then [fn] else [])))

/-! ## Titles -/

/-- `s[k:]` for a possibly negative `k`.  Python semantics, for `workspace_manager.py:673-674`. -/
def sliceFrom (s : Name) (k : Int) : Name :=
  if k < 0 then s.drop (s.length + k).toNat else s.drop k.toNat

/-- `s[:k]` for a possibly negative `k`.  Python semantics, for `workspace_manager.py:673-674`. -/
def sliceTo (s : Name) (k : Int) : Name :=
  if k < 0 then s.take (s.length + k).toNat else s.take k.toNat

/-- The argument `mode` of `_limit_title`; any other value fails the assertion.  `workspace_manager.py:672`. -/
inductive Mode where
  | r
  | l
  deriving DecidableEq, Repr

/-- `_limit_title` (`workspace_manager.py:668-674`); a failed assertion is an error. -/
def limitTitle (name : Name) (maxLen : Int) (mode : Mode) : Except PyErr Name :=
  if name = [] then .error (.other "AssertionError")
  else if ¬ maxLen > 3 then .error (.other "AssertionError")
  else if (name.length : Int) ≤ maxLen then .ok name
  else match mode with
    | .r => .ok (['.', '.', '.'] ++ sliceFrom name (3 - maxLen))
    | .l => .ok (sliceTo name (maxLen - 3) ++ ['.', '.', '.'])

/-! ## Output products -/

/-- `os.path.basename` (POSIX): what follows the last `/`.  Used in `processor.py:138`. -/
def basename (p : Name) : Name := (p.reverse.takeWhile (· ≠ '/')).reverse

/-- `os.path.splitext(p)[0]` on a name without `/`: cut at the last dot, unless nothing but dots
precedes it (or there is no dot). -/
def stem (p : Name) : Name :=
  if '.' ∈ p then
    let before := ((p.reverse.dropWhile (· ≠ '.')).drop 1).reverse
    if before.any (· ≠ '.') then before else p
  else p

/-- `processor.py:138-140`: `splitext(basename)` and removal of a leading `L1A`. -/
def l1aBase (path : Name) : Name :=
  let s := stem (basename path)
  if ['L', '1', 'A'].isPrefixOf s then s.drop 3 else s

/-- `processor.py:142-148`: `'_%s' % x` if `x` is not empty. -/
def part (x : Name) : Name := if x = [] then [] else '_' :: x

/-- `processor.py:151`: `'L1BS%s%s.nc'`. -/
def l1bsName (path name : Name) : Name :=
  ['L', '1', 'B', 'S'] ++ part (l1aBase path) ++ part name ++ ['.', 'n', 'c']

/-- `processor.py:155`: `'L1B%s%s.nc'`. -/
def l1bName (path name : Name) : Name :=
  ['L', '1', 'B'] ++ part (l1aBase path) ++ part name ++ ['.', 'n', 'c']

/-- `os.path.join(out_path, name)` for a relative name (`processor.py:152`, `156`): a separator is
inserted unless the directory ends with one or is empty. -/
def join (dir name : Name) : Name :=
  if dir = [] ∨ dir.getLast? = some '/' then dir ++ name else dir ++ ['/'] ++ name

end Dedop.Names
