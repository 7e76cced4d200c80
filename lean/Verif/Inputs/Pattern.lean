import Verif.Workspace.FS
import Mathlib.Data.List.Infix
import Mathlib.Data.List.Basic

/-!
# Wildcards (model)

`_expand_wildcard_paths` of `/repo/dedop/cli/main.py:85-94` hands every argument to `glob.glob`, `get_nc_filename_list` of
`/repo/dedop/ui/workspace_manager.py:637-649` uses `fnmatch.fnmatch`.  Both functions of the Python library are modelled here, so that
the claims are about names and files and not about an abstract matching.
-/
namespace Dedop.Inputs

open Dedop.Names Dedop.Workspace

/-! ## Matching a name (`fnmatch`, used at `workspace_manager.py:641`, `646` and inside `glob.glob` at `cli/main.py:90`) -/

/-- What one element of a pattern accepts: `*`, `?`, `[…]`, an ordinary character (`workspace_manager.py:641`, library `fnmatch`). -/
inductive Tok where
  | star
  | any
  | cls (neg : Bool) (items : List (Char × Char))
  | lit (c : Char)
  deriving DecidableEq, Repr

/-- The text up to the bracket which closes a class, and the rest.  A `]` directly after `[` or `[!` belongs to the class (library
`fnmatch`, used at `workspace_manager.py:641`). -/
def closing (cs : Name) : Option (Name × Name) :=
  let head : Name × Name := match cs with
    | '!' :: ']' :: r => (['!', ']'], r)
    | '!' :: r => (['!'], r)
    | ']' :: r => ([']'], r)
    | r => ([], r)
  match head.2.dropWhile (· ≠ ']') with
  | [] => none
  | _ :: rest => some (head.1 ++ head.2.takeWhile (· ≠ ']'), rest)

/-- The ranges of a class; a single character is a range of one, a range whose ends are exchanged is empty (library `fnmatch`, used at
`workspace_manager.py:641`; before Python 3.9 such a range is an error instead). -/
def ranges : Name → List (Char × Char)
  | a :: '-' :: b :: r => (a, b) :: ranges r
  | a :: r => (a, a) :: ranges r
  | [] => []

/-- The class from the text between its brackets (library `fnmatch`, used at `workspace_manager.py:641`). -/
def classTok : Name → Tok
  | '!' :: r => .cls true (ranges r)
  | r => .cls false (ranges r)

/-- The elements of a pattern.  The first argument bounds the number of rounds; the length of the pattern suffices (library `fnmatch`,
used at `workspace_manager.py:641`). -/
def tokens : Nat → Name → List Tok
  | 0, _ => []
  | _, [] => []
  | n + 1, c :: cs =>
    if c = '*' then .star :: tokens n cs
    else if c = '?' then .any :: tokens n cs
    else if c = '[' then
      match closing cs with
      | none => .lit '[' :: tokens n cs
      | some (inside, rest) => classTok inside :: tokens n rest
    else .lit c :: tokens n cs

/-- Whether an element that stands for one character accepts `c`; a star is not one (library `fnmatch`, used at
`workspace_manager.py:641`). -/
def Tok.accepts : Tok → Char → Bool
  | .star, _ => false
  | .any, _ => true
  | .cls neg items, c => (items.any fun r => decide (r.1 ≤ c ∧ c ≤ r.2)) != neg
  | .lit a, c => a == c

/-- Whether the elements match the whole name (library `fnmatch`, used at `workspace_manager.py:641`). -/
def matchToks : List Tok → Name → Bool
  | [], s => s.isEmpty
  | .star :: ts, s => s.tails.any (matchToks ts)
  | t :: ts, s =>
    match s with
    | [] => false
    | c :: s => t.accepts c && matchToks ts s

/-- `fnmatch.fnmatch(name, pattern)` on a system whose file names distinguish upper and lower case (`workspace_manager.py:641`, `646`). -/
def fnmatch (name pat : Name) : Bool := matchToks (tokens pat.length pat) name

/-! ## Expanding a path (`glob.glob` at `cli/main.py:90-92`) -/

/-- `glob.has_magic` (library, used by `glob.glob` at `cli/main.py:90`). -/
def hasMagic (s : Name) : Bool := s.any fun c => c == '*' || c == '?' || c == '['

/-- `glob._ishidden` (library, used by `glob.glob` at `cli/main.py:90`). -/
def hidden (s : Name) : Bool := s.head? == some '.'

/-- The pattern `**` (library, used by `glob.glob` at `cli/main.py:90`). -/
def doubleStar : Name := ['*', '*']

/-- What `glob._rlistdir` yields below the directory `d`, with `d` itself for `**` matching nothing: the entries which are reached without
a hidden name; `dironly` keeps the directories.  The order is that of the model's tree instead of the order of the system (library, used by
`glob.glob(…, recursive=True)` at `cli/main.py:90`). -/
def below (fs : FS) (dironly : Bool) (d : Path) : List Path :=
  if fs.isDir d then
    (fs.map (·.1)).filter fun p =>
      decide (d <+: p) && (p.drop d.length).all (fun n => !hidden n) && (!dironly || fs.isDir p)
  else []

/-- The entries of the directory `d` which the pattern of one component selects (library `_glob1`, used by `glob.glob` at
`cli/main.py:90`): hidden names only if the pattern starts with a dot. -/
def matching (fs : FS) (dironly : Bool) (d : Path) (pat : Name) : List Path :=
  if fs.isDir d then
    (((fs.listdir d).filter fun n => (hidden pat || !hidden n) && fnmatch n pat).map fun n => d ++ [n]).filter
      fun p => !dironly || fs.isDir p
  else []

/-- One component below one directory (library `_iglob`, used by `glob.glob` at `cli/main.py:90`). -/
def component (fs : FS) (dironly : Bool) (d : Path) (pat : Name) : List Path :=
  if hasMagic pat then
    if pat = doubleStar then below fs dironly d else matching fs dironly d pat
  else if fs.exists? (d ++ [pat]) then [d ++ [pat]] else []

/-- `glob._iglob` on the components of a path in reverse order (library, used by `glob.glob(…, recursive=True)` at `cli/main.py:90`).
Simplifications: paths are relative to one directory, have no components `.`, `..` or empty ones, and no trailing slash; the path which
`**` contributes for zero components is that directory, without the slash at its end. -/
def iglob (fs : FS) : Bool → List Name → List Path
  | _, [] => [[]]
  | dironly, base :: dir =>
    if (base :: dir).any hasMagic then
      (if dir.any hasMagic then iglob fs true dir else [dir.reverse]).flatMap fun d => component fs dironly d base
    else if fs.exists? (base :: dir).reverse then [(base :: dir).reverse] else []

/-- `glob.glob(path, recursive=True)` (`cli/main.py:89-90`).  For the pattern `**` alone the directory itself is left out, as in
`glob.iglob`. -/
def glob (fs : FS) (pat : Path) : List Path :=
  if pat = [doubleStar] then (iglob fs false pat.reverse).filter (· ≠ []) else iglob fs false pat.reverse

/-- `_expand_wildcard_paths` (`cli/main.py:85-94`) on Python 3.5 and later. -/
def expandPaths (fs : FS) (args : List Path) : List Path := args.flatMap (glob fs)

end Dedop.Inputs
