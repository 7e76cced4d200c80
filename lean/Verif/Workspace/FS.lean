import Verif.Basic.Dict
import Verif.Names.Model

/-!
# File system below the workspaces directory (model)

The part of the file system the workspace manager works on
(`/repo/dedop/ui/workspace_manager.py`), as a finite map from paths to entries.  A path is the list
of its components relative to the workspaces directory; `[]` is that directory itself.  Symbolic
links, permissions and failures of the operating system other than the ones stated are not modelled.
-/
namespace Dedop.Workspace

open Dedop.Names

/-- A directory, or a regular file with its contents. -/
inductive Entry where
  | dir
  | file (content : Name)
  deriving DecidableEq, Repr

/-- A path, as the names from the root; not tied to a line of the code. -/
abbrev Path := List Name

/-- A file system: the entries by path; not tied to a line of the code. -/
abbrev FS := Dict Path Entry

namespace FS

/-- `os.path.exists`. -/
def exists? (fs : FS) (p : Path) : Bool := (Dict.get? fs p).isSome

/-- `os.path.isdir`. -/
def isDir (fs : FS) (p : Path) : Bool := Dict.get? fs p == some .dir

/-- `os.listdir` of a directory: names of the entries directly below. -/
def listdir (fs : FS) (p : Path) : List Name :=
  fs.filterMap (fun e =>
    if p <+: e.1 ∧ e.1.length = p.length + 1 then e.1.getLast? else none)

/-- `shutil.rmtree` on a directory: removes it and everything below. -/
def rmtree (fs : FS) (p : Path) : FS := fs.filter (fun e => decide (¬ p <+: e.1))

/-- Everything at or below `p`, moved to `q`. -/
def rebase (fs : FS) (p q : Path) : FS :=
  (fs.filter (fun e => decide (p <+: e.1))).map (fun e => (q ++ e.1.drop p.length, e.2))

/-- `shutil.copytree(p, q)` for a directory `p` and a `q` that does not exist. -/
def copytree (fs : FS) (p q : Path) : FS := fs ++ rebase fs p q

/-- `os.rename(p, q)` where `q` does not exist (or was removed before) and is not below `p`. -/
def rename (fs : FS) (p q : Path) : FS := rmtree fs p ++ rebase fs p q

/-- Create one directory unless it is there; fails if it is a regular file. -/
def mkdirOk (fs : FS) (p : Path) : Except PyErr FS :=
  match Dict.get? fs p with
  | none => .ok (Dict.set fs p .dir)
  | some .dir => .ok fs
  | some (.file _) => .error .ioError

/-- `os.makedirs(pre/…, exist_ok=True)`, from the directory `pre` downwards. -/
def makedirsFrom (fs : FS) (pre : Path) : Path → Except PyErr FS
  | [] => mkdirOk fs pre
  | c :: t =>
    match mkdirOk fs pre with
    | .error e => .error e
    | .ok fs' => makedirsFrom fs' (pre ++ [c]) t

/-- `os.makedirs(p, exist_ok=True)`: creates the missing directories on the way.  If one of them is a
regular file it fails; directories created before that point are dropped in the model (they
cannot exist: nothing lies below a regular file). -/
def makedirs (fs : FS) (p : Path) : Except PyErr FS := makedirsFrom fs [] p

/-- `open(p, 'w')` followed by writing: the parent must be a directory and `p` not one. -/
def write (fs : FS) (p : Path) (content : Name) : Except PyErr FS :=
  if isDir fs p.dropLast ∧ ¬ isDir fs p then .ok (Dict.set fs p (.file content))
  else .error .ioError

end FS
end Dedop.Workspace
