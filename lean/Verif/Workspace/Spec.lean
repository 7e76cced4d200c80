import Verif.Workspace.Commands

/-!
# Specification notions for workspaces

What the user sees: which paths exist, what the marker files say.
-/
namespace Dedop.Workspace
open Dedop.Names

/-- A plain name: not empty, one path component, without line breaks, not the marker's own name. -/
def Plain (n : Name) : Prop :=
  n ≠ [] ∧ '\n' ∉ n ∧ '\r' ∉ n ∧ '/' ∉ n ∧ n ≠ ['.'] ∧ n ≠ ['.', '.'] ∧ n ≠ ".current".toList

instance (n : Name) : Decidable (Plain n) := by unfold Plain; infer_instance

/-- What is found at each path. -/
abbrev View := Path → Option Entry

/-- A file system is a tree: whatever exists lies in an existing directory. -/
def IsTree (g : View) : Prop := ∀ p n, g (p ++ [n]) ≠ none → g p = some .dir

/-- Directories that hold named things and a `.current` marker: the workspaces directory and the
`configs` directory of each workspace. -/
def Level (b : Path) : Prop := b = [] ∨ ∃ w, Plain w ∧ b = [w, "configs".toList]

/-- Such a directory contains nothing but directories with plain names, and possibly the marker
file. -/
def Tidy (g : View) (b : Path) : Prop :=
  ∀ n, g (b ++ [n]) ≠ none →
    (n = ".current".toList ∧ g (b ++ [n]) ≠ some .dir) ∨ (Plain n ∧ g (b ++ [n]) = some .dir)

/-- The marker in `b` is absent, empty, or its first line names a directory in `b`. -/
def NotDangling (g : View) (b : Path) : Prop :=
  ∀ s, g (b ++ [".current".toList]) = some (.file s) →
    firstLine s = [] ∨ g (b ++ [firstLine s]) = some .dir

/-- A state as the command line makes it: a tree, tidy. -/
def Tidied (g : View) : Prop := IsTree g ∧ ∀ b, Level b → Tidy g b

/-- The file system as a view. -/
def view (fs : FS) : View := Dict.get? fs

/-- All names in a workspace command are plain or omitted. -/
def WsCmd.PlainNames : WsCmd → Prop
  | .add w => w = [] ∨ Plain w
  | .remove w => w = [] ∨ Plain w
  | .copy w new => (w = [] ∨ Plain w) ∧ (new = [] ∨ Plain new)
  | .rename w new => (w = [] ∨ Plain w) ∧ (new = [] ∨ Plain new)
  | .current w => w = [] ∨ Plain w

/-- All names in a configuration command are plain or omitted; `add` and `rename` need one. -/
def CfgCmd.PlainNames : CfgCmd → Prop
  | .add w c => (w = [] ∨ Plain w) ∧ Plain c
  | .remove w c => (w = [] ∨ Plain w) ∧ (c = [] ∨ Plain c)
  | .copy w c new => (w = [] ∨ Plain w) ∧ (c = [] ∨ Plain c) ∧ (new = [] ∨ Plain new)
  | .rename w c new => (w = [] ∨ Plain w) ∧ (c = [] ∨ Plain c) ∧ Plain new
  | .current w c => (w = [] ∨ Plain w) ∧ (c = [] ∨ Plain c)

/-- Names of a session. -/
def Cmd.PlainNames : Cmd → Prop
  | .ws c => c.PlainNames
  | .cfg c => c.PlainNames

/-- Web API calls with plain names that are not renames. -/
def WebCall.PlainNoRename : WebCall → Prop
  | .ws (.create w) => Plain w
  | .ws (.delete w) => w = [] ∨ Plain w
  | .ws (.copy w new) => Plain w ∧ Plain new
  | .ws (.rename _ _) => False
  | .ws (.setCurrent w) => w = [] ∨ Plain w
  | .cfg (.add w c) => Plain w ∧ Plain c
  | .cfg (.delete w c) => Plain w ∧ Plain c
  | .cfg (.copy w c new) => Plain w ∧ Plain c ∧ Plain new
  | .cfg (.rename _ _ _) => False
  | .cfg (.setCurrent w c) => Plain w ∧ (c = [] ∨ Plain c)

/-- The workspaces a manager call names. -/
def MgrOp.workspaces : MgrOp → List Name
  | .createWs w => [w]
  | .deleteWs w => [w]
  | .copyWs w new => [w, new]
  | .renameWs w new => [w, new]
  | .createCfg w _ => [w]
  | .deleteCfg w _ => [w]
  | .copyCfg w _ _ => [w]
  | .renameCfg w _ _ => [w]
  | .setCfg w _ => [w]

/-- The configurations a manager call names (`none` for calls on workspaces). -/
def MgrOp.configs : MgrOp → Option (Name × List Name)
  | .createCfg w c => some (w, [c])
  | .deleteCfg w c => some (w, [c])
  | .copyCfg w c new => some (w, [c, new])
  | .renameCfg w c new => some (w, [c, new])
  | _ => none

end Dedop.Workspace
