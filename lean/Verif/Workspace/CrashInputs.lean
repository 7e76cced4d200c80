import Verif.Workspace.Crash
import Verif.Workspace.Files

/-!
# What an interrupted addition or removal of inputs leaves (model)

As in `Workspace/Crash`, for `add_inputs`, `remove_inputs` and `remove_outputs` of `/repo/dedop/ui/workspace_manager.py`.
-/
namespace Dedop.Workspace
open Dedop.Names

/-- `shutil.copy(src, inputs_dir/base)` (`workspace_manager.py:381`): not begun, or written up to some place.  `shutil.copyfile` opens the source
before the destination, so that nothing happens if it cannot be read. -/
def duringCopyInto (fs : FS) (dir : Path) (s : Source) (g : FS) : Prop :=
  g = fs ∨ ∃ text k, s.content = some text ∧ copyInto fs dir { s with content := some (text.take k) } = .ok g

/-- The loop of `add_inputs` (`workspace_manager.py:379-384`): in one of its turns. -/
def duringAddLoop (fs : FS) (dir : Path) : List Source → FS → Prop
  | [], g => g = fs
  | s :: rest, g =>
    duringCopyInto fs dir s g ∨
      match copyInto fs dir s with
      | .error _ => False
      | .ok fs1 => duringAddLoop fs1 dir rest g

/-- `add_inputs` (`workspace_manager.py:371-384`). -/
def duringAddInputs (fs : FS) (w : Name) (paths : List Source) (g : FS) : Prop :=
  thenDuring g (duringEnsureDir fs (comp w ++ [inputsDir])) (ensureDir fs (comp w ++ [inputsDir]))
    (fun fs1 => duringAddLoop fs1 (comp w ++ [inputsDir]) paths)

/-- The loop of `remove_inputs` (`workspace_manager.py:393-400`): between two removals. -/
def duringRemoveLoop (fs : FS) : List Path → FS → Prop
  | [], g => g = fs
  | p :: rest, g =>
    g = fs ∨
      match Dict.get? fs p with
      | none => duringRemoveLoop fs rest g
      | some .dir => False
      | some (.file _) => duringRemoveLoop (Dict.erase fs p) rest g

/-- `remove_inputs` (`workspace_manager.py:386-400`). -/
def duringRemoveInputs (fs : FS) (w : Name) (names : List Name) (g : FS) : Prop :=
  duringRemoveLoop fs (names.map (fun n => comp w ++ [inputsDir] ++ comp n)) g

/-- The loop of `remove_outputs` (`workspace_manager.py:439-444`): between two removals. -/
def duringRemoveOutLoop (d : Dict Name Kind) : List Name → Dict Name Kind → Prop
  | [], g => g = d
  | n :: rest, g =>
    g = d ∨
      match Dict.get? d n with
      | none => duringRemoveOutLoop d rest g
      | some .brokenLink => duringRemoveOutLoop d rest g
      | some .dir => False
      | some .file => duringRemoveOutLoop (Dict.erase d n) rest g
      | some .link => duringRemoveOutLoop (Dict.erase d n) rest g

/-- `remove_outputs` (`workspace_manager.py:429-444`) of an existing directory. -/
def duringRemoveOutputs (d g : Dict Name Kind) : Prop := duringRemoveOutLoop d (d.map (·.1)) g

end Dedop.Workspace
