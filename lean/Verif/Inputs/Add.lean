import Verif.Inputs.Pattern
import Verif.Report.Model

/-!
# `dedop input add` with the paths of the command line (model)

`/repo/dedop/cli/main.py:728-749`.  `here` is the tree of the directory in which the command runs, `fs` that of the workspaces.
-/
namespace Dedop.Inputs

open Dedop.Names Dedop.Workspace Dedop.Report

/-- The file at an expanded path as `shutil.copy` finds it (`workspace_manager.py:381`). -/
def source (here : FS) (p : Path) : Source :=
  ⟨p.getLastD [], match Dict.get? here p with
    | some (.file text) => some text
    | _ => none⟩

/-- `execute_add` of `ManageInputsCommand` for a given workspace (`cli/main.py:728-749`), with the expansion of the paths (733). -/
def inputAddPaths (here fs : FS) (w : Name) (args : List Path) : Except PyErr Nat × FS :=
  inputAdd fs w ((expandPaths here args).map (source here))

end Dedop.Inputs
