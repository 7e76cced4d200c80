import Verif.Workspace.Spec

/-!
# What an interrupted command leaves (model)

The program may be killed between two calls of the operating system.  For each method of
`WorkspaceManager` (`/repo/dedop/ui/workspace_manager.py`) and each command (`/repo/dedop/cli/main.py`)
`during… fs … g` says that the command, started in `fs`, may leave `g` when it is killed; the state
before the first and the one after the last call are included.

Granularity: `os.rename`, `os.mkdir`, `os.unlink`, `os.rmdir` happen at once.  `open(p, 'w')` empties the
file; a text that fits the buffer (a name) is then written at once when the file is closed, a longer one
(a template, a copied file) piece by piece.  `shutil.rmtree` removes the contents of a directory before
the directory and `shutil.copytree` makes a directory before its contents, otherwise in any order.
`shutil.move` within the workspaces directory is `os.rename`.  Metadata of files are not modelled.
-/
namespace Dedop.Workspace
open Dedop.Names

/-- `_writeline` (`workspace_manager.py:40-45`): not begun, emptied, or written. -/
def duringWriteline (fs : FS) (p : Path) (text : Name) (g : FS) : Prop :=
  g = fs ∨ fs.write p [] = .ok g ∨ fs.write p text = .ok g

/-- `_copy_resource` (`workspace_manager.py:651-657`): not begun, or written up to some place. -/
def duringCopyResource (fs : FS) (p : Path) (content : Name) (g : FS) : Prop :=
  g = fs ∨ ∃ k, fs.write p (content.take k) = .ok g

/-- `os.makedirs` in `_ensure_dir_exists` (`workspace_manager.py:659-666`): the directories on the way,
from the top. -/
def duringEnsureDir (fs : FS) (p : Path) (g : FS) : Prop :=
  g = fs ∨ (fs.exists? p = false ∧ (∃ k, fs.makedirs (p.take k) = .ok g))

/-- `shutil.rmtree(p)` (`workspace_manager.py:133`, `220`): the paths in `D` are gone; with a directory
everything in it is gone. -/
def duringRmtree (fs : FS) (p : Path) (g : FS) : Prop :=
  ∃ D : Path → Bool, (∀ r, D r = true → p <+: r) ∧ (∀ r r', D r = true → r <+: r' → D r' = true) ∧
    g = fs.filter (fun e => !D e.1)

/-- What stands for an entry of the source while it is copied: nothing yet, the directory, the file up to
some place. -/
inductive Begun : Option Entry → Option Entry → Prop where
  | notYet (e : Option Entry) : Begun e none
  | dir : Begun (some .dir) (some .dir)
  | file (s : Name) (k : Nat) : Begun (some (.file s)) (some (.file (s.take k)))

/-- `shutil.copytree(p, q)` (`workspace_manager.py:147`, `237`) with its errors, as in `copytreeChecked`. -/
def duringCopytree (fs : FS) (p q : Path) (g : FS) : Prop :=
  g = fs ∨
    (fs.isDir p = true ∧ fs.exists? q = false ∧ (∀ r, ¬ q <+: r → view g r = view fs r) ∧
      (∀ t, Begun (view fs (p ++ t)) (view g (q ++ t))) ∧
      (∀ t n, view g (q ++ t ++ [n]) ≠ none → view g (q ++ t) = some .dir))

/-- `set_current_workspace_name` (`workspace_manager.py:102-106`). -/
def duringSetCurrent (fs : FS) (w : Name) (g : FS) : Prop :=
  if ¬ fs.exists? (wsPath w) then g = fs else duringWriteline fs [currentFile] w g

/-- `set_current_config_name` (`workspace_manager.py:285-288`). -/
def duringSetCurrentConfig (fs : FS) (w c : Name) (g : FS) : Prop :=
  if ¬ fs.exists? (wsPath w) then g = fs
  else if ¬ fs.exists? (cfgPath w c) then g = fs
  else duringWriteline fs (cfgMarker w) c g

/-- `create_workspace` (`workspace_manager.py:111-122`). -/
def duringCreateWorkspace (fs : FS) (w : Name) (g : FS) : Prop :=
  if w = [] then g = fs
  else if fs.isDir (wsPath w) ∧ fs.listdir (wsPath w) ≠ [] then g = fs
  else duringEnsureDir fs (wsPath w) g

/-- `delete_workspace` (`workspace_manager.py:124-135`). -/
def duringDeleteWorkspace (fs : FS) (w : Name) (g : FS) : Prop :=
  if ¬ fs.exists? (wsPath w) then g = fs
  else if fs.isDir (wsPath w) then duringRmtree fs (wsPath w) g
  else g = fs

/-- `copy_workspace` (`workspace_manager.py:137-152`). -/
def duringCopyWorkspace (fs : FS) (w new : Name) (g : FS) : Prop :=
  if ¬ fs.exists? (wsPath w) then g = fs
  else if fs.exists? [] then duringCopytree fs (wsPath w) (wsPath new) g
  else g = fs

/-- `rename_workspace` (`workspace_manager.py:154-171`): before or after the renaming. -/
def duringRenameWorkspace (fs : FS) (w new : Name) (g : FS) : Prop :=
  g = fs ∨ g = (renameWorkspace fs w new).2

/-- `create_config` (`workspace_manager.py:192-207`): the directory, then the three files. -/
def duringCreateConfig (fs : FS) (w c : Name) (t : Templates) (g : FS) : Prop :=
  if ¬ fs.exists? (wsPath w) then g = fs
  else if configExists fs w c then g = fs
  else duringEnsureDir fs (cfgPath w c) g ∨
    match ensureDir fs (cfgPath w c) with
    | (.error _, _) => False
    | (.ok (), fs1) => duringCopyResource fs1 (cfgPath w c ++ [chdFile]) t.chd g ∨
      match copyResource fs1 (cfgPath w c ++ [chdFile]) t.chd with
      | (.error _, _) => False
      | (.ok (), fs2) => duringCopyResource fs2 (cfgPath w c ++ [cnfFile]) t.cnf g ∨
        match copyResource fs2 (cfgPath w c ++ [cnfFile]) t.cnf with
        | (.error _, _) => False
        | (.ok (), fs3) => duringCopyResource fs3 (cfgPath w c ++ [cstFile]) t.cst g

/-- `delete_config` (`workspace_manager.py:209-222`). -/
def duringDeleteConfig (fs : FS) (w c : Name) (g : FS) : Prop :=
  if ¬ fs.exists? (wsPath w) then g = fs
  else if ¬ fs.exists? (cfgPath w c) then g = fs
  else if fs.isDir (cfgPath w c) then duringRmtree fs (cfgPath w c) g
  else g = fs

/-- `copy_config` (`workspace_manager.py:224-239`). -/
def duringCopyConfig (fs : FS) (w c new : Name) (g : FS) : Prop :=
  if ¬ fs.exists? (wsPath w) then g = fs
  else if ¬ fs.exists? (cfgPath w c) then g = fs
  else duringCopytree fs (cfgPath w c) (cfgPath w new) g

/-- `rename_config` (`workspace_manager.py:241-256`). -/
def duringRenameConfig (fs : FS) (w c new : Name) (g : FS) : Prop :=
  g = fs ∨ g = (renameConfig fs w c new).2

/-- A call of the manager. -/
def duringMgr (t : Templates) (fs : FS) : MgrOp → FS → Prop
  | .createWs w => duringCreateWorkspace fs w
  | .deleteWs w => duringDeleteWorkspace fs w
  | .copyWs w new => duringCopyWorkspace fs w new
  | .renameWs w new => duringRenameWorkspace fs w new
  | .createCfg w c => duringCreateConfig fs w c t
  | .deleteCfg w c => duringDeleteConfig fs w c
  | .copyCfg w c new => duringCopyConfig fs w c new
  | .renameCfg w c new => duringRenameConfig fs w c new
  | .setCfg w c => duringSetCurrentConfig fs w c

/-- One step after another: the second begins where the first has ended without an exception. -/
def thenDuring (g : FS) (first : FS → Prop) (res : Res Unit) (second : FS → FS → Prop) : Prop :=
  first g ∨ match res with
    | (.error _, _) => False
    | (.ok (), fs1) => second fs1 g

/-- The sub-commands of `dedop workspace` (`cli/main.py:254-321`, `351-365`), as in `cliWs`. -/
def duringWs (fs : FS) : WsCmd → FS → Prop
  | .add w => fun g =>
    thenDuring g (duringCreateWorkspace fs w) (createWorkspace fs w) (fun fs1 => duringSetCurrent fs1 w)
  | .remove w => fun g =>
    let w := argOrCurrent fs w
    if w = [] then g = fs
    else thenDuring g (duringDeleteWorkspace fs w) (deleteWorkspace fs w) (fun fs1 g =>
      if getCurrent fs1 = some w then duringSetCurrent fs1 (fallback (workspaceNames fs1)) g else g = fs1)
  | .copy w new => fun g =>
    let w := argOrCurrent fs w
    if w = [] then g = fs
    else
      let new := cliUnique fs (if new = [] then w ++ "_1".toList else new)
      duringCopyWorkspace fs w new g
  | .rename w new => fun g =>
    let w := argOrCurrent fs w
    if w = [] then g = fs
    else
      let new := cliUnique fs new
      thenDuring g (duringRenameWorkspace fs w new) (renameWorkspace fs w new) (fun fs1 g =>
        if getCurrent fs1 = some w then duringSetCurrent fs1 new g else g = fs1)
  | .current w => fun g => if w = [] then g = fs else duringSetCurrent fs w g

/-- The sub-command `dedop config add` with names (`cli/main.py:464-469`, `631-664`), as in `cliCreateConfig`. -/
def duringConfigAdd (t : Templates) (fs : FS) (w c : Name) (g : FS) : Prop :=
  thenDuring g (duringCreateConfig fs w c t) (createConfig fs w c t) (fun fs1 => duringSetCurrentConfig fs1 w c)

end Dedop.Workspace
