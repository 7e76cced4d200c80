import Verif.Workspace.Manager
import Verif.Workspace.Commands

/-!
# Calls that run at the same time (model)

Several programs may work on one workspaces directory: two command lines, or calls of the web service, which its handler hands to a pool of
threads (`/repo/dedop/webapi/main.py:38-48`).  A call is a sequence of looks at the files and of changes; between two of them the other
call may go on.  Simplification: `rmtree`, `copytree`, `makedirs` and the writing of one small file happen at once.
-/
namespace Dedop.Workspace

open Dedop.Names

/-- A call in progress (`workspace_manager.py:80-683`): it has ended, looks at the files, or changes them; an error of a change ends it. -/
inductive Prog where
  | done (r : Except PyErr Unit)
  | look (k : FS → Prog)
  | change (f : FS → Res Unit) (k : Prog)

/-- A call that fails if a look says so (`workspace_manager.py:673-683`). -/
def Prog.unless (bad : FS → Bool) (e : PyErr) (k : Prog) : Prog := .look fun fs => if bad fs then .done (.error e) else k

/-- The call without others. -/
def Prog.run : Prog → FS → Res Unit
  | .done r, fs => (r, fs)
  | .look k, fs => (k fs).run fs
  | .change f k, fs =>
    match f fs with
    | (.error e, fs1) => (.error e, fs1)
    | (.ok (), fs1) => k.run fs1

/-- One step of a call: what is left of it, and the files. -/
def Prog.step : Prog → FS → Option (Prog × FS)
  | .done _, _ => none
  | .look k, fs => some (k fs, fs)
  | .change f k, fs =>
    match f fs with
    | (.error e, fs1) => some (.done (.error e), fs1)
    | (.ok (), fs1) => some (k, fs1)

/-- Two calls at the same time, with their results: in every order of steps that keeps the order of each. -/
inductive Both : Prog → Prog → FS → Except PyErr Unit → Except PyErr Unit → FS → Prop
  | ended (r s : Except PyErr Unit) (fs : FS) : Both (.done r) (.done s) fs r s fs
  | left {p q p' : Prog} {fs fs1 fs2 : FS} {r s : Except PyErr Unit} : p.step fs = some (p', fs1) → Both p' q fs1 r s fs2 → Both p q fs r s fs2
  | right {p q q' : Prog} {fs fs1 fs2 : FS} {r s : Except PyErr Unit} : q.step fs = some (q', fs1) → Both p q' fs1 r s fs2 → Both p q fs r s fs2

/-- A regular file cannot be removed with `rmtree` (`workspace_manager.py:131-135`). -/
def rmtreeChecked (fs : FS) (p : Path) : Res Unit :=
  if fs.isDir p then (.ok (), fs.rmtree p)
  else (.error (.workspaceError "not a directory"), fs)

/-- Steps of `create_workspace` (`workspace_manager.py:111-122`). -/
def createWsProg (w : Name) : Prog :=
  .unless (fun _ => w = []) (.workspaceError "no workspace name is specified") <|
  .unless (fun fs => fs.isDir (wsPath w) && !(fs.listdir (wsPath w)).isEmpty) (.workspaceError "workspace already exists") <|
  .change (fun fs => ensureDir fs (wsPath w)) (.done (.ok ()))

/-- Steps of `delete_workspace` (`workspace_manager.py:124-135`). -/
def deleteWsProg (w : Name) : Prog :=
  .unless (fun fs => !fs.exists? (wsPath w)) (.workspaceError "workspace does not exist") <|
  .change (fun fs => rmtreeChecked fs (wsPath w)) (.done (.ok ()))

/-- Steps of `copy_workspace` (`workspace_manager.py:137-152`). -/
def copyWsProg (w new : Name) : Prog :=
  .unless (fun fs => !fs.exists? (wsPath w)) (.workspaceError "workspace does not exist") <|
  .look fun fs => if fs.exists? [] then .change (fun fs => copytreeChecked fs (wsPath w) (wsPath new)) (.done (.ok ())) else .done (.ok ())

/-- Steps of `create_config` (`workspace_manager.py:192-207`). -/
def createCfgProg (w c : Name) (t : Templates) : Prog :=
  .unless (fun fs => !fs.exists? (wsPath w)) (.workspaceError "workspace does not exist") <|
  .unless (fun fs => configExists fs w c) (.workspaceError "already contains") <|
  .change (fun fs => ensureDir fs (cfgPath w c)) <|
  .change (fun fs => copyResource fs (cfgPath w c ++ [chdFile]) t.chd) <|
  .change (fun fs => copyResource fs (cfgPath w c ++ [cnfFile]) t.cnf) <|
  .change (fun fs => copyResource fs (cfgPath w c ++ [cstFile]) t.cst) (.done (.ok ()))

/-- Steps of `delete_config` (`workspace_manager.py:209-222`). -/
def deleteCfgProg (w c : Name) : Prog :=
  .unless (fun fs => !fs.exists? (wsPath w)) (.workspaceError "workspace does not exist") <|
  .unless (fun fs => !fs.exists? (cfgPath w c)) (.workspaceError "config does not exist") <|
  .change (fun fs => rmtreeChecked fs (cfgPath w c)) (.done (.ok ()))

/-- Steps of `copy_config` (`workspace_manager.py:224-239`). -/
def copyCfgProg (w c new : Name) : Prog :=
  .unless (fun fs => !fs.exists? (wsPath w)) (.workspaceError "workspace does not exist") <|
  .unless (fun fs => !fs.exists? (cfgPath w c)) (.workspaceError "config does not exist") <|
  .change (fun fs => copytreeChecked fs (cfgPath w c) (cfgPath w new)) (.done (.ok ()))

/-- Steps of `set_current_config_name` (`workspace_manager.py:285-288`). -/
def setCfgProg (w c : Name) : Prog :=
  .unless (fun fs => !fs.exists? (wsPath w)) (.workspaceError "workspace does not exist") <|
  .unless (fun fs => !fs.exists? (cfgPath w c)) (.workspaceError "config does not exist") <|
  .change (fun fs => writeline fs (cfgMarker w) c) (.done (.ok ()))

/-- Steps of `set_current_workspace_name` (`workspace_manager.py:102-106`). -/
def setWsProg (w : Name) : Prog :=
  .unless (fun fs => !fs.exists? (wsPath w)) (.workspaceError "workspace does not exist") <|
  .change (fun fs => writeline fs [currentFile] w) (.done (.ok ()))

/-- Calls on the contents of one or two workspaces. -/
inductive Call where
  | createWs (w : Name)
  | deleteWs (w : Name)
  | copyWs (w new : Name)
  | createCfg (w c : Name)
  | deleteCfg (w c : Name)
  | copyCfg (w c new : Name)
  | setCfg (w c : Name)
  deriving DecidableEq, Repr

/-- The steps of a call (`workspace_manager.py:111-288`). -/
def Call.prog (t : Templates) : Call → Prog
  | .createWs w => createWsProg w
  | .deleteWs w => deleteWsProg w
  | .copyWs w new => copyWsProg w new
  | .createCfg w c => createCfgProg w c t
  | .deleteCfg w c => deleteCfgProg w c
  | .copyCfg w c new => copyCfgProg w c new
  | .setCfg w c => setCfgProg w c

/-- The call as a function on the files (`workspace_manager.py:111-288`). -/
def Call.whole (t : Templates) (fs : FS) : Call → Res Unit
  | .createWs w => createWorkspace fs w
  | .deleteWs w => deleteWorkspace fs w
  | .copyWs w new => copyWorkspace fs w new
  | .createCfg w c => createConfig fs w c t
  | .deleteCfg w c => deleteConfig fs w c
  | .copyCfg w c new => copyConfig fs w c new
  | .setCfg w c => setCurrentConfig fs w c

/-- The workspaces which a call names. -/
def Call.names : Call → List Name
  | .copyWs w new => [w, new]
  | .createWs w | .deleteWs w | .createCfg w _ | .deleteCfg w _ | .copyCfg w _ _ | .setCfg w _ => [w]

/-- A call after another. -/
def Prog.andThen : Prog → Prog → Prog
  | .done (.ok ()), q => q
  | .done (.error e), _ => .done (.error e)
  | .look k, q => .look fun fs => (k fs).andThen q
  | .change f k, q => .change f (k.andThen q)

/-- Steps of `delete_workspace` of the web service (`websocket.py:29-37`). -/
def webDeleteProg (w : Name) : Prog :=
  (deleteWsProg w).andThen <| .look fun fs => setWsProg (fallback (workspaceNames fs))

/-- Steps of `dedop workspace copy w new` (`cli/main.py:287-300`, `367-376`). -/
def cliCopyProg (w new : Name) : Prog := .look fun fs => copyWsProg w (cliUnique fs new)

end Dedop.Workspace
