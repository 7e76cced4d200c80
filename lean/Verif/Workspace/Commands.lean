import Verif.Workspace.Manager

/-!
# Workspace and configuration commands of the command line and of the Web API (model)

Command line: `/repo/dedop/cli/main.py`, Web API: `/repo/dedop/webapi/websocket.py`.
A missing optional argument is the empty name (`if not name` in the code).  Printing is dropped.  The
confirmation of `remove` is taken as given (`-y`).
-/
namespace Dedop.Workspace

open Dedop.Names

/-- The name of the default workspace and configuration (`cli/main.py:25-26`). -/
def defaultName : Name := "default".toList

/-- A `CommandError`. -/
def cmdErr (m : String) : PyErr := .other m

/-- `ManageWorkspacesCommand.set_current_workspace` (`cli/main.py:359-365`): `None` becomes `''`. -/
def cliSetCurrent (fs : FS) (w : Name) : Res Unit := setCurrent fs w

/-- `_get_workspace_name` (`cli/main.py:66-71`): the argument, else the current workspace (empty if
unset). -/
def argOrCurrent (fs : FS) (w : Name) : Name :=
  if w ≠ [] then w else (getCurrent fs).getD []

/-- `ensure_unique_name` (`cli/main.py:367-376`), with enough rounds
(`Dedop.Names.unique_name_found`). -/
def cliUnique (fs : FS) (new : Name) : Name :=
  let names := workspaceNames fs
  (uniqueWorkspaceName (names.length + 2) names new).getD []

/-- Which workspace becomes current after the current one was removed (`cli/main.py:276-283`,
`websocket.py:31-37`). -/
def fallback (names : List Name) : Name :=
  if defaultName ∈ names then defaultName else names.headD []

/-- Sub-commands of `dedop workspace` that change something. -/
inductive WsCmd where
  | add (w : Name)
  | remove (w : Name)
  | copy (w new : Name)
  | rename (w new : Name)
  | current (w : Name)
  deriving DecidableEq, Repr

/-- `execute_add` (`cli/main.py:254-260`, `351-357`), `execute_remove` (`262-285`), `execute_copy`
(`287-300`), `execute_rename` (`302-315`), `execute_current` with a name (`317-321`). -/
def cliWs (fs : FS) : WsCmd → Res Unit
  | .add w =>
    match createWorkspace fs w with
    | (.error e, fs1) => (.error e, fs1)
    | (.ok (), fs1) => cliSetCurrent fs1 w
  | .remove w =>
    let w := argOrCurrent fs w
    if w = [] then (.error (cmdErr "no current workspace"), fs)
    else match deleteWorkspace fs w with
      | (.error e, fs1) => (.error e, fs1)
      | (.ok (), fs1) =>
        if getCurrent fs1 = some w then cliSetCurrent fs1 (fallback (workspaceNames fs1))
        else (.ok (), fs1)
  | .copy w new =>
    let w := argOrCurrent fs w
    if w = [] then (.error (cmdErr "no current workspace"), fs)
    else
      let new := cliUnique fs (if new = [] then w ++ "_1".toList else new)
      copyWorkspace fs w new
  | .rename w new =>
    let w := argOrCurrent fs w
    if w = [] then (.error (cmdErr "no current workspace"), fs)
    else
      let new := cliUnique fs new
      match renameWorkspace fs w new with
      | (.error e, fs1) => (.error e, fs1)
      | (.ok (), fs1) =>
        if getCurrent fs1 = some w then cliSetCurrent fs1 new else (.ok (), fs1)
  | .current w => if w = [] then (.ok (), fs) else cliSetCurrent fs w

/-- Workspace calls of the Web API that change something. -/
inductive WebCmd where
  | create (w : Name)
  | delete (w : Name)
  | copy (w new : Name)
  | rename (w new : Name)
  | setCurrent (w : Name)
  deriving DecidableEq, Repr

/-- `websocket.py:25-27`, `29-37`, `39-41`, `43-45`, `51-53`. -/
def webWs (fs : FS) : WebCmd → Res Unit
  | .create w => createWorkspace fs w
  | .delete w =>
    match deleteWorkspace fs w with
    | (.error e, fs1) => (.error e, fs1)
    | (.ok (), fs1) => setCurrent fs1 (fallback (workspaceNames fs1))
  | .copy w new => copyWorkspace fs w new
  | .rename w new => renameWorkspace fs w new
  | .setCurrent w => setCurrent fs w

/-! ## Configurations -/

/-- `_get_workspace_and_config_name` (`cli/main.py:74-82`). -/
def argsOrCurrent (fs : FS) (w c : Name) : Except PyErr (Name × Name) :=
  let w := argOrCurrent fs w
  if w ≠ [] ∧ c = [] then
    match getCurrentConfig fs w with
    | .error e => .error e
    | .ok cur => .ok (w, cur.getD [])
  else .ok (w, c)

/-- `ManageConfigsCommand.ensure_unique_name` (`cli/main.py:667-675`). -/
def cliUniqueConfig (fs : FS) (w new : Name) : Except PyErr Name :=
  match configNames fs w with
  | .error e => .error e
  | .ok none => .error .typeError
  | .ok (some names) => .ok ((uniqueLoop names new (names.length + 2) new 2).getD [])

/-- Sub-commands of `dedop config` that add, remove, rename or select configurations, with the
workspace (option `-w`) and configuration arguments. -/
inductive CfgCmd where
  | add (w c : Name)
  | remove (w c : Name)
  | copy (w c new : Name)
  | rename (w c new : Name)
  | current (w c : Name)
  deriving DecidableEq, Repr

/-- `create_workspace('default', exists_ok=True)` (`cli/main.py:346-357`). -/
def cliCreateDefaultWorkspace (fs : FS) : Res Unit :=
  if workspaceExists fs defaultName then (.ok (), fs)
  else match createWorkspace fs defaultName with
    | (.error e, fs1) => (.error e, fs1)
    | (.ok (), fs1) => cliSetCurrent fs1 defaultName

/-- `ManageConfigsCommand.create_config` with `exist_ok=False` (`cli/main.py:631-664`). -/
def cliCreateConfig (t : Templates) (fs : FS) (w c : Name) : Res Unit :=
  match createConfig fs w c t with
  | (.error e, fs1) => (.error e, fs1)
  | (.ok (), fs1) => setCurrentConfig fs1 w c

/-- `execute_add` (`cli/main.py:464-469`), `execute_remove` (`472-496`), `execute_copy`
(`499-514`), `execute_rename` (`517-531`), `execute_current` (`551-565`). -/
def cliCfg (t : Templates) (fs : FS) : CfgCmd → Res Unit
  | .add w c =>
    match argsOrCurrent fs w c with
    | .error e => (.error e, fs)
    | .ok (w, c) =>
      if w = [] then
        match cliCreateDefaultWorkspace fs with
        | (.error e, fs1) => (.error e, fs1)
        | (.ok (), fs1) => cliCreateConfig t fs1 defaultName c
      else cliCreateConfig t fs w c
  | .remove w c =>
    match argsOrCurrent fs w c with
    | .error e => (.error e, fs)
    | .ok (w, c) =>
      if w = [] then (.error (cmdErr "no current workspace"), fs)
      else if c = [] then (.error (cmdErr "no current configuration"), fs)
      else match deleteConfig fs w c with
        | (.error e, fs1) => (.error e, fs1)
        | (.ok (), fs1) =>
          match getCurrentConfig fs1 w with
          | .error e => (.error e, fs1)
          | .ok cur =>
            if cur = some c then
              match configNames fs1 w with
              | .error e => (.error e, fs1)
              | .ok none => (.error .typeError, fs1)
              | .ok (some names) => setCurrentConfig fs1 w (fallback names)
            else (.ok (), fs1)
  | .copy w c new =>
    match argsOrCurrent fs w c with
    | .error e => (.error e, fs)
    | .ok (w, c) =>
      if w = [] then (.error (cmdErr "no current workspace"), fs)
      else if c = [] then (.error (cmdErr "no current configuration"), fs)
      else match cliUniqueConfig fs w (if new = [] then c ++ "_copy".toList else new) with
        | .error e => (.error e, fs)
        | .ok new => copyConfig fs w c new
  | .rename w c new =>
    match argsOrCurrent fs w c with
    | .error e => (.error e, fs)
    | .ok (w, c) =>
      if w = [] then (.error (cmdErr "no current workspace"), fs)
      else if c = [] then (.error (cmdErr "no current configuration"), fs)
      else match cliUniqueConfig fs w new with
        | .error e => (.error e, fs)
        | .ok new =>
          match renameConfig fs w c new with
          | (.error e, fs1) => (.error e, fs1)
          | (.ok (), fs1) =>
            match getCurrentConfig fs1 w with
            | .error e => (.error e, fs1)
            | .ok cur => if cur = some c then setCurrentConfig fs1 w new else (.ok (), fs1)
  | .current w c =>
    match argsOrCurrent fs w c with
    | .error e => (.error e, fs)
    | .ok (w, c) =>
      let w := if w = [] then defaultName else w
      if c ≠ [] then setCurrentConfig fs w c else (.ok (), fs)

/-- Web API calls on configurations (`websocket.py:70-93`). -/
inductive WebCfgCmd where
  | add (w c : Name)
  | delete (w c : Name)
  | copy (w c new : Name)
  | rename (w c new : Name)
  | setCurrent (w c : Name)
  deriving DecidableEq, Repr

/-- The configuration calls of the web service (`websocket.py:67-130`). -/
def webCfg (t : Templates) (fs : FS) : WebCfgCmd → Res Unit
  | .add w c => createConfig fs w c t
  | .delete w c =>
    match deleteConfig fs w c with
    | (.error e, fs1) => (.error e, fs1)
    | (.ok (), fs1) =>
      match configNames fs1 w with
      | .error e => (.error e, fs1)
      | .ok none => (.error .typeError, fs1)
      | .ok (some names) => setCurrentConfig fs1 w (fallback names)
  | .copy w c new => copyConfig fs w c new
  | .rename w c new => renameConfig fs w c new
  | .setCurrent w c => setCurrentConfig fs w c

/-- Any command of the two groups. -/
inductive Cmd where
  | ws (c : WsCmd)
  | cfg (c : CfgCmd)
  deriving DecidableEq, Repr

/-- A session on the command line: commands one after the other, each failing or not.  `t` are the
shipped template files. -/
def cliSession (t : Templates) (fs : FS) : List Cmd → FS
  | [] => fs
  | .ws c :: cs => cliSession t (cliWs fs c).2 cs
  | .cfg c :: cs => cliSession t (cliCfg t fs c).2 cs

/-- Any call of the two groups of the Web API. -/
inductive WebCall where
  | ws (c : WebCmd)
  | cfg (c : WebCfgCmd)
  deriving DecidableEq, Repr

/-- A sequence of Web API calls. -/
def webSession (t : Templates) (fs : FS) : List WebCall → FS
  | [] => fs
  | .ws c :: cs => webSession t (webWs fs c).2 cs
  | .cfg c :: cs => webSession t (webCfg t fs c).2 cs

/-- Calls of the manager itself that add, remove or rename workspaces or configurations, or select
the current configuration. -/
inductive MgrOp where
  | createWs (w : Name)
  | deleteWs (w : Name)
  | copyWs (w new : Name)
  | renameWs (w new : Name)
  | createCfg (w c : Name)
  | deleteCfg (w c : Name)
  | copyCfg (w c new : Name)
  | renameCfg (w c new : Name)
  | setCfg (w c : Name)
  deriving DecidableEq, Repr

/-- Outcome of a manager call. -/
def mgr (t : Templates) (fs : FS) : MgrOp → Res Unit
  | .createWs w => createWorkspace fs w
  | .deleteWs w => deleteWorkspace fs w
  | .copyWs w new => copyWorkspace fs w new
  | .renameWs w new => renameWorkspace fs w new
  | .createCfg w c => createConfig fs w c t
  | .deleteCfg w c => deleteConfig fs w c
  | .copyCfg w c new => copyConfig fs w c new
  | .renameCfg w c new => renameConfig fs w c new
  | .setCfg w c => setCurrentConfig fs w c

/-- Any sequence of calls of the manager, each exception being swallowed (not a function of the code). -/
def mgrSession (t : Templates) (fs : FS) : List MgrOp → FS
  | [] => fs
  | op :: ops => mgrSession t (mgr t fs op).2 ops

end Dedop.Workspace
