import Verif.Report.Model
import Verif.Run.Spec
/-!
# How the commands end (model)

Which statements of the `execute_…` methods of `/repo/dedop/cli/main.py` lie inside `try … except WorkspaceError` and which do not.  An
exception other than a `CommandError` that leaves an `execute_…` method is not a message to the user but a crash of the command.  The
marker files are readable (`_readline`, `workspace_manager.py:30-37`, raises otherwise).
-/
namespace Dedop.Report
open Dedop.Names Dedop.Workspace

/-- `try: … except WorkspaceError as error: raise CommandError(error)` (e.g. `cli/main.py:256-260`). -/
def tryCmd (r : Res Unit) : Res Unit := (converted r.1, r.2)

/-- The commands on workspaces (`cli/main.py:254-328`).  What stands before `try` there does not raise. -/
def wsCommand (fs : FS) (c : WsCmd) : Res Unit := tryCmd (cliWs fs c)

/-- The commands on configurations, with the place of `try`: `execute_add` (`cli/main.py:464-469`), `execute_remove` (`472-496`),
`execute_copy` (`499-514`), `execute_rename` (`517-531`), `execute_current` (`551-565`). -/
def cfgCommand (t : Templates) (fs : FS) : CfgCmd → Res Unit
  | .add w c =>
    match argsOrCurrent fs w c with
    | .error e => (.error e, fs)
    | .ok (w, c) => tryCmd <|
      if w = [] then
        match cliCreateDefaultWorkspace fs with
        | (.error e, fs1) => (.error e, fs1)
        | (.ok (), fs1) => cliCreateConfig t fs1 defaultName c
      else cliCreateConfig t fs w c
  | .remove w c =>
    match argsOrCurrent fs w c with
    | .error e => (.error e, fs)
    | .ok (w, c) =>
      if w = [] then (.error (cmdErr "no current workspace"), fs)
      else if c = [] then (.error (cmdErr "no current configuration"), fs)
      else tryCmd <| match deleteConfig fs w c with
        | (.error e, fs1) => (.error e, fs1)
        | (.ok (), fs1) =>
          match getCurrentConfig fs1 w with
          | .error e => (.error e, fs1)
          | .ok cur =>
            if cur = some c then
              match configNames fs1 w with
              | .error e => (.error e, fs1)
              | .ok none => (.error .typeError, fs1)
              | .ok (some names) => setCurrentConfig fs1 w (fallback names)
            else (.ok (), fs1)
  | .copy w c new =>
    match argsOrCurrent fs w c with
    | .error e => (.error e, fs)
    | .ok (w, c) =>
      if w = [] then (.error (cmdErr "no current workspace"), fs)
      else if c = [] then (.error (cmdErr "no current configuration"), fs)
      else match cliUniqueConfig fs w (if new = [] then c ++ "_copy".toList else new) with
        | .error e => (.error e, fs)
        | .ok new => tryCmd (copyConfig fs w c new)
  | .rename w c new =>
    match argsOrCurrent fs w c with
    | .error e => (.error e, fs)
    | .ok (w, c) =>
      if w = [] then (.error (cmdErr "no current workspace"), fs)
      else if c = [] then (.error (cmdErr "no current configuration"), fs)
      else match cliUniqueConfig fs w new with
        | .error e => (.error e, fs)
        | .ok new => tryCmd <|
          match renameConfig fs w c new with
          | (.error e, fs1) => (.error e, fs1)
          | (.ok (), fs1) =>
            match getCurrentConfig fs1 w with
            | .error e => (.error e, fs1)
            | .ok cur => if cur = some c then setCurrentConfig fs1 w new else (.ok (), fs1)
  | .current w c =>
    match argsOrCurrent fs w c with
    | .error e => (.error e, fs)
    | .ok (w, c) =>
      let w := if w = [] then defaultName else w
      tryCmd <|
        if c ≠ [] then setCurrentConfig fs w c
        else match getCurrentConfig fs w with
          | .error e => (.error e, fs)
          | .ok _ => (.ok (), fs)

/-- `execute_list` of `ManageConfigsCommand` up to the names (`cli/main.py:586-591`). -/
def cfgList (fs : FS) (w : Name) : Except PyErr (List Name) :=
  let w := argOrCurrent fs w
  if w = [] then .error (cmdErr "no current workspace")
  else match configNames fs w with
    | .error e => .error e
    | .ok names => .ok (names.getD [])

/-- The workspace and the configuration of the commands that need both (`cli/main.py:569-574`, `876-881`, `901-906`, `983-988`). -/
def both (fs : FS) (w c : Name) : Except PyErr (Name × Name) :=
  match argsOrCurrent fs w c with
  | .error e => .error e
  | .ok (w, c) =>
    if w = [] then .error (cmdErr "no current workspace")
    else if c = [] then .error (cmdErr "no current configuration")
    else .ok (w, c)

/-- `execute_info` (`cli/main.py:568-583`): `ls` of a missing directory fails, and `check_call` raises `CalledProcessError` (here
`ioError`). -/
def cfgInfo (fs : FS) (w c : Name) : Except PyErr Unit :=
  match both fs w c with
  | .error e => .error e
  | .ok (w, c) => if fs.exists? (cfgPath w c) then .ok () else .error .ioError

/-- `get_config_version` for the given files in turn (`workspace_manager.py:290-298`, `365-369`).  `parse` gives the version in a text
that is a JSON object. -/
def readVersions (parse : Name → Option Int) (fs : FS) (w c : Name) : List Name → Except PyErr (List Int)
  | [] => .ok []
  | key :: rest =>
    match Dict.get? fs (cfgFile w c key) with
    | some (.file s) =>
      match parse s with
      | none => .error .valueError
      | some v =>
        match readVersions parse fs w c rest with
        | .error e => .error e
        | .ok vs => .ok (v :: vs)
    | _ => .error .ioError

/-- `execute_version` (`cli/main.py:616-624`), and `execute_upgrade` as far as the versions (`603-607`, `114-116`).  Without a current
configuration `config_name` is `None`, which `os.path.join` refuses. -/
def cfgVersion (parse : Name → Option Int) (fs : FS) (w c : Name) : Except PyErr (List Int) :=
  match argsOrCurrent fs w c with
  | .error e => .error e
  | .ok (w', c') =>
    if w' = [] then .error (cmdErr "no current workspace")
    else if c = [] ∧ readline fs (cfgMarker w') = none then .error .typeError
    else readVersions parse fs w' c' cfgKeys

/-- `ShowStatusCommand.execute` (`cli/main.py:1041-1065`), the current workspace and configuration. -/
def status (fs : FS) : Except PyErr (Name × Name) :=
  if fs.exists? [] then
    let w := (getCurrent fs).getD []
    if w ≠ [] then
      match getCurrentConfig fs w with
      | .error e => .error e
      | .ok c => .ok (w, c.getD [])
    else .ok ([], [])
  else .ok ([], [])

/-- The commands of `dedop workspace` and `dedop config`, the start of `dedop output clean`, `open` and `list`, and `dedop status`
(`cli/main.py:254-1080`). -/
inductive AnyCmd where
  | ws (c : WsCmd)
  | cfg (c : CfgCmd)
  | cfgList (w : Name)
  | cfgInfo (w c : Name)
  | cfgVersion (w c : Name)
  | output (w c : Name)
  | status
  deriving DecidableEq, Repr

/-- The error a command ends with, if any (`cli/main.py:254-1080`). -/
def failure {α : Type} : Except PyErr α → Option PyErr
  | .ok _ => none
  | .error e => some e

/-- How a command ends (`cli/main.py:254-1080`). -/
def endsWith (parse : Name → Option Int) (t : Templates) (fs : FS) : AnyCmd → Option PyErr
  | .ws c => failure (wsCommand fs c).1
  | .cfg c => failure (cfgCommand t fs c).1
  | .cfgList w => failure (cfgList fs w)
  | .cfgInfo w c => failure (cfgInfo fs w c)
  | .cfgVersion w c => failure (cfgVersion parse fs w c)
  | .output w c => failure (both fs w c)
  | .status => failure (status fs)

end Dedop.Report
