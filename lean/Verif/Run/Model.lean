import Verif.Workspace.Commands
import Verif.Workspace.Files

/-!
# The `run` command (model)

Models `RunProcessorCommand.execute` of `/repo/dedop/cli/main.py` (lines 155-202) on top of the
workspace manager.  The processor is a parameter: any way of making one, any way of processing one
input, each depending on and changing an arbitrary outside world (disk, network, cancel button).
Every call made to it is recorded.
-/
namespace Dedop.Run

open Dedop.Names Dedop.Workspace

/-- The arguments of `dedop run` (`cli/main.py:137-153`).  Options not given are empty. -/
structure Args where
  ws : Name := []
  cfg : Name := []
  inputs : List Name := []
  out : Name := []
  skip : Bool := false
  quiet : Bool := false
  all : Bool := false
  deriving DecidableEq, Repr

/-- An input or output place: as typed by the user, or inside the workspaces directory.  `cli/main.py:177-191`. -/
inductive Place where
  | given (path : Name)
  | stored (path : Path)
  deriving DecidableEq, Repr

/-- Arguments of the processor factory (`cli/main.py:191-196`). -/
structure Setup where
  name : Name
  chd : Path
  cnf : Path
  cst : Path
  out : Place
  skip : Bool
  deriving DecidableEq, Repr

/-- One call made by the command: construction of a processor, or processing of one input with the
processor constructed last.  `cli/main.py:193-202`. -/
inductive Call where
  | make (s : Setup)
  | process (cfg : Name) (input : Place) (quiet : Bool)
  deriving DecidableEq, Repr

/-- What the command can raise.  `cli/main.py:160-205`. -/
inductive RunErr where
  | command (e : PyErr)
  | processor (msg : String)
  | python (e : PyErr)
  deriving DecidableEq, Repr

/-- The processor as the command sees it: `Ω` is the outside world, `σ` a processor object.
`process` returns a status, which the command drops (`cli/main.py:199`). -/
structure Processor (Ω σ : Type) where
  make : Ω → Setup → Except RunErr σ × Ω
  process : Ω → σ → Place → Bool → Except RunErr Int × σ × Ω

/-- `get_input_names` (`workspace_manager.py:404-411`) without a pattern. -/
def inputNames (fs : FS) (w : Name) : List Name :=
  let dir := comp w ++ [inputsDir]
  if fs.exists? dir then
    ncList (fun _ (_ : Unit) => true)
      ((fs.listdir dir).map (fun n => (n, !fs.isDir (dir ++ [n])))) .absent
  else []

/-- `get_input_paths` (`workspace_manager.py:413-415`). -/
def inputPaths (fs : FS) (w : Name) : List Place :=
  (inputNames fs w).map (fun n => .stored (comp w ++ [inputsDir, n]))

/-- `create_config(workspace, 'default', exist_ok=True)` (`cli/main.py:627-649`), for a workspace
name that is not empty. -/
def createDefaultConfig (t : Templates) (fs : FS) (w : Name) : Res Unit :=
  if configExists fs w defaultName then (.ok (), fs)
  else cliCreateConfig t fs w defaultName

/-- What was selected: workspace, configurations and inputs.  `cli/main.py:160-181`. -/
structure Selection where
  ws : Name
  cfgs : List Name
  inputs : List Place
  deriving DecidableEq, Repr

/-- `cli/main.py:162-164`: the workspace, created if there is no current one, and the configuration
(empty if none is selected). -/
def selectWs (fs : FS) (a : Args) : Res (Name × Name) :=
  match argsOrCurrent fs a.ws a.cfg with
  | .error e => (.error e, fs)
  | .ok (w, c) =>
    if w = [] then
      match cliCreateDefaultWorkspace fs with
      | (.error e, fs1) => (.error e, fs1)
      | (.ok (), fs1) => (.ok (defaultName, c), fs1)
    else (.ok (w, c), fs)

/-- `cli/main.py:166-174`: the configurations. -/
def selectCfgs (t : Templates) (fs : FS) (a : Args) (w c : Name) : Res (List Name) :=
  if a.all then
    match configNames fs w with
    | .error e => (.error e, fs)
    | .ok none => (.error (cmdErr "no current configuration"), fs)
    | .ok (some []) => (.error (cmdErr "no current configuration"), fs)
    | .ok (some names) => (.ok names, fs)
  else if c = [] then
    match createDefaultConfig t fs w with
    | (.error e, fs1) => (.error e, fs1)
    | (.ok (), fs1) => (.ok [defaultName], fs1)
  else (.ok [c], fs)

/-- `cli/main.py:159-180`: everything before the loop. -/
def select (t : Templates) (fs : FS) (a : Args) : Res Selection :=
  if a.all ∧ a.cfg ≠ [] then (.error (cmdErr "option -a cannot be used with option -c"), fs)
  else match selectWs fs a with
    | (.error e, fs1) => (.error e, fs1)
    | (.ok (w, c), fs1) =>
      match selectCfgs t fs1 a w c with
      | (.error e, fs2) => (.error e, fs2)
      | (.ok cfgs, fs2) =>
        let inputs := if a.inputs ≠ [] then a.inputs.map .given else inputPaths fs2 w
        if inputs = [] then (.error (cmdErr "no inputs"), fs2)
        else (.ok ⟨w, cfgs, inputs⟩, fs2)

/-- `cli/main.py:183-196`: arguments of the factory. -/
def setup (a : Args) (w c : Name) : Setup where
  name := c
  chd := cfgFile w c "CHD".toList
  cnf := cfgFile w c "CNF".toList
  cst := cfgFile w c "CST".toList
  out := if a.out ≠ [] then .given a.out else .stored (cfgPath w c ++ [outputsDir])
  skip := a.skip

/-- Result of a part of the run: outcome, calls made so far (in order) with the error each raised, if
any, and the world.  `cli/main.py:183-205`. -/
structure Out (Ω : Type) where
  res : Except RunErr Unit
  calls : List (Call × Option RunErr)
  world : Ω

/-- `cli/main.py:197-199`: the loop over the inputs. -/
def runInputs {Ω σ : Type} (P : Processor Ω σ) (quiet : Bool) (c : Name) (calls : List (Call × Option RunErr))
    (ω : Ω) (p : σ) : List Place → Out Ω
  | [] => ⟨.ok (), calls, ω⟩
  | i :: rest =>
    match P.process ω p i quiet with
    | (.error e, _, ω') => ⟨.error e, calls ++ [(.process c i quiet, some e)], ω'⟩
    | (.ok _, p', ω') => runInputs P quiet c (calls ++ [(.process c i quiet, none)]) ω' p' rest

/-- `cli/main.py:182-199`: the loop over the configurations. -/
def runConfigs {Ω σ : Type} (P : Processor Ω σ) (a : Args) (w : Name) (inputs : List Place)
    (calls : List (Call × Option RunErr)) (ω : Ω) : List Name → Out Ω
  | [] => ⟨.ok (), calls, ω⟩
  | c :: rest =>
    match P.make ω (setup a w c) with
    | (.error e, ω') => ⟨.error e, calls ++ [(.make (setup a w c), some e)], ω'⟩
    | (.ok p, ω') =>
      match runInputs P a.quiet c (calls ++ [(.make (setup a w c), none)]) ω' p inputs with
      | ⟨.error e, calls', ω''⟩ => ⟨.error e, calls', ω''⟩
      | ⟨.ok (), calls', ω''⟩ => runConfigs P a w inputs calls' ω'' rest

/-- `cli/main.py:201-202`: workspace errors and processor errors become a `CommandError`; a
`CommandError` and everything else pass. -/
def reported : RunErr → RunErr
  | .python (.workspaceError m) => .command (.workspaceError m)
  | .processor m => .command (.other m)
  | e => e

/-- Errors of the selection: a `CommandError` is a `.other`, see `Workspace.cmdErr`; a
`WorkspaceError` is converted.  `cli/main.py:204-205`. -/
def selectErr : PyErr → RunErr
  | .workspaceError m => reported (.python (.workspaceError m))
  | .other m => .command (.other m)
  | e => .python e

/-- `RunProcessorCommand.execute` (`cli/main.py:155-202`).  The file system of the workspaces changes
only during the selection; what the processor writes there is part of its world `ω`. -/
def run {Ω σ : Type} (P : Processor Ω σ) (t : Templates) (fs : FS) (ω : Ω) (a : Args) : Out Ω × FS :=
  match select t fs a with
  | (.error e, fs1) => (⟨.error (selectErr e), [], ω⟩, fs1)
  | (.ok s, fs1) =>
    match runConfigs P a s.ws s.inputs [] ω s.cfgs with
    | ⟨.error e, calls, ω'⟩ => (⟨.error (reported e), calls, ω'⟩, fs1)
    | ⟨.ok (), calls, ω'⟩ => (⟨.ok (), calls, ω'⟩, fs1)

end Dedop.Run
