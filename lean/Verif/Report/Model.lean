import Verif.Workspace.Commands
import Verif.Workspace.Files
/-!
# What the `input` and `output` commands report (model)

`execute_add` and `execute_remove` of `ManageInputsCommand` and `execute_clean` of `ManageOutputsCommand`
(`/repo/dedop/cli/main.py`), for a workspace and a configuration that are known.
-/
namespace Dedop.Report
open Dedop.Names Dedop.Workspace

/-- The inputs directory of a workspace (`workspace_manager.py:423-424`). -/
def inputs (w : Name) : Path := comp w ++ [inputsDir]

/-- `get_input_names` (`workspace_manager.py:403-411`). -/
def inputNames {P : Type} (fnmatch : Name → P → Bool) (fs : FS) (w : Name) (pattern : PatternArg P) : List Name :=
  if fs.exists? (inputs w) then
    ncList fnmatch ((fs.listdir (inputs w)).map fun n => (n, !fs.isDir (inputs w ++ [n]))) pattern
  else []

/-- A `WorkspaceError` becomes a `CommandError` (`cli/main.py:748-749`, `773-774`, `896-897`). -/
def converted {α : Type} : Except PyErr α → Except PyErr α
  | .error (.workspaceError m) => .error (cmdErr m)
  | r => r

/-- `execute_remove` of `ManageInputsCommand` (`cli/main.py:752-775`): the number in the message, `none` if the user declines.  `star` is
the pattern `'*.nc'` used without patterns; `yes` is the answer (or `-q`).  The case without a workspace (754-755) is left out. -/
def inputRemove {P : Type} (fnmatch : Name → P → Bool) (star : P) (fs : FS) (w : Name) (patterns : List P) (yes : Bool) :
    Except PyErr (Option Nat) × FS :=
  let names := inputNames fnmatch fs w (if patterns = [] then .single star else .many patterns)
  if names = [] then (.error (cmdErr "no matching inputs found"), fs)
  else if yes then
    match removeInputs fs w names with
    | (.ok (), fs1, _) => (.ok (some names.length), fs1)
    | (.error e, fs1, _) => (converted (.error e), fs1)
  else (.ok none, fs)

/-- `execute_add` of `ManageInputsCommand` (`cli/main.py:728-749`) after expansion of the patterns: the number in the message.  The
creation of a default workspace (738-739) is left out. -/
def inputAdd (fs : FS) (w : Name) (paths : List Source) : Except PyErr Nat × FS :=
  if paths = [] then (.error (cmdErr "no matching inputs found"), fs)
  else match addInputs fs w paths with
    | (.ok (), fs1, _) => (.ok paths.length, fs1)
    | (.error e, fs1, _) => (converted (.error e), fs1)

/-- `get_output_names` without a pattern (`workspace_manager.py:447-456`) on the entries of the outputs directory.  A link counts as a
file: links to directories are left out. -/
def outputNames (d : Option (Dict Name Kind)) : List Name :=
  match d with
  | none => []
  | some d => ncList (fun _ (_ : Unit) => true) (d.map fun e => (e.1, e.2 == .file || e.2 == .link)) .absent

/-- `execute_clean` of `ManageOutputsCommand` (`cli/main.py:875-897`) for a configuration: the number in the message, `none` if the user
declines. -/
def outputClean (d : Option (Dict Name Kind)) (yes : Bool) : Except PyErr (Option Nat) × Option (Dict Name Kind) :=
  let names := outputNames d
  if names = [] then (.error (cmdErr "no matching outputs found"), d)
  else if yes then
    match removeOutputs d with
    | (.ok (), d1) => (.ok (some names.length), d1)
    | (.error e, d1) => (converted (.error e), d1)
  else (.ok none, d)

end Dedop.Report
