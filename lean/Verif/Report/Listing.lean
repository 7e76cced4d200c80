import Verif.Report.Outcome
/-!
# What the `list` commands print (model)

`execute_list` of the four groups of commands in `/repo/dedop/cli/main.py`.  A line is a name, without the line end.
-/
namespace Dedop.Report
open Dedop.Names Dedop.Workspace

/-- `'%3d' % i` for a number that is not negative (`cli/main.py:344`). -/
def pad3 (i : Nat) : Name := List.replicate (3 - (decimal i).length) ' ' ++ decimal i

/-- `'%3d: %s' % (i + 1, name)` (`cli/main.py:344`, `601`, `793`, `1000`). -/
def entryLine (i : Nat) (name : Name) : Name := pad3 (i + 1) ++ [':', ' '] ++ name

/-- The loop over the names from the `i`-th on (`cli/main.py:342-344`, `599-601`, `791-793`, `998-1000`). -/
def entryLines (i : Nat) : List Name → List Name
  | [] => []
  | name :: rest => entryLine i name :: entryLines (i + 1) rest

/-- The first line (`cli/main.py:336-341`, `593-598`, `785-790`, `992-997`): `no …`, `1 …:` or `n …:`. -/
def headLine (none one many : Name) (n : Nat) : Name :=
  if n = 0 then ['n', 'o', ' '] ++ none
  else if n = 1 then ['1', ' '] ++ one ++ [':']
  else decimal n ++ [' '] ++ many ++ [':']

/-- Everything that is printed for a list of names (`cli/main.py:335-344`). -/
def printed (none one many : Name) (names : List Name) : List Name :=
  headLine none one many names.length :: entryLines 0 names

/-- A workspace name in the first line (`cli/main.py:594`). -/
def inWs (w : Name) : Name := " in workspace \"".toList ++ w ++ ['"']

/-- `dedop workspace list` (`cli/main.py:333-344`). -/
def listWorkspaces (fs : FS) : List Name :=
  printed "workspaces".toList "workspace".toList "workspaces".toList (workspaceNames fs)

/-- `dedop config list` (`cli/main.py:586-601`). -/
def listConfigs (fs : FS) (w : Name) : Except PyErr (List Name) :=
  match cfgList fs w with
  | .error e => .error e
  | .ok names =>
    let s := inWs (argOrCurrent fs w)
    .ok (printed ("DDP configurations".toList ++ s) ("DDP configuration".toList ++ s) ("DDP configurations".toList ++ s) names)

/-- `dedop input list` (`cli/main.py:778-793`). -/
def listInputs {P : Type} (fnmatch : Name → P → Bool) (fs : FS) (w : Name) (pattern : Option P) : Except PyErr (List Name) :=
  let w := argOrCurrent fs w
  if w = [] then .error (cmdErr "no current workspace")
  else
    let s := inWs w
    .ok (printed ("inputs".toList ++ s) ("input".toList ++ s) ("inputs".toList ++ s)
      (inputNames fnmatch fs w (match pattern with | none => .absent | some p => .single p)))

/-- `get_output_names` (`workspace_manager.py:447-456`), on the files of the workspaces. -/
def outputNamesIn {P : Type} (fnmatch : Name → P → Bool) (fs : FS) (w c : Name) (pattern : PatternArg P) : List Name :=
  let dir := cfgPath w c ++ [outputsDir]
  if fs.exists? dir then ncList fnmatch ((fs.listdir dir).map fun n => (n, !fs.isDir (dir ++ [n]))) pattern else []

/-- `dedop output list` (`cli/main.py:982-1000`). -/
def listOutputs {P : Type} (fnmatch : Name → P → Bool) (fs : FS) (w c : Name) (pattern : Option P) : Except PyErr (List Name) :=
  match both fs w c with
  | .error e => .error e
  | .ok (w, c) =>
    let s := " created with config \"".toList ++ c ++ ['"'] ++ inWs w
    .ok (printed ("outputs".toList ++ s) ("output".toList ++ s) ("outputs".toList ++ s)
      (outputNamesIn fnmatch fs w c (match pattern with | none => .absent | some p => .single p)))

/-- `', '.join(names)` (`cli/main.py:1052`). -/
def joined : List Name → Name
  | [] => []
  | [n] => n
  | n :: rest => n ++ [',', ' '] ++ joined rest

/-- `'(not set)'` (`cli/main.py:1054`). -/
def notSet : Name := "(not set)".toList
/-- `'(not yet created)'` (`cli/main.py:1072`). -/
def notCreated : Name := "(not yet created)".toList

/-- The names, the current workspace and the current configuration shown by `dedop status` (`cli/main.py:1048-1080`). -/
def statusLines (fs : FS) : Except PyErr (Name × Name × Name) :=
  if fs.exists? [] then
    match status fs with
    | .error e => .error e
    | .ok (w, c) =>
      .ok (if workspaceNames fs = [] then notSet else joined (workspaceNames fs),
        if w = [] then notSet else w, if w = [] ∨ c = [] then notSet else c)
  else .ok (notCreated, notSet, notSet)

end Dedop.Report
