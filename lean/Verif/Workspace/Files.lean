import Verif.Workspace.Manager
import Verif.Upgrade.Model

/-!
# Configuration files, inputs and outputs of a workspace (model)

Models the parts of `/repo/dedop/ui/workspace_manager.py` that write and remove files:
`write_config_file`, `upgrade_all_config`, `add_inputs`, `remove_inputs`, `remove_outputs`, and
`save_configs` of `/repo/dedop/webapi/websocket.py`.
-/
namespace Dedop.Workspace

open Dedop.Names

/-! ## Rewriting a configuration file -/

/-- A file opened with `'r+'`: its contents and the position. -/
structure OpenFile where
  content : Name
  pos : Nat
  deriving DecidableEq, Repr

/-- Writing one character at the position (overwriting or extending). -/
def OpenFile.put (f : OpenFile) (ch : Char) : OpenFile :=
  ⟨f.content.take f.pos ++ [ch] ++ f.content.drop (f.pos + 1), f.pos + 1⟩

/-- `f.write(text)`. -/
def OpenFile.write (f : OpenFile) (text : Name) : OpenFile := text.foldl OpenFile.put f

/-- `f.truncate()`: cut at the position. -/
def OpenFile.truncate (f : OpenFile) : OpenFile := { f with content := f.content.take f.pos }

/-- What the file holds if the process dies after `k` characters of `text` reached it
(`workspace_manager.py:269-271`).  Buffering only restricts which `k` occur. -/
def contentAfter (old text : Name) (k : Nat) : Name :=
  ((OpenFile.mk old 0).write (text.take k)).content

/-- What the file holds after `write_config_file` returned (`workspace_manager.py:267-272`). -/
def rewritten (old text : Name) : Name := ((OpenFile.mk old 0).write text).truncate.content

/-- Path of a configuration file (`get_config_file`, `workspace_manager.py:258-259`). -/
def cfgFile (w c key : Name) : Path := cfgPath w c ++ [key ++ ".json".toList]

/-- `write_config_file` (`workspace_manager.py:267-272`): `open(…, 'r+')` fails unless the file
exists. -/
def writeConfigFile (fs : FS) (w c key text : Name) : Res Unit :=
  match Dict.get? fs (cfgFile w c key) with
  | some (.file old) => (.ok (), Dict.set fs (cfgFile w c key) (.file (rewritten old text)))
  | _ => (.error .ioError, fs)

/-- `save_configs` (`websocket.py:119-125`): the files in the given order; stops at the first
error.  In the code the order is CHD, CNF, CST. -/
def saveConfigs (fs : FS) (w c : Name) : List (Name × Name) → Res Unit
  | [] => (.ok (), fs)
  | (key, text) :: rest =>
    match writeConfigFile fs w c key text with
    | (.error e, fs1) => (.error e, fs1)
    | (.ok (), fs1) => saveConfigs fs1 w c rest

/-- The keys of the three files, in the order of `save_configs` and `upgrade_all_config`. -/
def cfgKeys : List Name := ["CHD".toList, "CNF".toList, "CST".toList]

/-- `upgrade_all_config` (`workspace_manager.py:310-314`) on parsed files: `cur key` is the user's
file, `dflt key` the shipped one.  Each file is read, upgraded and written before the next. -/
def upgradeKeys {V : Type} (dflt : Name → Upgrade.Config V) (cur : Name → Upgrade.Config V) :
    List Name → Except PyErr (List Int) × (Name → Upgrade.Config V)
  | [] => (.ok [], cur)
  | key :: rest =>
    match Upgrade.upgradeConfig (cur key) (dflt key) with
    | .error e => (.error e, cur)
    | .ok (c, v) =>
      match upgradeKeys dflt (fun k => if k = key then c else cur k) rest with
      | (.error e, cur') => (.error e, cur')
      | (.ok vs, cur') => (.ok (v :: vs), cur')

/-! ## Inputs -/

/-- `_INPUTS_DIR_NAME` (`workspace_manager.py:22`). -/
def inputsDir : Name := "inputs".toList

/-- A path given to `add_inputs`: its base name and what `shutil.copy` can read there (`none`: a
missing or unreadable file).  Simplification: the sources lie outside the workspaces directory. -/
structure Source where
  base : Name
  content : Option Name
  deriving DecidableEq, Repr

/-- `shutil.copy(src, inputs_dir/base)`: into an existing directory of that name the file is copied
below it; an empty base name is a directory and cannot be copied. -/
def copyInto (fs : FS) (dir : Path) (s : Source) : Except PyErr FS :=
  match s.content with
  | none => .error .ioError
  | some text =>
    if s.base = [] then .error .ioError
    else if fs.isDir (dir ++ [s.base]) then fs.write (dir ++ [s.base, s.base]) text
    else fs.write (dir ++ [s.base]) text

/-- The loop of `add_inputs` (`workspace_manager.py:379-384`), with the number of `progress(1)`
calls. -/
def addLoop (fs : FS) (dir : Path) (progress : Nat) : List Source → Except PyErr Unit × FS × Nat
  | [] => (.ok (), fs, progress)
  | s :: rest =>
    match copyInto fs dir s with
    | .error _ => (.error (.workspaceError "cannot copy"), fs, progress)
    | .ok fs1 => addLoop fs1 dir (progress + 1) rest

/-- `add_inputs` (`workspace_manager.py:371-384`). -/
def addInputs (fs : FS) (w : Name) (paths : List Source) : Except PyErr Unit × FS × Nat :=
  match ensureDir fs (comp w ++ [inputsDir]) with
  | (.error e, fs1) => (.error e, fs1, 0)
  | (.ok (), fs1) => addLoop fs1 (comp w ++ [inputsDir]) 0 paths

/-- The loop of `remove_inputs` (`workspace_manager.py:393-400`); `os.remove` of a directory fails. -/
def removeLoop (fs : FS) (progress : Nat) : List Path → Except PyErr Unit × FS × Nat
  | [] => (.ok (), fs, progress)
  | p :: rest =>
    match Dict.get? fs p with
    | none => removeLoop fs (progress + 1) rest
    | some .dir => (.error (.workspaceError "cannot remove"), fs, progress)
    | some (.file _) => removeLoop (Dict.erase fs p) (progress + 1) rest

/-- `remove_inputs` (`workspace_manager.py:386-400`). -/
def removeInputs (fs : FS) (w : Name) (names : List Name) : Except PyErr Unit × FS × Nat :=
  removeLoop fs 0 (names.map (fun n => comp w ++ [inputsDir] ++ comp n))

/-! ## Outputs -/

/-- What an entry of the output directory is.  For a broken symbolic link `os.path.exists` is false
although `os.listdir` shows it. -/
inductive Kind where
  | file
  | dir
  | link
  | brokenLink
  deriving DecidableEq, Repr

/-- The loop of `remove_outputs` (`workspace_manager.py:439-444`) over the listed names. -/
def removeOutLoop (d : Dict Name Kind) : List Name → Except PyErr Unit × Dict Name Kind
  | [] => (.ok (), d)
  | n :: rest =>
    match Dict.get? d n with
    | none => removeOutLoop d rest
    | some .brokenLink => removeOutLoop d rest
    | some .dir => (.error (.workspaceError "cannot remove"), d)
    | some .file => removeOutLoop (Dict.erase d n) rest
    | some .link => removeOutLoop (Dict.erase d n) rest

/-- `remove_outputs` (`workspace_manager.py:429-444`); `none` is a missing output directory. -/
def removeOutputs (d : Option (Dict Name Kind)) :
    Except PyErr Unit × Option (Dict Name Kind) :=
  match d with
  | none => (.error (.workspaceError "output directory does not exist"), none)
  | some d =>
    let r := removeOutLoop d (d.map (·.1))
    (r.1, some r.2)

end Dedop.Workspace
