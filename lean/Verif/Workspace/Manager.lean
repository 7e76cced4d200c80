import Verif.Workspace.FS

/-!
# Workspace manager (model)

Models `WorkspaceManager` of `/repo/dedop/ui/workspace_manager.py`.  Every operation returns the
outcome (a value or a Python exception) *and* the file system afterwards.

Simplification: workspace and configuration names have no `/` and are not `.` or `..`
(`os.path.join` would interpret them); the empty name is modelled.
-/
namespace Dedop.Workspace

open Dedop.Names

/-- The result of a method of the manager: a value or an exception, and the files after it (`workspace_manager.py:80-683`). -/
abbrev Res (α : Type) := Except PyErr α × FS

/-- `_CONFIGS_DIR_NAME` (`workspace_manager.py:20`). -/
def configsDir : Name := "configs".toList
/-- `_OUTPUTS_DIR_NAME` (`workspace_manager.py:23`). -/
def outputsDir : Name := "outputs".toList
/-- `_CURRENT_FILE_NAME` (`workspace_manager.py:24`). -/
def currentFile : Name := ".current".toList

/-- One path component; `os.path.join(dir, '')` is `dir` itself. -/
def comp (n : Name) : Path := if n = [] then [] else [n]

/-- `get_workspace_path` (`workspace_manager.py:417-418`). -/
def wsPath (w : Name) : Path := comp w

/-- `get_config_path` (`workspace_manager.py:420-421`). -/
def cfgPath (w c : Name) : Path := comp w ++ [configsDir] ++ comp c

/-- First line of a text, with its line end: `fp.readline()` in text mode, where `\r` and `\r\n` are
read as `\n`. -/
def firstLine : Name → Name
  | [] => []
  | ch :: t => if ch = '\n' ∨ ch = '\r' then ['\n'] else ch :: firstLine t

/-- `_readline` (`workspace_manager.py:30-37`). -/
def readline (fs : FS) (p : Path) : Option Name :=
  match Dict.get? fs p with
  | some (.file s) => some (firstLine s)
  | _ => none

/-- `_writeline` (`workspace_manager.py:40-45`). -/
def writeline (fs : FS) (p : Path) (text : Name) : Res Unit :=
  match fs.write p text with
  | .ok fs' => (.ok (), fs')
  | .error _ => (.error (.workspaceError "cannot write"), fs)

/-- `get_current_workspace` (`workspace_manager.py:98-100`). -/
def getCurrent (fs : FS) : Option Name := readline fs [currentFile]

/-- `set_current_workspace_name` (`workspace_manager.py:102-106`, `676-678`). -/
def setCurrent (fs : FS) (w : Name) : Res Unit :=
  if ¬ fs.exists? (wsPath w) then (.error (.workspaceError "workspace does not exist"), fs)
  else writeline fs [currentFile] w

/-- `workspace_exists` (`workspace_manager.py:108-109`). -/
def workspaceExists (fs : FS) (w : Name) : Bool := fs.exists? (wsPath w)

/-- `_ensure_dir_exists` (`workspace_manager.py:659-666`). -/
def ensureDir (fs : FS) (p : Path) : Res Unit :=
  if fs.exists? p then (.ok (), fs)
  else match fs.makedirs p with
    | .ok fs' => (.ok (), fs')
    | .error _ => (.error (.workspaceError "cannot create directory"), fs)

/-- `create_workspace` (`workspace_manager.py:111-122`). -/
def createWorkspace (fs : FS) (w : Name) : Res Unit :=
  if w = [] then (.error (.workspaceError "no workspace name is specified"), fs)
  else if fs.isDir (wsPath w) ∧ fs.listdir (wsPath w) ≠ [] then
    (.error (.workspaceError "workspace already exists"), fs)
  else ensureDir fs (wsPath w)

/-- `delete_workspace` (`workspace_manager.py:124-135`); `rmtree` of a regular file fails. -/
def deleteWorkspace (fs : FS) (w : Name) : Res Unit :=
  if ¬ fs.exists? (wsPath w) then (.error (.workspaceError "workspace does not exist"), fs)
  else if fs.isDir (wsPath w) then (.ok (), fs.rmtree (wsPath w))
  else (.error (.workspaceError "not a directory"), fs)

/-- `shutil.copytree(p, q)` with its errors: `p` must be a directory and `q` must not exist. -/
def copytreeChecked (fs : FS) (p q : Path) : Res Unit :=
  if ¬ fs.isDir p then (.error (.workspaceError "not a directory"), fs)
  else if fs.exists? q then (.error (.workspaceError "exists"), fs)
  else (.ok (), fs.copytree p q)

/-- `copy_workspace` (`workspace_manager.py:137-152`). -/
def copyWorkspace (fs : FS) (w new : Name) : Res Unit :=
  if ¬ fs.exists? (wsPath w) then (.error (.workspaceError "workspace does not exist"), fs)
  else if fs.exists? [] then copytreeChecked fs (wsPath w) (wsPath new)
  else (.ok (), fs)

/-- `os.rename(p, q)` with its errors (POSIX), for `p` existing: renaming onto itself does nothing;
into its own subtree fails; an existing file is replaced by a file only, an existing directory by a
directory only and only if it is empty. -/
def renameChecked (fs : FS) (p q : Path) : Except PyErr FS :=
  if p = q then .ok fs
  else if p <+: q then .error .ioError
  else match Dict.get? fs q with
    | none => .ok (fs.rename p q)
    | some (.file _) => if fs.isDir p then .error .ioError else .ok ((fs.rmtree q).rename p q)
    | some .dir =>
      if fs.isDir p ∧ fs.listdir q = [] then .ok ((fs.rmtree q).rename p q) else .error .ioError

/-- `shutil.move(p, q)` as used by `rename_workspace`, for `p` existing: into an existing directory
`q` the source is moved *below* `q` under its own name, unless that exists. -/
def moveChecked (fs : FS) (p q : Path) : Except PyErr FS :=
  if fs.isDir q then
    if p = q then .ok fs
    else match p.getLast? with
      | none => .error .ioError
      | some b => if fs.exists? (q ++ [b]) then .error .ioError else renameChecked fs p (q ++ [b])
  else renameChecked fs p q

/-- `rename_workspace` (`workspace_manager.py:154-171`). -/
def renameWorkspace (fs : FS) (w new : Name) : Res Unit :=
  if ¬ fs.exists? (wsPath w) then (.error (.workspaceError "workspace does not exist"), fs)
  else if new = [] then (.error (.workspaceError "missing the new workspace name"), fs)
  else if fs.exists? [] then
    match moveChecked fs (wsPath w) (wsPath new) with
    | .ok fs' => (.ok (), fs')
    | .error _ => (.error (.workspaceError "cannot move"), fs)
  else (.ok (), fs)

/-- `get_workspace_names` (`workspace_manager.py:173-178`). -/
def workspaceNames (fs : FS) : List Name :=
  if fs.exists? [] then sortNames ((fs.listdir []).filter (fun n => fs.isDir [n])) else []

/-- `config_exists` (`workspace_manager.py:188-190`). -/
def configExists (fs : FS) (w c : Name) : Bool :=
  fs.isDir (cfgPath w c) && !(fs.listdir (cfgPath w c)).isEmpty

/-- The three template files of `create_config` and their contents. -/
structure Templates where
  chd : Name
  cnf : Name
  cst : Name

/-- `_copy_resource` (`workspace_manager.py:651-657`). -/
def copyResource (fs : FS) (p : Path) (content : Name) : Res Unit := writeline fs p content

/-- The characterisation file (`workspace_manager.py:205`). -/
def chdFile : Name := "CHD.json".toList
/-- The configuration file (`workspace_manager.py:206`). -/
def cnfFile : Name := "CNF.json".toList
/-- The constants file (`workspace_manager.py:207`). -/
def cstFile : Name := "CST.json".toList

/-- `create_config` (`workspace_manager.py:192-207`). -/
def createConfig (fs : FS) (w c : Name) (t : Templates) : Res Unit :=
  if ¬ fs.exists? (wsPath w) then (.error (.workspaceError "workspace does not exist"), fs)
  else if configExists fs w c then (.error (.workspaceError "already contains"), fs)
  else match ensureDir fs (cfgPath w c) with
    | (.error e, fs1) => (.error e, fs1)
    | (.ok (), fs1) =>
      match copyResource fs1 (cfgPath w c ++ [chdFile]) t.chd with
      | (.error e, fs2) => (.error e, fs2)
      | (.ok (), fs2) =>
        match copyResource fs2 (cfgPath w c ++ [cnfFile]) t.cnf with
        | (.error e, fs3) => (.error e, fs3)
        | (.ok (), fs3) => copyResource fs3 (cfgPath w c ++ [cstFile]) t.cst

/-- `delete_config` (`workspace_manager.py:209-222`). -/
def deleteConfig (fs : FS) (w c : Name) : Res Unit :=
  if ¬ fs.exists? (wsPath w) then (.error (.workspaceError "workspace does not exist"), fs)
  else if ¬ fs.exists? (cfgPath w c) then (.error (.workspaceError "config does not exist"), fs)
  else if fs.isDir (cfgPath w c) then (.ok (), fs.rmtree (cfgPath w c))
  else (.error (.workspaceError "not a directory"), fs)

/-- `copy_config` (`workspace_manager.py:224-239`). -/
def copyConfig (fs : FS) (w c new : Name) : Res Unit :=
  if ¬ fs.exists? (wsPath w) then (.error (.workspaceError "workspace does not exist"), fs)
  else if ¬ fs.exists? (cfgPath w c) then (.error (.workspaceError "config does not exist"), fs)
  else copytreeChecked fs (cfgPath w c) (cfgPath w new)

/-- `rename_config` (`workspace_manager.py:241-256`). -/
def renameConfig (fs : FS) (w c new : Name) : Res Unit :=
  if ¬ fs.exists? (wsPath w) then (.error (.workspaceError "workspace does not exist"), fs)
  else if ¬ fs.exists? (cfgPath w c) then (.error (.workspaceError "config does not exist"), fs)
  else match renameChecked fs (cfgPath w c) (cfgPath w new) with
    | .ok fs' => (.ok (), fs')
    | .error _ => (.error (.workspaceError "cannot rename"), fs)

/-- `get_config_names` (`workspace_manager.py:274-279`): `none` without a `configs` directory. -/
def configNames (fs : FS) (w : Name) : Except PyErr (Option (List Name)) :=
  if ¬ fs.exists? (wsPath w) then .error (.workspaceError "workspace does not exist")
  else if fs.exists? (comp w ++ [configsDir]) then
    .ok (some (sortNames ((fs.listdir (comp w ++ [configsDir])).filter
      (fun n => fs.isDir (comp w ++ [configsDir] ++ [n])))))
  else .ok none

/-- Path of the marker of the current configuration (`workspace_manager.py:283`, `288`). -/
def cfgMarker (w : Name) : Path := comp w ++ [configsDir, currentFile]

/-- `get_current_config_name` (`workspace_manager.py:281-283`). -/
def getCurrentConfig (fs : FS) (w : Name) : Except PyErr (Option Name) :=
  if ¬ fs.exists? (wsPath w) then .error (.workspaceError "workspace does not exist")
  else .ok (readline fs (cfgMarker w))

/-- `set_current_config_name` (`workspace_manager.py:285-288`). -/
def setCurrentConfig (fs : FS) (w c : Name) : Res Unit :=
  if ¬ fs.exists? (wsPath w) then (.error (.workspaceError "workspace does not exist"), fs)
  else if ¬ fs.exists? (cfgPath w c) then (.error (.workspaceError "config does not exist"), fs)
  else writeline fs (cfgMarker w) c

end Dedop.Workspace
