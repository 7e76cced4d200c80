import Verif.Basic.Dict

/-!
# Configuration upgrade (model)

Models `WorkspaceManager._do_upgrade_config`, `upgrade_config` and the version accessors of
`/repo/dedop/ui/workspace_manager.py`.
-/
namespace Dedop.Upgrade

/-- One element of `__metainf__['changelog']` (`ui/data/config/CNF.json`, `CHD.json`, `CST.json`):
a version and the parameter list.  A parameter is `[key, op, comment]`; the comment is not read by
the code and is dropped.  The `comment` of a change is dropped as well.  Read in `workspace_manager.py:334-353`. -/
structure Change where
  version : Int
  parameters : List (String × String)
  deriving DecidableEq, Repr

/-- The `__metainf__` object.  `none` models a missing key (reading it raises `KeyError`).
Read in `workspace_manager.py:326-353`. -/
structure Meta where
  version : Option Int
  changelog : Option (List Change)
  deriving DecidableEq, Repr

/-- A parsed configuration file.  The entry `"__metainf__"` is kept in its own field.  A changelog
naming `"__metainf__"` itself is not representable; in the code such an entry has no effect, because
line 352 overwrites the key afterwards. -/
structure Config (V : Type) where
  metainf : Option Meta
  params : Dict String V
  deriving DecidableEq, Repr

/-- `workspace_manager.py:327-330`: the version of the user's file; a `KeyError` at either level
gives -1. -/
def currentVersion {V : Type} (c : Config V) : Int :=
  match c.metainf with
  | none => -1
  | some m =>
    match m.version with
    | none => -1
    | some v => v

/-- `workspace_manager.py:331`: no `try` here, so a missing key is an error. -/
def defaultVersion {V : Type} (d : Config V) : Except PyErr Int :=
  match d.metainf with
  | none => .error (.keyError "__metainf__")
  | some m =>
    match m.version with
    | none => .error (.keyError "version")
    | some v => .ok v

/-- State of the replay: `(added_or_modified_list, removed_list)`, `workspace_manager.py:334-335`. -/
abbrev Lists := List String × List String

/-- `workspace_manager.py:340-347`: one changelog parameter. -/
def replayParam (s : Lists) (p : String × String) : Lists :=
  let (added, removed) := s
  let (key, op) := p
  if op = "*" ∨ op = "+" then
    let removed := if key ∈ removed then removed.erase key else removed
    let added := if key ∉ added then added ++ [key] else added
    (added, removed)
  else if op = "-" then
    let added := if key ∈ added then added.erase key else added
    let removed := if key ∉ removed then removed ++ [key] else removed
    (added, removed)
  else (added, removed)

/-- `workspace_manager.py:336-347`: one changelog entry; entries not newer than the file are
skipped. -/
def replayChange (current : Int) (s : Lists) (c : Change) : Lists :=
  if c.version ≤ current then s else c.parameters.foldl replayParam s

/-- `workspace_manager.py:334-347`. -/
def replay (current : Int) (log : List Change) : Lists :=
  log.foldl (replayChange current) ([], [])

/-- `workspace_manager.py:348-349`: `current_config[key] = default_config[key]`; a key missing from
the default raises `KeyError`. -/
def applyAdded {V : Type} (dflt : Dict String V) (cur : Dict String V) :
    List String → Except PyErr (Dict String V)
  | [] => .ok cur
  | k :: ks =>
    match dflt.get? k with
    | none => .error (.keyError k)
    | some v => applyAdded dflt (cur.set k v) ks

/-- `workspace_manager.py:350-351`. -/
def applyRemoved {V : Type} (cur : Dict String V) : List String → Dict String V
  | [] => cur
  | k :: ks => applyRemoved (match cur.get? k with | some _ => cur.erase k | none => cur) ks

/-- `workspace_manager.py:325-353`, `_do_upgrade_config`. -/
def doUpgrade {V : Type} (cur dflt : Config V) : Except PyErr (Config V) :=
  match defaultVersion dflt with
  | .error e => .error e
  | .ok dv =>
    let cv := currentVersion cur
    if cv ≥ dv then .ok cur
    else
      match dflt.metainf with
      | none => .error (.keyError "__metainf__")
      | some m =>
        match m.changelog with
        | none => .error (.keyError "changelog")
        | some log =>
          let (added, removed) := replay cv log
          match applyAdded dflt.params cur.params added with
          | .error e => .error e
          | .ok ps => .ok { metainf := dflt.metainf, params := applyRemoved ps removed }

/-- `workspace_manager.py:290-292`, `get_config_version` on parsed content: a present `__metainf__`
without `version` raises. -/
def configVersion {V : Type} (c : Config V) : Except PyErr Int :=
  match c.metainf with
  | none => .ok (-1)
  | some m =>
    match m.version with
    | none => .error (.keyError "version")
    | some v => .ok v

/-- `workspace_manager.py:316-323`, `upgrade_config` between reading and writing the file: the new
content and the reported version.  The JSON text round trip is modelled as the identity. -/
def upgradeConfig {V : Type} (cur dflt : Config V) : Except PyErr (Config V × Int) :=
  match doUpgrade cur dflt with
  | .error e => .error e
  | .ok c =>
    match configVersion c with
    | .error e => .error e
    | .ok v => .ok (c, v)

/-- `cli/main.py:114-123`, `_require_upgrade` for one of the three files. -/
def requireUpgrade {V : Type} (cur dflt : Config V) : Except PyErr Bool :=
  match configVersion cur, configVersion dflt with
  | .ok a, .ok b => .ok (decide (a < b))
  | .error e, _ => .error e
  | _, .error e => .error e

end Dedop.Upgrade
