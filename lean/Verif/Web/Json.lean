import Verif.Basic.Dict
import Verif.Basic.Tactics

/-!
# Workspaces sent to a client and back (C135)

Models the class `Workspace` (`/repo/dedop/ui/workspace.py`): its constructor (lines 9-17), `create`
and `open` (36-43), `to_json_dict` (64-68) and `from_json_dict` (57-62).

* C135: a workspace made from the dictionary of a workspace is that workspace: `restored_spec` gives
  what it is for every workspace, `roundtrip_partial` says for which it holds, `roundtrip_violated`
  that it fails for every workspace with a name; `open_violated`: an opened workspace has the directory
  of the workspaces, not its own.
-/
namespace Dedop.Json

/-- A value in the dictionary: `None`, a text, a truth value. -/
inductive JVal where
  | null
  | str (s : String)
  | bool (b : Bool)
  deriving DecidableEq, Repr

/-- Truth of a value in Python. -/
def JVal.truthy : JVal → Bool
  | .null => false
  | .str s => s != ""
  | .bool b => b

/-- A workspace object (`ui/workspace.py:10-17`). -/
structure Ws where
  dir : JVal
  name : JVal
  current : JVal
  deriving DecidableEq, Repr

/-- `os.path.join(DEFAULT_DATA_PATH, 'workspaces', name)`; an absolute name replaces what stands before.
A name that is a truth value raises `TypeError`. -/
def defaultPath (home : String) : JVal → Except PyErr JVal
  | .str s => .ok (.str (if s.startsWith "/" then s else home ++ "/.dedop/workspaces/" ++ s))
  | _ => .error .typeError

/-- `Workspace.__init__` (`ui/workspace.py:9-17`). -/
def newWs (home : String) (dir name current : JVal) : Except PyErr Ws :=
  if dir.truthy then .ok ⟨dir, name, current⟩
  else if !dir.truthy && !name.truthy then .ok ⟨.str (home ++ "/.dedop/workspaces/default"), name, current⟩
  else match defaultPath home name with
    | .error e => .error e
    | .ok d => .ok ⟨d, name, current⟩

/-- `to_json_dict` (`ui/workspace.py:64-68`). -/
def toJson (w : Ws) : Dict String JVal :=
  [("workspace_dir", w.dir), ("name", w.name), ("is_current", w.current)]

/-- `json_dict.get(key, default)`. -/
def getOr (d : Dict String JVal) (k : String) (v : JVal) : JVal :=
  ((d.find? (fun e => e.1 == k)).map (·.2)).getD v

/-- `from_json_dict` (`ui/workspace.py:57-62`). -/
def fromJson (home : String) (d : Dict String JVal) : Except PyErr Ws :=
  newWs home (getOr d "base_dir" .null) (getOr d "workspace_name" .null) (getOr d "is_current" (.bool false))

/-- `open` (`ui/workspace.py:39-43`), `isDir` tells which paths are directories. -/
def openWs (home : String) (isDir : String → Bool) (base name : String) : Except PyErr Ws :=
  if !isDir (base ++ "/" ++ name) then .error (.workspaceError ("not a valid workspace: " ++ base))
  else newWs home (.str base) (.str name) (.bool false)

/-! ## C135 -/

/-- What becomes of every workspace that is sent: only the mark of the current one survives. -/
theorem restored_spec (home : String) (w : Ws) :
    fromJson home (toJson w) = .ok ⟨.str (home ++ "/.dedop/workspaces/default"), .null, w.current⟩ := by
  obtain ⟨d, n, c⟩ := w
  have h1 : getOr (toJson ⟨d, n, c⟩) "base_dir" .null = .null := by
    simp (decide := true) [getOr, toJson, List.find?]
  have h2 : getOr (toJson ⟨d, n, c⟩) "workspace_name" .null = .null := by
    simp (decide := true) [getOr, toJson, List.find?]
  have h3 : getOr (toJson ⟨d, n, c⟩) "is_current" (.bool false) = c := by
    simp (decide := true) [getOr, toJson, List.find?]
  unfold fromJson
  rw [h1, h2, h3]
  rfl

/-- **C135** (`_partial`).  The workspace without a name, in the default directory, is the only one that
is restored from its dictionary.  Missing: all others, see `roundtrip_violated`. -/
theorem roundtrip_partial (home : String) (w : Ws) :
    fromJson home (toJson w) = .ok w ↔ w.name = .null ∧ w.dir = .str (home ++ "/.dedop/workspaces/default") := by
  rw [restored_spec]
  obtain ⟨d, n, c⟩ := w
  constructor
  · intro h
    injection h with h
    injection h with h1 h2 _
    exact ⟨h2.symm, h1.symm⟩
  · rintro ⟨h1, h2⟩
    dsimp only at h1 h2
    rw [h1, h2]

/-- **C135 violated: every workspace with a name** is restored as another one, without a name. -/
theorem roundtrip_violated (home dir name : String) (c : JVal) (hd : dir ≠ "") :
    ∃ w, newWs home (.str dir) (.str name) c = .ok w ∧ w.name = .str name ∧ fromJson home (toJson w) ≠ .ok w := by
  refine ⟨⟨.str dir, .str name, c⟩, ?_, rfl, ?_⟩
  · unfold newWs JVal.truthy
    simp [hd]
  · intro h
    cases ((roundtrip_partial home _).mp h).1

/-- **C135 violated: `open`.**  An opened workspace has the directory it was looked for in, not its own,
whatever the names. -/
theorem open_violated (home : String) (isDir : String → Bool) (base name : String) (hb : base ≠ "")
    (hd : isDir (base ++ "/" ++ name) = true) :
    ∃ w, openWs home isDir base name = .ok w ∧ w.dir = .str base ∧ w.dir ≠ .str (base ++ "/" ++ name) := by
  refine ⟨⟨.str base, .str name, .bool false⟩, ?_, rfl, ?_⟩
  · unfold openWs
    rw [hd]
    unfold newWs JVal.truthy
    simp [hb]
  · intro h
    injection h with h
    have := congrArg (fun s => s.toList.length) h
    simp [String.toList_append] at this

/-- A directory that does not exist is refused. -/
theorem open_refuses (home : String) (isDir : String → Bool) (base name : String)
    (hd : isDir (base ++ "/" ++ name) = false) : openWs home isDir base name =
      .error (.workspaceError ("not a valid workspace: " ++ base)) := by
  unfold openWs; rw [hd]; rfl

/-- The directory of a new workspace: the one given; without one, the place of its name in the directory of all workspaces, where
a name that begins with a slash is itself the place; `default` without both. -/
theorem new_directory (home dir name : String) (c : JVal) :
    (dir ≠ "" → newWs home (.str dir) (.str name) c = .ok ⟨.str dir, .str name, c⟩) ∧
    (name ≠ "" → name.startsWith "/" = false →
      newWs home (.str "") (.str name) c = .ok ⟨.str (home ++ "/.dedop/workspaces/" ++ name), .str name, c⟩) ∧
    (name ≠ "" → name.startsWith "/" = true → newWs home (.str "") (.str name) c = .ok ⟨.str name, .str name, c⟩) ∧
    newWs home (.str "") (.str "") c = .ok ⟨.str (home ++ "/.dedop/workspaces/default"), .str "", c⟩ := by
  refine ⟨fun h => ?_, fun h h1 => ?_, fun h h1 => ?_, rfl⟩
  · simp [newWs, JVal.truthy, h]
  · simp [newWs, JVal.truthy, defaultPath, h, h1]
  · simp [newWs, JVal.truthy, defaultPath, h, h1]

/-- A dictionary in which nothing is said gives the default workspace, not marked as the current one. -/
theorem restored_empty (home : String) :
    fromJson home [] = .ok ⟨.str (home ++ "/.dedop/workspaces/default"), .null, .bool false⟩ := rfl

/-- Non-vacuity: a workspace that is lost, and one that is kept. -/
example : newWs "/h" (.str "/d/a") (.str "a") (.bool true) = .ok ⟨.str "/d/a", .str "a", .bool true⟩ ∧
    fromJson "/h" (toJson ⟨.str "/d/a", .str "a", .bool true⟩) =
      .ok ⟨.str "/h/.dedop/workspaces/default", .null, .bool true⟩ ∧
    (newWs "/h" .null .null (.bool true)).bind (fun w => fromJson "/h" (toJson w)) = newWs "/h" .null .null (.bool true) := by
  decide +kernel

example : "a".startsWith "/" = false ∧ "/d/a".startsWith "/" = true := by decide +kernel

example : openWs "/h" (fun p => p == "/d/a") "/d" "a" = .ok ⟨.str "/d", .str "a", .bool false⟩ ∧
    openWs "/h" (fun p => p == "/d/a") "/d" "b" = .error (.workspaceError "not a valid workspace: /d") := by decide +kernel

end Dedop.Json
