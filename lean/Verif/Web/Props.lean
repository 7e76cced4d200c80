import Verif.Workspace.Manager
import Verif.Workspace.Spec
import Verif.Workspace.FSLemmas
import Verif.Run.Lemmas
import Verif.Basic.Tactics
/-!
# What the web interface says about workspaces and inputs (C89, C92)
-/
namespace Dedop.Web
open Dedop.Names Dedop.Workspace Dedop.Run

/-! ## Model -/

/-- A workspace as sent to the client (`ui/workspace.py:64-68`). -/
structure Info where
  dir : Name
  name : Option Name
  current : Bool
  deriving DecidableEq, Repr

/-- Directories: the one of the manager (`workspace_manager.py:84-85`) and the default one of the user (`conf/defaults.py:5-7`,
`~/.dedop`). -/
structure Places where
  base : Name
  data : Name
  deriving DecidableEq, Repr

/-- `os.path.join` for a name that is not absolute. -/
def sub (dir name : Name) : Name := dir ++ '/' :: name

/-- `Workspace.__init__` (`ui/workspace.py:9-17`): the directory given, or one below the default directory. -/
def mkInfo (pl : Places) (dir : Option Name) (name : Option Name) (current : Bool) : Info :=
  match dir with
  | some d => ⟨d, name, current⟩
  | none =>
    match name with
    | none => ⟨sub (sub pl.data "workspaces".toList) "default".toList, name, current⟩
    | some [] => ⟨sub (sub pl.data "workspaces".toList) "default".toList, name, current⟩
    | some (c :: t) => ⟨sub (sub pl.data "workspaces".toList) (c :: t), name, current⟩

/-- `get_workspaces` (`workspace_manager.py:180-186`), sent by `get_all_workspaces` (`websocket.py:54-58`). -/
def allWorkspaces (pl : Places) (fs : FS) : Option (List Info) :=
  if fs.exists? [] then
    some (((fs.listdir []).filter fun n => n ≠ currentFile).map fun n => mkInfo pl (some (sub pl.base n)) (some n) false)
  else none

/-- `get_current_workspace` (`workspace_manager.py:98-100`, `websocket.py:46-48`). -/
def currentWorkspace (pl : Places) (fs : FS) : Info := mkInfo pl none (getCurrent fs) false

/-- `set_current_workspace` (`workspace_manager.py:102-106`, `websocket.py:50-52`). -/
def setCurrentWorkspace (pl : Places) (fs : FS) (w : Name) : Except PyErr Info × FS :=
  match setCurrent fs w with
  | (.error e, fs1) => (.error e, fs1)
  | (.ok (), fs1) => (.ok (mkInfo pl (some (sub pl.base w)) (some w) true), fs1)

/-- `get_max_min_coordinates` (`websocket.py:175-184`) on the latitudes and longitudes of a product; a variable that is missing gives
an empty list. -/
def maxMin {α : Type} (lat lon : List α) : Except PyErr ((α × α) × (α × α)) :=
  match lat.head?, lat.getLast?, lon.head?, lon.getLast? with
  | some a, some b, some c, some d => .ok ((a, b), (c, d))
  | _, _, _, _ => .error .indexError

/-! ## C89 -/

/-- Specification: the workspaces are the directories in the workspaces directory. -/
def IsWorkspace (g : View) (n : Name) : Prop := g [n] = some .dir

/-- **C89, the list**, if the workspaces directory exists and holds no files but the marker: every workspace once, with its directory. -/
theorem web_list_partial (pl : Places) (fs : FS) (ho : Once fs) (hd : view fs [] = some .dir)
    (hfiles : ∀ n text, view fs [n] = some (.file text) → n = ".current".toList) (hm : view fs [".current".toList] ≠ some .dir) :
    ∃ l, allWorkspaces pl fs = some l ∧ (l.map (·.name)).Nodup ∧
      ∀ i, i ∈ l ↔ ∃ n, IsWorkspace (view fs) n ∧ i = ⟨pl.base ++ '/' :: n, some n, false⟩ := by
  unfold allWorkspaces
  rw [if_pos (by rw [FS.exists?_iff]; show view fs [] ≠ none; rw [hd]; simp)]
  refine ⟨_, rfl, ?_, ?_⟩
  · rw [List.map_map]
    have : ((fun i : Info => i.name) ∘ fun n => mkInfo pl (some (sub pl.base n)) (some n) false) = some := rfl
    rw [this]
    exact ((listdir_nodup fs [] ho).filter _).map (Option.some_injective _)
  · intro i
    simp only [List.mem_map, List.mem_filter, decide_eq_true_eq]
    constructor
    · rintro ⟨n, ⟨hn, hc⟩, rfl⟩
      rw [FS.mem_listdir, List.nil_append] at hn
      refine ⟨n, ?_, rfl⟩
      cases hv : view fs [n] with
      | none => exact absurd hv hn
      | some e =>
        cases e with
        | dir => exact hv
        | file text => exact absurd (hfiles n text hv) hc
    · rintro ⟨n, hn, rfl⟩
      refine ⟨n, ⟨?_, ?_⟩, rfl⟩
      · rw [FS.mem_listdir, List.nil_append]
        unfold IsWorkspace view at hn
        rw [hn]
        simp
      · rintro rfl
        exact hm hn

/-- **C89 is violated** by any other file in the workspaces directory: it is sent as a workspace. -/
theorem web_list_file_violated (pl : Places) (fs : FS) (n : Name) (text : Name) (hd : view fs [] ≠ none)
    (hn : view fs [n] = some (.file text)) (hc : n ≠ ".current".toList) :
    ∃ l i, allWorkspaces pl fs = some l ∧ i ∈ l ∧ i.name = some n ∧ ¬ IsWorkspace (view fs) n := by
  unfold allWorkspaces
  rw [if_pos (by rw [FS.exists?_iff]; exact hd)]
  refine ⟨_, mkInfo pl (some (sub pl.base n)) (some n) false, rfl, ?_, rfl, ?_⟩
  · refine List.mem_map.2 ⟨n, List.mem_filter.2 ⟨?_, decide_eq_true hc⟩, rfl⟩
    rw [FS.mem_listdir, List.nil_append]
    unfold view at hn
    rw [hn]
    simp
  · unfold IsWorkspace
    rw [hn]
    simp

/-- **C89 is violated** by the mark of the current workspace: it is never set in the list, nor in the answer to the question for the
current workspace. -/
theorem web_current_mark_violated (pl : Places) (fs : FS) :
    (∀ l, allWorkspaces pl fs = some l → ∀ i ∈ l, i.current = false) ∧ (currentWorkspace pl fs).current = false := by
  constructor
  · intro l h i hi
    unfold allWorkspaces at h
    split at h
    · cases h
      obtain ⟨n, -, rfl⟩ := List.mem_map.1 hi
      rfl
    · cases h
  · unfold currentWorkspace mkInfo
    dsimp only
    split <;> rfl

/-- **C89 is violated** before the first workspace is made: no list is sent. -/
theorem web_list_missing_violated (pl : Places) (fs : FS) (h : view fs [] = none) : allWorkspaces pl fs = none := by
  unfold allWorkspaces
  rw [if_neg]
  rw [FS.exists?_iff]
  exact not_not.mpr h

/-- **C89, the current workspace**, if the manager works in the default directory: after it was set, it is sent with its directory. -/
theorem web_current_partial (pl : Places) (fs : FS) (w : Name) (hw : w ≠ []) (hline : '\n' ∉ w ∧ '\r' ∉ w)
    (hb : pl.base = pl.data ++ "/workspaces".toList) (i : Info) (fs' : FS) (h : setCurrentWorkspace pl fs w = (.ok i, fs')) :
    i = ⟨pl.base ++ '/' :: w, some w, true⟩ ∧ (currentWorkspace pl fs').dir = i.dir ∧ (currentWorkspace pl fs').name = some w := by
  unfold setCurrentWorkspace at h
  split at h
  · cases h
  · rename_i fs1 hs
    have hi := Except.ok.inj (congrArg Prod.fst h)
    have hf : fs1 = fs' := congrArg Prod.snd h
    subst hf
    have hg : getCurrent fs1 = some w := by
      unfold setCurrent at hs
      split at hs
      · cases hs
      · unfold writeline FS.write at hs
        split at hs
        · rename_i fs2 hw2
          split at hw2
          · have e1 := Except.ok.inj hw2
            have e2 : fs2 = fs1 := congrArg Prod.snd hs
            unfold getCurrent readline
            rw [← e2, ← e1, Dict.get?_set, if_pos rfl]
            dsimp only
            have : ∀ v : Name, '\n' ∉ v → '\r' ∉ v → firstLine v = v := by
              intro v
              induction v with
              | nil => intro _ _; rfl
              | cons c t ih =>
                intro h1 h2
                rw [firstLine, if_neg, ih (fun h => h1 (List.mem_cons_of_mem _ h)) fun h => h2 (List.mem_cons_of_mem _ h)]
                rintro (rfl | rfl)
                · exact h1 List.mem_cons_self
                · exact h2 List.mem_cons_self
            rw [this w hline.1 hline.2]
          · cases hw2
        · cases hs
    refine ⟨hi.symm, ?_⟩
    rw [← hi]
    unfold currentWorkspace
    rw [hg]
    cases w with
    | nil => exact absurd rfl hw
    | cons c t =>
      refine ⟨?_, rfl⟩
      unfold mkInfo sub
      dsimp only
      rw [hb]
      simp

/-- **C89 is violated** by the directory of the current workspace whenever the manager works in another directory. -/
theorem web_current_dir_violated (pl : Places) (fs : FS) (w : Name) (hw : w ≠ []) (hcur : getCurrent fs = some w)
    (hb : pl.base ≠ pl.data ++ "/workspaces".toList) : (currentWorkspace pl fs).dir ≠ pl.base ++ '/' :: w := by
  unfold currentWorkspace
  rw [hcur]
  cases w with
  | nil => exact absurd rfl hw
  | cons c t =>
    unfold mkInfo sub
    dsimp only
    intro h
    exact hb (by
      have := List.append_cancel_right h
      rw [← this]
      simp)

example : allWorkspaces ⟨"/w".toList, "/home/.dedop".toList⟩ [([], .dir), ([".current".toList], .file "a".toList), (["a".toList], .dir)] =
    some [⟨"/w/a".toList, some "a".toList, false⟩] := by decide +kernel
example : (currentWorkspace ⟨"/w".toList, "/home/.dedop".toList⟩ [([], .dir), ([".current".toList], .file "a".toList), (["a".toList], .dir)]).dir =
    "/home/.dedop/workspaces/a".toList := by decide +kernel

/-! ## C92 -/

/-- Specification: the two numbers bound all the others. -/
def Bounds {α : Type} [LinearOrder α] (b : α × α) (l : List α) : Prop := ∀ x ∈ l, min b.1 b.2 ≤ x ∧ x ≤ max b.1 b.2

theorem bounds_sorted {α : Type} [LinearOrder α] (l : List α) (h : l.Pairwise (· ≤ ·) ∨ l.Pairwise (· ≥ ·)) (a b : α)
    (ha : l.head? = some a) (hb : l.getLast? = some b) : Bounds (a, b) l := by
  obtain ⟨t, rfl⟩ : ∃ t, l = a :: t := by
    cases l with
    | nil => cases ha
    | cons c t => exact ⟨t, by simp at ha; rw [ha]⟩
  obtain ⟨u, hu⟩ : ∃ u, a :: t = u ++ [b] := by
    rw [List.getLast?_eq_some_iff] at hb
    exact hb
  intro x hx
  have first : ∀ {r : α → α → Prop}, (a :: t).Pairwise r → x = a ∨ r a x := by
    intro r h
    rcases List.mem_cons.1 hx with h' | h'
    · exact .inl h'
    · exact .inr ((List.pairwise_cons.1 h).1 x h')
  have last : ∀ {r : α → α → Prop}, (a :: t).Pairwise r → x = b ∨ r x b := by
    intro r h
    rw [hu] at h hx
    rcases List.mem_append.1 hx with h' | h'
    · exact .inr ((List.pairwise_append.1 h).2.2 x h' b (by simp))
    · exact .inl (by simpa using h')
  rcases h with h | h
  · have h1 : a ≤ x := by rcases first h with rfl | h'; exacts [le_refl _, h']
    have h2 : x ≤ b := by rcases last h with rfl | h'; exacts [le_refl _, h']
    exact ⟨(min_le_left _ _).trans h1, h2.trans (le_max_right _ _)⟩
  · have h1 : x ≤ a := by rcases first h with rfl | h'; exacts [le_refl _, h']
    have h2 : b ≤ x := by rcases last h with rfl | h'; exacts [le_refl _, h']
    exact ⟨(min_le_right _ _).trans h2, h1.trans (le_max_left _ _)⟩

/-- **C92**, for a track along which latitude and longitude each go one way: the coordinates sent bound the track. -/
theorem coordinates_partial {α : Type} [LinearOrder α] (lat lon : List α) (hlat : lat.Pairwise (· ≤ ·) ∨ lat.Pairwise (· ≥ ·))
    (hlon : lon.Pairwise (· ≤ ·) ∨ lon.Pairwise (· ≥ ·)) (h1 : lat ≠ []) (h2 : lon ≠ []) :
    ∃ r, maxMin lat lon = .ok r ∧ Bounds r.1 lat ∧ Bounds r.2 lon := by
  have ea := List.head?_eq_some_head h1
  have eb := List.getLast?_eq_some_getLast h1
  have ec := List.head?_eq_some_head h2
  have ed := List.getLast?_eq_some_getLast h2
  refine ⟨((lat.head h1, lat.getLast h1), (lon.head h2, lon.getLast h2)), ?_, bounds_sorted lat hlat _ _ ea eb,
    bounds_sorted lon hlon _ _ ec ed⟩
  unfold maxMin
  rw [ea, eb, ec, ed]

/-- **C92 is violated** by every track that leaves the range of its ends, for instance around its northernmost point. -/
theorem coordinates_violated {α : Type} [LinearOrder α] (a b x : α) (l m lon : List α) (h2 : lon ≠ []) (hx : max a b < x ∨ x < min a b) :
    ∃ r, maxMin (a :: (l ++ x :: m) ++ [b]) lon = .ok r ∧ ¬ Bounds r.1 (a :: (l ++ x :: m) ++ [b]) := by
  have ec := List.head?_eq_some_head h2
  have ed := List.getLast?_eq_some_getLast h2
  refine ⟨((a, b), (lon.head h2, lon.getLast h2)), ?_, ?_⟩
  · unfold maxMin
    rw [ec, ed, List.getLast?_concat]
    rfl
  · intro h
    have := h x (by simp)
    rcases hx with hx | hx
    · exact absurd this.2 (not_le.mpr hx)
    · exact absurd this.1 (not_le.mpr hx)

/-- A product without coordinates is an error. -/
theorem coordinates_missing {α : Type} (lat lon : List α) (h : lat = [] ∨ lon = []) : maxMin lat lon = .error .indexError := by
  unfold maxMin
  rcases h with rfl | rfl
  · rfl
  · cases lat.head? <;> cases lat.getLast? <;> rfl

example : maxMin [60, 80, 70] [(1 : Int), 2, 3] = .ok ((60, 70), (1, 3)) := by decide +kernel

end Dedop.Web
