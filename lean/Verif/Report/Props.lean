import Verif.Report.Model
import Verif.Workspace.FilesProps
import Verif.Names.Props
import Verif.Run.Lemmas
import Verif.Basic.Tactics
import Mathlib.Data.List.Dedup
/-!
# Commands report what they did (C88)
-/
namespace Dedop.Report
open Dedop.Names Dedop.Workspace Dedop.Run

/-! ## Specification -/

/-- `m` is an input of the workspace: a regular file with the extension `.nc` in its `inputs`. -/
def IsInput (g : View) (w m : Name) : Prop :=
  (∃ text, g (comp w ++ ["inputs".toList] ++ [m]) = some (.file text)) ∧ ∃ s, m = s ++ ".nc".toList

/-- The input is named by one of the patterns, or there are no patterns. -/
def Named {P : Type} (fnmatch : Name → P → Bool) (patterns : List P) (m : Name) : Prop :=
  patterns = [] ∨ ∃ p ∈ patterns, fnmatch m p = true

/-- Between two states, exactly `n` inputs of the workspace disappeared and nothing else happened. -/
def Removed (g g' : View) (w : Name) (n : Nat) : Prop :=
  ∃ names : List Name, names.Nodup ∧ names.length = n ∧
    (∀ m ∈ names, IsInput g w m ∧ g' (comp w ++ ["inputs".toList] ++ [m]) = none) ∧
    ∀ r, (∀ m ∈ names, r ≠ comp w ++ ["inputs".toList] ++ [m]) → g' r = g r

/-- The number is determined by the two states. -/
theorem removed_unique {g g' : View} {w : Name} {n k : Nat} (h : Removed g g' w n) (h' : Removed g g' w k) : n = k := by
  obtain ⟨a, na, la, ra, fa⟩ := h
  obtain ⟨b, nb, lb, rb, fb⟩ := h'
  have sub : ∀ {a b : List Name}, (∀ m ∈ a, IsInput g w m ∧ g' (comp w ++ ["inputs".toList] ++ [m]) = none) →
      (∀ r, (∀ m ∈ b, r ≠ comp w ++ ["inputs".toList] ++ [m]) → g' r = g r) → ∀ m ∈ a, m ∈ b := by
    intro a b ra fb m hm
    by_contra hb
    obtain ⟨⟨⟨text, ht⟩, -⟩, hn⟩ := ra m hm
    have := fb (comp w ++ ["inputs".toList] ++ [m]) (by
      intro x hx e
      have := List.append_cancel_left e
      simp only [List.cons.injEq, and_true] at this
      exact hb (this ▸ hx))
    rw [hn, ht] at this
    cases this
  have p : a.Perm b := (List.perm_ext_iff_of_nodup na nb).mpr fun m => ⟨sub ra fb m, sub rb fa m⟩
  rw [← la, ← lb, p.length_eq]

/-! ## Removing inputs -/

theorem comp_ne {m : Name} (h : ∃ s, m = s ++ ".nc".toList) : comp m = [m] := by
  unfold comp
  rw [if_neg]
  rintro rfl
  obtain ⟨s, hs⟩ := h
  have := congrArg List.length hs
  simp at this

theorem mem_inputNames {P : Type} (fnmatch : Name → P → Bool) (star : P) (hstar : ∀ fn, fnmatch (fn ++ ".nc".toList) star = true)
    (fs : FS) (w : Name) (hd : view fs (comp w ++ ["inputs".toList]) = some .dir) (patterns : List P) (m : Name) :
    m ∈ inputNames fnmatch fs w (if patterns = [] then .single star else .many patterns) ↔
      IsInput (view fs) w m ∧ Named fnmatch patterns m := by
  unfold inputNames
  have hex : fs.exists? (inputs w) = true := by
    rw [FS.exists?_iff]
    show view fs _ ≠ none
    unfold inputs inputsDir
    rw [hd]
    simp
  rw [if_pos hex, (listing_exact_and_sorted fnmatch _ _).2 m]
  have prod : IsProduct ((fs.listdir (inputs w)).map fun n => (n, !fs.isDir (inputs w ++ [n]))) m ↔ IsInput (view fs) w m := by
    unfold IsProduct IsInput
    apply and_congr_left
    intro _
    simp only [List.mem_map, Prod.mk.injEq, Bool.not_eq_true']
    constructor
    · rintro ⟨x, hx, rfl, hf⟩
      rw [FS.mem_listdir] at hx
      cases hv : view fs (comp w ++ ["inputs".toList] ++ [x]) with
      | none => exact absurd hv hx
      | some e =>
        cases e with
        | file text => exact ⟨text, rfl⟩
        | dir =>
          have := (FS.isDir_iff fs (inputs w ++ [x])).2 hv
          rw [this] at hf
          cases hf
    · rintro ⟨text, ht⟩
      refine ⟨m, ?_, rfl, ?_⟩
      · rw [FS.mem_listdir]
        intro h
        unfold view inputs inputsDir at *
        rw [h] at ht
        cases ht
      · by_contra h
        rw [Bool.not_eq_false] at h
        have := (FS.isDir_iff fs (inputs w ++ [m])).1 h
        unfold view inputs inputsDir at *
        rw [this] at ht
        cases ht
  rw [prod]
  apply and_congr_right
  rintro ⟨-, s, rfl⟩
  unfold Named
  by_cases hp : patterns = []
  · subst hp
    rw [if_pos rfl]
    exact ⟨fun _ => .inl rfl, fun _ => hstar s⟩
  · rw [if_neg hp]
    rfl

/-- **C88, removing inputs: the effect.**  When the command reports a number, exactly the inputs named by the patterns (all of them without
patterns) are gone and nothing else has changed. -/
theorem remove_effect {P : Type} (fnmatch : Name → P → Bool) (star : P) (hstar : ∀ fn, fnmatch (fn ++ ".nc".toList) star = true)
    (fs : FS) (w : Name) (hd : view fs (comp w ++ ["inputs".toList]) = some .dir) (patterns : List P) (n : Nat)
    (h : (inputRemove fnmatch star fs w patterns true).1 = .ok (some n)) :
    (∀ m, IsInput (view fs) w m → Named fnmatch patterns m →
      view (inputRemove fnmatch star fs w patterns true).2 (comp w ++ ["inputs".toList] ++ [m]) = none) ∧
    ∀ r, (∀ m, IsInput (view fs) w m → Named fnmatch patterns m → r ≠ comp w ++ ["inputs".toList] ++ [m]) →
      view (inputRemove fnmatch star fs w patterns true).2 r = view fs r := by
  have mem := mem_inputNames fnmatch star hstar fs w hd patterns
  unfold inputRemove at h ⊢
  dsimp only at h ⊢
  generalize inputNames fnmatch fs w (if patterns = [] then .single star else .many patterns) = names at *
  by_cases hn : names = []
  · rw [if_pos hn] at h
    cases h
  rw [if_neg hn, if_pos rfl] at h ⊢
  obtain ⟨-, e2⟩ := remove_inputs_exact fs w names
  rcases hr : removeInputs fs w names with ⟨res, fs1, k⟩
  rw [hr] at h e2
  cases res with
  | error e =>
    dsimp only at h
    unfold converted at h
    split at h <;> cases h
  | ok u =>
    obtain ⟨f1, f2, -⟩ := e2 rfl
    dsimp only at f1 f2 ⊢
    constructor
    · intro m h1 h2
      have := f1 m ((mem m).2 ⟨h1, h2⟩)
      rw [comp_ne h1.2] at this
      exact this
    · intro r hr
      apply f2
      intro m hm
      obtain ⟨h1, h2⟩ := (mem m).1 hm
      rw [comp_ne h1.2]
      exact hr m h1 h2

/-- When an input is named, an accepted command succeeds; when none is, it fails; declined or failed commands change nothing. -/
theorem remove_cases {P : Type} (fnmatch : Name → P → Bool) (star : P) (hstar : ∀ fn, fnmatch (fn ++ ".nc".toList) star = true)
    (fs : FS) (w : Name) (hd : view fs (comp w ++ ["inputs".toList]) = some .dir) (patterns : List P) :
    ((∃ m, IsInput (view fs) w m ∧ Named fnmatch patterns m) →
      (∃ n, (inputRemove fnmatch star fs w patterns true).1 = .ok (some n)) ∧ inputRemove fnmatch star fs w patterns false = (.ok none, fs)) ∧
    ((¬ ∃ m, IsInput (view fs) w m ∧ Named fnmatch patterns m) → ∀ yes,
      inputRemove fnmatch star fs w patterns yes = (.error (.other "no matching inputs found"), fs)) := by
  have mem := mem_inputNames fnmatch star hstar fs w hd patterns
  unfold inputRemove
  dsimp only
  generalize inputNames fnmatch fs w (if patterns = [] then .single star else .many patterns) = names at *
  constructor
  · rintro ⟨m, hm⟩
    have hn : names ≠ [] := fun e => by
      have := (mem m).2 hm
      rw [e] at this
      cases this
    rw [if_neg hn, if_neg hn]
    refine ⟨?_, by simp⟩
    have ok := (remove_inputs_exact fs w names).1 (by
      intro x hx hdir
      obtain ⟨h1, -⟩ := (mem x).1 hx
      rw [comp_ne h1.2] at hdir
      obtain ⟨text, ht⟩ := h1.1
      rw [hdir] at ht
      cases ht)
    rw [if_pos rfl]
    rcases hr : removeInputs fs w names with ⟨res, fs1, k⟩
    rw [hr] at ok
    dsimp only at ok
    subst ok
    exact ⟨_, rfl⟩
  · intro hno yes
    have hn : names = [] := by
      cases names with
      | nil => rfl
      | cons x l => exact absurd ⟨x, (mem x).1 List.mem_cons_self⟩ hno
    rw [if_pos hn]
    rfl

theorem remove_number {P : Type} (fnmatch : Name → P → Bool) (star : P) (fs : FS) (w : Name) (patterns : List P) (n : Nat)
    (h : (inputRemove fnmatch star fs w patterns true).1 = .ok (some n)) :
    n = (inputNames fnmatch fs w (if patterns = [] then .single star else .many patterns)).length := by
  unfold inputRemove at h
  dsimp only at h
  generalize inputNames fnmatch fs w (if patterns = [] then .single star else .many patterns) = names at *
  split at h
  · cases h
  rw [if_pos rfl] at h
  split at h
  · exact (Option.some.inj (Except.ok.inj h)).symm
  · dsimp only at h
    unfold converted at h
    split at h <;> cases h

/-- **C88, removing inputs: the number**, if no input matches two of the patterns. -/
theorem remove_reports_partial {P : Type} (fnmatch : Name → P → Bool) (star : P) (hstar : ∀ fn, fnmatch (fn ++ ".nc".toList) star = true)
    (fs : FS) (ho : Once fs) (w : Name) (hd : view fs (comp w ++ ["inputs".toList]) = some .dir) (patterns : List P)
    (hone : ∀ m, IsInput (view fs) w m → (patterns.filter fun p => fnmatch m p).length ≤ 1) (n : Nat)
    (h : (inputRemove fnmatch star fs w patterns true).1 = .ok (some n)) :
    Removed (view fs) (view (inputRemove fnmatch star fs w patterns true).2) w n := by
  have mem := mem_inputNames fnmatch star hstar fs w hd patterns
  obtain ⟨e1, e2⟩ := remove_effect fnmatch star hstar fs w hd patterns n h
  have hn := remove_number fnmatch star fs w patterns n h
  refine ⟨_, ?_, hn.symm, ?_, ?_⟩
  · unfold inputNames
    split
    · have hdir : (((fs.listdir (inputs w)).map fun n => (n, !fs.isDir (inputs w ++ [n]))).map (·.1)).Nodup := by
        rw [List.map_map]
        have : ((fun x : Name × Bool => x.1) ∘ fun n => (n, !fs.isDir (inputs w ++ [n]))) = id := rfl
        rw [this, List.map_id]
        exact listdir_nodup fs _ ho
      apply listing_once_each_partial fnmatch _ hdir
      intro ps hps fn hfn
      by_cases hp : patterns = []
      · rw [if_pos hp] at hps
        cases hps
      · rw [if_neg hp] at hps
        have : ps = patterns := (PatternArg.many.inj hps).symm
        subst this
        apply hone
        have m1 := (mem_inputNames fnmatch star hstar fs w hd [] fn)
        have : fn ∈ inputNames fnmatch fs w (.single star) := by
          unfold inputNames
          rename_i hex
          rw [if_pos hex, (listing_exact_and_sorted fnmatch _ _).2 fn]
          refine ⟨hfn, ?_⟩
          obtain ⟨s, rfl⟩ := hfn.2
          exact hstar s
        exact (m1.1 (by simpa using this)).1
    · exact List.nodup_nil
  · intro m hm
    obtain ⟨h1, h2⟩ := (mem m).1 hm
    exact ⟨h1, e1 m h1 h2⟩
  · intro r hr
    apply e2
    intro m h1 h2
    exact hr m ((mem m).2 ⟨h1, h2⟩)

/-- **C88 is violated** whenever an input matches two of the patterns: it is counted twice. -/
theorem remove_reports_violated {P : Type} (fnmatch : Name → P → Bool) (star : P) (hstar : ∀ fn, fnmatch (fn ++ ".nc".toList) star = true)
    (fs : FS) (ho : Once fs) (w : Name) (hd : view fs (comp w ++ ["inputs".toList]) = some .dir) (patterns : List P) (m : Name)
    (hm : IsInput (view fs) w m) (htwo : 2 ≤ (patterns.filter fun p => fnmatch m p).length) :
    ∃ n, (inputRemove fnmatch star fs w patterns true).1 = .ok (some n) ∧
      ¬ Removed (view fs) (view (inputRemove fnmatch star fs w patterns true).2) w n := by
  have mem := mem_inputNames fnmatch star hstar fs w hd patterns
  have hne : patterns ≠ [] := by
    rintro rfl
    simp at htwo
  have hnamed : Named fnmatch patterns m := by
    right
    have : (patterns.filter fun p => fnmatch m p) ≠ [] := by
      intro e
      rw [e] at htwo
      simp at htwo
    obtain ⟨p, hp⟩ := List.exists_mem_of_ne_nil _ this
    rw [List.mem_filter] at hp
    exact ⟨p, hp.1, hp.2⟩
  obtain ⟨n, hn⟩ := ((remove_cases fnmatch star hstar fs w hd patterns).1 ⟨m, hm, hnamed⟩).1
  refine ⟨n, hn, ?_⟩
  rintro ⟨names, nd, hl, hr, hf⟩
  have hnum := remove_number fnmatch star fs w patterns n hn
  rw [if_neg hne] at hnum mem
  obtain ⟨e1, -⟩ := remove_effect fnmatch star hstar fs w hd patterns n hn
  -- every listed name is one of `names`, so the list is not longer than `names` only if it has no repetitions
  have sub : ∀ x ∈ inputNames fnmatch fs w (.many patterns), x ∈ names := by
    intro x hx
    obtain ⟨h1, h2⟩ := (mem x).1 hx
    by_contra hno
    have := hf (comp w ++ ["inputs".toList] ++ [x]) (by
      intro y hy e
      have := List.append_cancel_left e
      simp only [List.cons.injEq, and_true] at this
      exact hno (this ▸ hy))
    obtain ⟨text, ht⟩ := h1.1
    rw [e1 x h1 h2, ht] at this
    cases this
  have sup : ∀ x ∈ names, x ∈ inputNames fnmatch fs w (.many patterns) := by
    intro x hx
    obtain ⟨h1, h2⟩ := hr x hx
    by_contra hno
    have hno' : ¬ Named fnmatch patterns x := fun h => hno ((mem x).2 ⟨h1, h⟩)
    obtain ⟨-, e2⟩ := remove_effect fnmatch star hstar fs w hd patterns n hn
    have := e2 (comp w ++ ["inputs".toList] ++ [x]) (by
      intro y _ hy e
      have := List.append_cancel_left e
      simp only [List.cons.injEq, and_true] at this
      exact hno' (this ▸ hy))
    obtain ⟨text, ht⟩ := h1.1
    rw [h2, ht] at this
    cases this
  have hsp : names.Subperm (inputNames fnmatch fs w (.many patterns)) := List.subperm_of_subset nd sup
  have hperm : names.Perm (inputNames fnmatch fs w (.many patterns)) :=
    hsp.perm_of_length_le (by rw [hl, hnum])
  have hnd : (inputNames fnmatch fs w (.many patterns)).Nodup := hperm.nodup_iff.1 nd
  have hcount : (inputNames fnmatch fs w (.many patterns)).count m = (patterns.filter fun p => fnmatch m p).length := by
    unfold inputNames
    have hex : fs.exists? (inputs w) = true := by
      rw [FS.exists?_iff]
      show view fs _ ≠ none
      unfold inputs inputsDir
      rw [hd]
      simp
    rw [if_pos hex]
    have hdir : (((fs.listdir (inputs w)).map fun n => (n, !fs.isDir (inputs w ++ [n]))).map (·.1)).Nodup := by
      rw [List.map_map]
      have : ((fun x : Name × Bool => x.1) ∘ fun n => (n, !fs.isDir (inputs w ++ [n]))) = id := rfl
      rw [this, List.map_id]
      exact listdir_nodup fs _ ho
    apply listing_multiplicity fnmatch _ hdir
    · exact hne
    · have := (mem m).2 ⟨hm, hnamed⟩
      unfold inputNames at this
      rw [if_pos hex, (listing_exact_and_sorted fnmatch _ _).2 m] at this
      exact this.1
  have := List.nodup_iff_count_le_one.1 hnd m
  omega

example : (inputRemove (fun (fn : Name) (p : Char) => p = '*' || fn.head? = some p) '*'
    [([], .dir), (["w".toList], .dir), (["w".toList, "inputs".toList], .dir),
     (["w".toList, "inputs".toList, "a.nc".toList], .file "1".toList), (["w".toList, "inputs".toList, "b.nc".toList], .file "2".toList)]
    "w".toList ['a', '*'] true).1 = .ok (some 3) := by decide +kernel

/-! ## Adding inputs -/

/-- Every given file has its copy among the inputs. -/
def Stored (g : View) (w : Name) (paths : List Source) : Prop :=
  ∀ s ∈ paths, s.content ≠ none ∧ g (comp w ++ ["inputs".toList] ++ [s.base]) = s.content.map .file

theorem add_ok (fs : FS) (w : Name) (paths : List Source) (hne : paths ≠ []) (hdir : view fs (comp w ++ ["inputs".toList]) = some .dir)
    (hfiles : OnlyFiles (view fs) (comp w ++ ["inputs".toList])) (hread : ∀ s ∈ paths, s.base ≠ [] ∧ s.content ≠ none) :
    (inputAdd fs w paths).1 = .ok paths.length ∧ (inputAdd fs w paths).2 = (addInputs fs w paths).2.1 ∧
      (addInputs fs w paths).1 = .ok () := by
  have ok := add_inputs_succeeds fs w paths hdir hfiles hread
  unfold inputAdd
  rw [if_neg hne]
  rcases hr : addInputs fs w paths with ⟨res, fs1, k⟩
  rw [hr] at ok
  dsimp only at ok
  subst ok
  exact ⟨rfl, rfl, rfl⟩

/-- **C88, adding inputs**, if no two of the given files have the same base name: the number is the number of copies made, every file has
its copy, and nothing else has changed. -/
theorem add_reports_partial (fs : FS) (w : Name) (paths : List Source) (hne : paths ≠ [])
    (hdir : view fs (comp w ++ ["inputs".toList]) = some .dir) (hfiles : OnlyFiles (view fs) (comp w ++ ["inputs".toList]))
    (hread : ∀ s ∈ paths, s.base ≠ [] ∧ s.content ≠ none) (hnd : (paths.map (·.base)).Nodup) :
    ∃ n, (inputAdd fs w paths).1 = .ok n ∧ n = (paths.map (·.base)).dedup.length ∧ Stored (view (inputAdd fs w paths).2) w paths ∧
      ∀ r, (∀ s ∈ paths, r ≠ comp w ++ ["inputs".toList] ++ [s.base]) → view (inputAdd fs w paths).2 r = view fs r := by
  obtain ⟨h1, h2, h3⟩ := add_ok fs w paths hne hdir hfiles hread
  obtain ⟨e1, e2, -⟩ := add_inputs_exact fs w paths hdir hfiles h3
  refine ⟨_, h1, by rw [List.dedup_eq_self.mpr hnd, List.length_map], ?_, ?_⟩
  · intro s hs
    refine ⟨(hread s hs).2, ?_⟩
    rw [h2, (e1 s hs).1]
    have : lastContent paths s.base = s.content := by
      unfold lastContent
      have hf : paths.reverse.find? (fun x => x.base = s.base) = some s := by
        have hnd' : (paths.reverse.map (·.base)).Nodup := by
          rw [List.map_reverse, List.nodup_reverse]
          exact hnd
        have hs' : s ∈ paths.reverse := List.mem_reverse.mpr hs
        revert hnd' hs'
        generalize paths.reverse = l
        intro hnd' hs'
        induction l with
        | nil => cases hs'
        | cons x l ih =>
          rw [List.map_cons, List.nodup_cons] at hnd'
          rcases List.mem_cons.1 hs' with rfl | hs''
          · simp
          · have hx : x.base ≠ s.base := fun e => hnd'.1 (e ▸ List.mem_map.2 ⟨s, hs'', rfl⟩)
            rw [List.find?_cons_of_neg (by simpa using hx)]
            exact ih hnd'.2 hs''
      rw [hf]
      rfl
    rw [this]
  · intro r hr
    rw [h2]
    exact e2 r hr

/-- **C88 is violated** whenever two of the given files have the same base name and different contents: both are counted, and one of them has
no copy. -/
theorem add_reports_violated (fs : FS) (w : Name) (paths : List Source)
    (hdir : view fs (comp w ++ ["inputs".toList]) = some .dir) (hfiles : OnlyFiles (view fs) (comp w ++ ["inputs".toList]))
    (hread : ∀ s ∈ paths, s.base ≠ [] ∧ s.content ≠ none) (s t : Source) (hs : s ∈ paths) (ht : t ∈ paths) (hb : s.base = t.base)
    (hc : s.content ≠ t.content) :
    (inputAdd fs w paths).1 = .ok paths.length ∧ (paths.map (·.base)).dedup.length < paths.length ∧
      ¬ Stored (view (inputAdd fs w paths).2) w paths := by
  obtain ⟨h1, -, -⟩ := add_ok fs w paths (List.ne_nil_of_mem hs) hdir hfiles hread
  refine ⟨h1, ?_, ?_⟩
  · have hle : (paths.map (·.base)).dedup.length ≤ paths.length := by
      have := (List.dedup_sublist (paths.map (·.base))).length_le
      rwa [List.length_map] at this
    rcases Nat.lt_or_ge (paths.map (·.base)).dedup.length paths.length with h | h
    · exact h
    · exfalso
      have e := (List.dedup_sublist (paths.map (·.base))).eq_of_length_le (by rw [List.length_map]; exact h)
      have hnd : (paths.map (·.base)).Nodup := List.dedup_eq_self.mp e
      exact hc (by rw [List.inj_on_of_nodup_map hnd hs ht hb])
  · intro h
    have a := (h s hs).2
    have b := (h t ht).2
    rw [hb, b] at a
    cases hs' : s.content with
    | none => exact (hread s hs).2 hs'
    | some x =>
      cases ht' : t.content with
      | none => exact (hread t ht).2 ht'
      | some y =>
        rw [hs', ht'] at a
        simp only [Option.map_some, Option.some.injEq, Entry.file.injEq] at a
        exact hc (by rw [hs', ht', a])

/-- Without files, nothing happens. -/
theorem add_nothing (fs : FS) (w : Name) : inputAdd fs w [] = (.error (.other "no matching inputs found"), fs) := rfl

example : (inputAdd inputsExample "w".toList [⟨"a.nc".toList, some "1".toList⟩, ⟨"a.nc".toList, some "2".toList⟩]).1 = .ok 2 := by
  decide +kernel

/-! ## Cleaning outputs -/

/-- Every entry of the outputs directory is a file or a link to one. -/
def Regular (d : Dict Name Kind) : Prop := ∀ e ∈ d, e.2 = .file ∨ e.2 = .link

theorem removeOutLoop_regular : ∀ (names : List Name) (d : Dict Name Kind),
    (∀ n k, Dict.get? d n = some k → k = .file ∨ k = .link) → (removeOutLoop d names).1 = .ok () := by
  intro names
  induction names with
  | nil => intro d _; rfl
  | cons n t ih =>
    intro d h
    have he : ∀ m k, Dict.get? (Dict.erase d n) m = some k → k = .file ∨ k = .link := by
      intro m k hm
      rw [Dict.get?_erase] at hm
      split at hm
      · cases hm
      · exact h m k hm
    unfold removeOutLoop
    cases hg : Dict.get? d n with
    | none => exact ih d h
    | some k =>
      rcases h n k hg with rfl | rfl
      · exact ih _ he
      · exact ih _ he

theorem get?_mem (d : Dict Name Kind) (n : Name) (k : Kind) (h : Dict.get? d n = some k) : (n, k) ∈ d := by
  induction d with
  | nil => cases h
  | cons e t ih =>
    obtain ⟨a, b⟩ := e
    rw [Dict.get?] at h
    split at h
    · rename_i hn
      rw [Option.some.injEq] at h
      rw [hn, h]
      exact List.mem_cons_self
    · exact List.mem_cons_of_mem _ (ih h)

theorem clean_regular (d : Dict Name Kind) (hr : Regular d) : ∃ d', removeOutputs (some d) = (.ok (), some d') ∧ ∀ n, Dict.get? d' n = none := by
  have hg : ∀ n k, Dict.get? d n = some k → k = .file ∨ k = .link := fun n k h => hr _ (get?_mem d n k h)
  have ok : (removeOutputs (some d)).1 = .ok () := removeOutLoop_regular _ d hg
  obtain ⟨-, h2, -⟩ := outputs_removed_partial d
  obtain ⟨d', hd', hn⟩ := h2 (by
    intro n h
    rcases hg n _ h with h | h <;> cases h) ok
  exact ⟨d', Prod.ext ok hd', hn⟩

/-- The names listed: those ending in `.nc`. -/
theorem outputNames_length (d : Dict Name Kind) (hr : Regular d) :
    (outputNames (some d)).length = (d.filter fun e => isNc e.1).length := by
  unfold outputNames ncList
  dsimp only
  rw [(sortNames_perm _).length_eq, List.length_map, List.filter_map, List.length_map]
  congr 1
  apply List.filter_congr
  intro e he
  rcases hr e he with h | h <;> simp [h]

/-- **C88, cleaning outputs**, if all entries are products: they are all removed, and their number is reported. -/
theorem clean_reports_partial (d : Dict Name Kind) (hne : d ≠ []) (hr : Regular d) (hp : ∀ e ∈ d, ∃ s, e.1 = s ++ ".nc".toList) :
    ∃ d', outputClean (some d) true = (.ok (some d.length), some d') ∧ ∀ n, Dict.get? d' n = none := by
  obtain ⟨d', h1, h2⟩ := clean_regular d hr
  refine ⟨d', ?_, h2⟩
  have hl : (outputNames (some d)).length = d.length := by
    rw [outputNames_length d hr, List.filter_eq_self.mpr fun e he => (isNc_iff e.1).2 (hp e he)]
  have hn : outputNames (some d) ≠ [] := by
    intro e
    rw [e] at hl
    exact hne (List.length_eq_zero_iff.mp hl.symm)
  unfold outputClean
  dsimp only
  rw [if_neg hn, if_pos rfl, h1, hl]

/-- Declined, or without products: nothing changes. -/
theorem clean_declined (d : Option (Dict Name Kind)) : (outputClean d false).2 = d := by
  unfold outputClean
  dsimp only
  split <;> rfl

/-- **C88 is violated** whenever there is a product and another file: all files are removed, but not all of them are reported. -/
theorem clean_reports_violated (d : Dict Name Kind) (hr : Regular d) (a b : Name × Kind) (ha : a ∈ d) (hb : b ∈ d)
    (hpa : ∃ s, a.1 = s ++ ".nc".toList) (hpb : ¬ ∃ s, b.1 = s ++ ".nc".toList) :
    ∃ n d', outputClean (some d) true = (.ok (some n), some d') ∧ (∀ m, Dict.get? d' m = none) ∧ n < d.length := by
  obtain ⟨d', h1, h2⟩ := clean_regular d hr
  have hl := outputNames_length d hr
  have hn : outputNames (some d) ≠ [] := by
    intro e
    rw [e] at hl
    have : a ∈ d.filter fun e => isNc e.1 := List.mem_filter.2 ⟨ha, (isNc_iff a.1).2 hpa⟩
    rw [List.length_eq_zero_iff.mp hl.symm] at this
    cases this
  refine ⟨(outputNames (some d)).length, d', ?_, h2, ?_⟩
  · unfold outputClean
    dsimp only
    rw [if_neg hn, if_pos rfl, h1]
  · rw [hl]
    apply List.length_filter_lt_length_iff_exists.mpr
    exact ⟨b, hb, fun h => hpb ((isNc_iff b.1).1 h)⟩

/-- **C88 is violated** whenever there are only other files: the directory is not cleaned. -/
theorem clean_refuses_violated (d : Dict Name Kind) (hp : ∀ e ∈ d, ¬ ∃ s, e.1 = s ++ ".nc".toList) (yes : Bool) :
    outputClean (some d) yes = (.error (.other "no matching outputs found"), some d) := by
  have hn : outputNames (some d) = [] := by
    rw [List.eq_nil_iff_forall_not_mem]
    intro m hm
    obtain ⟨h, hs⟩ := ((listing_exact_and_sorted (fun _ (_ : Unit) => true) _ .absent).2 m).1 hm |>.1
    simp only [List.mem_map, Prod.mk.injEq] at h
    obtain ⟨e, he, rfl, -⟩ := h
    exact hp e he hs
  unfold outputClean
  dsimp only
  rw [if_pos hn]
  rfl

example : outputClean (some [("L1B_x.nc".toList, .file), ("fig.png".toList, .file)]) true = (.ok (some 1), some []) := by decide +kernel
example : outputClean (some [("fig.png".toList, .file)]) true = (.error (.other "no matching outputs found"), some [("fig.png".toList, .file)]) := by
  decide +kernel

end Dedop.Report
