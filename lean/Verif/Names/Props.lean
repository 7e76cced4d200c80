import Verif.Names.Lemmas

/-! # Names: properties C04 – C08 -/
namespace Dedop.Names

/-! ## C04 -/

/-- **C04.**  The search for a free workspace name always ends (after at most as many rounds as
there are names, plus two); the name found is free, and it is the requested one if that is free,
else `base_k` with the smallest free `k ≥ 2`. -/
theorem unique_name_found (existing : List Name) (base : Name) :
    ∃ r, (∀ fuel, existing.length + 2 ≤ fuel → uniqueWorkspaceName fuel existing base = some r) ∧
      r ∉ existing ∧
      ((base ∉ existing ∧ r = base) ∨
       (base ∈ existing ∧ ∃ k, 2 ≤ k ∧ r = base ++ ['_'] ++ decimal k ∧
          ∀ j, 2 ≤ j → j < k → base ++ ['_'] ++ decimal j ∈ existing)) := by
  by_cases hb : base ∈ existing
  · obtain ⟨k0, hk0, hfree0⟩ := exists_free existing (fun k => base ++ ['_'] ++ decimal k)
      (fun a b h => suffixed_injective base h) 2
    obtain ⟨k, hk, hmin⟩ := exists_smallest
      (fun k => base ++ ['_'] ++ decimal (2 + k) ∉ existing) ⟨k0, hfree0⟩
    have hkl : k ≤ existing.length := by
      by_contra hlt
      exact hmin k0 (by omega) hfree0
    refine ⟨base ++ ['_'] ++ decimal (2 + k), ?_, hk, Or.inr ⟨hb, 2 + k, by omega, rfl, ?_⟩⟩
    · intro fuel hfuel
      obtain ⟨f, rfl⟩ : ∃ f, fuel = f + 1 := ⟨fuel - 1, by omega⟩
      unfold uniqueWorkspaceName
      rw [uniqueLoop, if_pos hb]
      refine uniqueLoop_finds existing base 2 k f hk ?_ (by omega)
      intro j h1 h2
      have := hmin (j - 2) (by omega)
      rw [show 2 + (j - 2) = j by omega] at this
      exact not_not.1 this
    · intro j h1 h2
      have := hmin (j - 2) (by omega)
      rw [show 2 + (j - 2) = j by omega] at this
      exact not_not.1 this
  · refine ⟨base, ?_, hb, Or.inl ⟨hb, rfl⟩⟩
    intro fuel hfuel
    obtain ⟨f, rfl⟩ : ∃ f, fuel = f + 1 := ⟨fuel - 1, by omega⟩
    unfold uniqueWorkspaceName
    rw [uniqueLoop, if_neg hb]

/-- **C04 for configurations.**  The same when the workspace has a `configs` directory; without one
the command dies with a `TypeError` instead. -/
theorem unique_config_name_found (existing : Option (List Name)) (base : Name) :
    match existing with
    | none => ∀ fuel, uniqueConfigName fuel none base = .error .typeError
    | some names =>
      ∃ r, (∀ fuel, names.length + 2 ≤ fuel → uniqueConfigName fuel (some names) base = .ok (some r)) ∧
        r ∉ names ∧
        ((base ∉ names ∧ r = base) ∨
         (base ∈ names ∧ ∃ k, 2 ≤ k ∧ r = base ++ ['_'] ++ decimal k ∧
            ∀ j, 2 ≤ j → j < k → base ++ ['_'] ++ decimal j ∈ names)) := by
  cases existing with
  | none => intro fuel; rfl
  | some names =>
    obtain ⟨r, h1, h2⟩ := unique_name_found names base
    refine ⟨r, fun fuel hf => ?_, h2⟩
    have := h1 fuel hf
    unfold uniqueWorkspaceName at this
    simp only [uniqueConfigName, this]

/-- Distinct suffix numbers are distinct names (`%d` is injective), so the search cannot cycle. -/
theorem suffixed_names_distinct (base : Name) (a b : Nat)
    (h : base ++ ['_'] ++ decimal a = base ++ ['_'] ++ decimal b) : a = b :=
  suffixed_injective base h

example : uniqueWorkspaceName 5 ["w".toList, "w_2".toList, "x".toList] "w".toList =
    some "w_3".toList := by decide +kernel

/-! ## C05 -/

/-- **C05, one launch.**  A launch always ends; it writes one file that was not there, under the
smallest free number, and all other files keep their contents. -/
theorem launch_never_overwrites (dir : Dict Name String) (base : Name) (json : String) :
    ∃ dir' k, (∀ fuel, dir.length + 1 ≤ fuel →
        launch fuel dir base json = some (dir', notebookName base k)) ∧
      1 ≤ k ∧ dir.get? (notebookName base k) = none ∧
      (∀ j, 1 ≤ j → j < k → dir.get? (notebookName base j) ≠ none) ∧
      dir'.get? (notebookName base k) = some json ∧
      ∀ f, f ≠ notebookName base k → dir'.get? f = dir.get? f := by
  obtain ⟨k0, hk0, hfree0⟩ := exists_free (dir.map Prod.fst) (fun k => notebookName base k)
    (fun a b h => notebookName_injective base h) 1
  have hfree0' := get?_none_of_not_mem dir _ hfree0
  obtain ⟨k, hk, hmin⟩ := exists_smallest
    (fun k => dir.get? (notebookName base (1 + k)) = none) ⟨k0, hfree0'⟩
  have hkl : k ≤ dir.length := by
    by_contra hlt
    rw [List.length_map] at hk0
    exact hmin k0 (by omega) hfree0'
  refine ⟨dir.set (notebookName base (1 + k)) json, 1 + k, ?_, by omega, hk, ?_, ?_, ?_⟩
  · intro fuel hfuel
    unfold launch
    have hl := notebookLoop_finds dir base 0 k fuel (by simpa using hk) (by
      intro j h1 h2
      have := hmin (j - 1) (by omega)
      rwa [show 1 + (j - 1) = j by omega] at this) (by omega)
    rw [hl]
  · intro j h1 h2
    have := hmin (j - 1) (by omega)
    rwa [show 1 + (j - 1) = j by omega] at this
  · rw [Dict.get?_set]; simp
  · intro f hf; rw [Dict.get?_set, if_neg hf]

/-- A sequence of launches `(basename, contents)`; the list of files written. -/
def launches : Dict Name String → List (Name × String) → Option (Dict Name String × List Name)
  | dir, [] => some (dir, [])
  | dir, (base, json) :: rest =>
    match launch (dir.length + 1) dir base json with
    | none => none
    | some (dir', f) =>
      match launches dir' rest with
      | none => none
      | some (dir'', fs) => some (dir'', f :: fs)

/-- **C05, sequences.**  Any sequence of `n` launches succeeds and creates `n` different new files,
each holding what its launch wrote; every file present before keeps its contents. -/
theorem launches_create_distinct_files (dir : Dict Name String) (ls : List (Name × String)) :
    ∃ dir' fs, launches dir ls = some (dir', fs) ∧ fs.length = ls.length ∧ fs.Nodup ∧
      (∀ f ∈ fs, dir.get? f = none) ∧
      (∀ f v, dir.get? f = some v → dir'.get? f = some v) ∧
      ∀ i (h : i < fs.length) (h' : i < ls.length), dir'.get? fs[i] = some ls[i].2 := by
  induction ls generalizing dir with
  | nil => exact ⟨dir, [], rfl, rfl, List.nodup_nil, by simp, fun _ _ h => h, by simp⟩
  | cons l ls ih =>
    obtain ⟨base, json⟩ := l
    obtain ⟨d1, k, h1, hk, hnone, -, hnew, hold⟩ := launch_never_overwrites dir base json
    obtain ⟨d2, fs, e, hlen, hnd, hfresh, hkeep, hget⟩ := ih d1
    have hnotin : notebookName base k ∉ fs := by
      intro hin
      have := hfresh _ hin
      rw [hnew] at this
      cases this
    refine ⟨d2, notebookName base k :: fs, ?_, by simp [hlen], ?_, ?_, ?_, ?_⟩
    · simp only [launches]
      rw [h1 _ (le_refl _)]
      simp only [e]
    · exact List.nodup_cons.2 ⟨hnotin, hnd⟩
    · intro f hf
      rcases List.mem_cons.1 hf with rfl | hf'
      · exact hnone
      · have hne : f ≠ notebookName base k := by rintro rfl; exact hnotin hf'
        rw [← hold f hne]; exact hfresh f hf'
    · intro f v hv
      have hne : f ≠ notebookName base k := by rintro rfl; rw [hnone] at hv; cases hv
      exact hkeep f v (by rw [hold f hne]; exact hv)
    · intro i hi hi'
      cases i with
      | zero => exact hkeep _ _ hnew
      | succ i => simpa using hget i (by simpa using hi) (by simpa using hi')

example : (launches [("compare-a-1.ipynb".toList, "old")]
    [("compare-a".toList, "x"), ("compare-a".toList, "y"), ("b".toList, "z")]).map (·.2) =
    some ["compare-a-2.ipynb".toList, "compare-a-3.ipynb".toList, "b-1.ipynb".toList] := by
  decide +kernel

/-! ## C06 -/

/-- A directory entry is listed as a candidate: regular file whose name ends in `.nc`. -/
def IsProduct (entries : List (Name × Bool)) (fn : Name) : Prop :=
  (fn, true) ∈ entries ∧ ∃ s, fn = s ++ ".nc".toList

theorem isNc_iff (fn : Name) : isNc fn = true ↔ ∃ s, fn = s ++ ".nc".toList := by
  unfold isNc
  rw [List.isSuffixOf_iff_suffix]
  constructor
  · rintro ⟨s, h⟩; exact ⟨s, h.symm⟩
  · rintro ⟨s, h⟩; exact ⟨s, h.symm⟩

theorem mem_candidates (entries : List (Name × Bool)) (fn : Name) :
    fn ∈ (entries.filter (fun e => isNc e.1 && e.2)).map (·.1) ↔ IsProduct entries fn := by
  unfold IsProduct
  rw [← isNc_iff]
  simp only [List.mem_map, List.mem_filter, Bool.and_eq_true, Prod.exists]
  constructor
  · rintro ⟨a, b, ⟨h1, h2, rfl⟩, rfl⟩; exact ⟨h1, h2⟩
  · rintro ⟨h1, h2⟩; exact ⟨fn, true, ⟨h1, h2, rfl⟩, rfl⟩

/-- The names selected by a pattern argument. -/
def Selected {P : Type} (fnmatch : Name → P → Bool) (fn : Name) : PatternArg P → Prop
  | .absent => True
  | .single p => fnmatch fn p = true
  | .many ps => ps = [] ∨ ∃ p ∈ ps, fnmatch fn p = true

/-- **C06, contents and order.**  For every pattern language, every directory and every pattern
argument, the listing is sorted and contains exactly the regular `.nc` files that match. -/
theorem listing_exact_and_sorted {P : Type} (fnmatch : Name → P → Bool)
    (entries : List (Name × Bool)) (pattern : PatternArg P) :
    (ncList fnmatch entries pattern).Pairwise (· ≤ ·) ∧
    ∀ fn, fn ∈ ncList fnmatch entries pattern ↔
      IsProduct entries fn ∧ Selected fnmatch fn pattern := by
  constructor
  · cases pattern with
    | absent => exact sortNames_sorted _
    | single p => exact sortNames_sorted _
    | many ps => simp only [ncList]; split <;> exact sortNames_sorted _
  · intro fn
    rw [← mem_candidates]
    cases pattern with
    | absent => simp only [ncList, (sortNames_perm _).mem_iff, Selected, and_true]
    | single p => simp only [ncList, (sortNames_perm _).mem_iff, List.mem_filter, Selected]
    | many ps =>
      simp only [ncList]
      split
      · rename_i h
        have : ps = [] := by simpa using h
        simp only [(sortNames_perm _).mem_iff, Selected, this, true_or, and_true]
      · rename_i h
        have hne : ps ≠ [] := by simpa using h
        simp only [(sortNames_perm _).mem_iff, Selected, hne, false_or, List.mem_flatMap]
        constructor
        · rintro ⟨a, ha, p, hp, hm⟩
          split at hm
          · rename_i hmat
            simp only [List.mem_singleton] at hm
            subst hm
            exact ⟨ha, p, hp, hmat⟩
          · cases hm
        · rintro ⟨ha, p, hp, hm⟩
          exact ⟨fn, ha, p, hp, by simp [hm]⟩

/-- **C06, once each (`_partial`: no pattern or a single pattern).**  In a directory (where names
are distinct) every file is listed once.  The full claim fails for several overlapping patterns, see
`listing_duplicates_violated`. -/
theorem listing_once_each_partial {P : Type} (fnmatch : Name → P → Bool)
    (entries : List (Name × Bool)) (hdir : (entries.map (·.1)).Nodup) (pattern : PatternArg P)
    (hp : ∀ ps, pattern = .many ps → ∀ fn, IsProduct entries fn →
      (ps.filter (fun p => fnmatch fn p)).length ≤ 1) :
    (ncList fnmatch entries pattern).Nodup := by
  have hc : ((entries.filter (fun e => isNc e.1 && e.2)).map (·.1)).Nodup :=
    hdir.sublist (List.filter_sublist.map _)
  cases pattern with
  | absent => exact (sortNames_perm _).nodup_iff.2 hc
  | single p => exact (sortNames_perm _).nodup_iff.2 (hc.filter _)
  | many ps =>
    simp only [ncList]
    split
    · exact (sortNames_perm _).nodup_iff.2 hc
    · rw [(sortNames_perm _).nodup_iff]
      have hp' := hp ps rfl
      rw [List.nodup_flatMap]
      constructor
      · intro fn hfn
        have h1 := hp' fn ((mem_candidates entries fn).1 hfn)
        have : (ps.flatMap fun p => if fnmatch fn p = true then [fn] else []) =
            List.replicate ((ps.filter (fun p => fnmatch fn p)).length) fn := by
          clear hp hp' h1
          rename_i hemp
          clear hemp
          induction ps with
          | nil => rfl
          | cons p ps ih =>
            simp only [List.flatMap_cons, List.filter_cons]
            split
            · rw [ih, List.length_cons, List.replicate_succ]; rfl
            · rw [ih]; rfl
        rw [this, List.nodup_replicate]
        exact h1
      · refine hc.imp ?_
        intro a b hab x hx hy
        simp only [List.mem_flatMap] at hx hy
        obtain ⟨p, _, h1⟩ := hx
        obtain ⟨q, _, h2⟩ := hy
        split at h1
        · split at h2
          · simp only [List.mem_singleton] at h1 h2
            exact hab (h1.symm.trans h2)
          · cases h2
        · cases h1

/-- **C06, how often.**  With several patterns a matching product is listed as many times as
patterns match it. -/
theorem listing_multiplicity {P : Type} (fnmatch : Name → P → Bool)
    (entries : List (Name × Bool)) (hdir : (entries.map (·.1)).Nodup) (ps : List P) (hne : ps ≠ [])
    (fn : Name) (hfn : IsProduct entries fn) :
    (ncList fnmatch entries (.many ps)).count fn = (ps.filter (fun p => fnmatch fn p)).length := by
  have hc : ((entries.filter (fun e => isNc e.1 && e.2)).map (·.1)).Nodup :=
    hdir.sublist (List.filter_sublist.map _)
  have hmem := (mem_candidates entries fn).2 hfn
  simp only [ncList]
  rw [if_neg (by simpa using hne), (sortNames_perm _).count_eq]
  revert hc hmem
  generalize (entries.filter (fun e => isNc e.1 && e.2)).map (·.1) = l
  intro hc hmem
  have hrep : ∀ x : Name, (ps.flatMap fun p => if fnmatch x p = true then [x] else []) =
      List.replicate ((ps.filter (fun p => fnmatch x p)).length) x := by
    intro x
    clear hne hmem
    induction ps with
    | nil => rfl
    | cons p ps ih =>
      simp only [List.flatMap_cons, List.filter_cons]
      split
      · rw [ih, List.length_cons, List.replicate_succ]; rfl
      · rw [ih]; rfl
  simp only [hrep]
  have hzero : ∀ l : List Name, fn ∉ l → (l.flatMap fun x =>
      List.replicate ((ps.filter (fun p => fnmatch x p)).length) x).count fn = 0 := by
    intro l hl
    rw [List.count_eq_zero]
    intro hin
    simp only [List.mem_flatMap, List.mem_replicate] at hin
    obtain ⟨a, ha, _, rfl⟩ := hin
    exact hl ha
  induction l with
  | nil => cases hmem
  | cons x l ih =>
    rw [List.nodup_cons] at hc
    rw [List.flatMap_cons, List.count_append]
    rcases List.mem_cons.1 hmem with rfl | hmem'
    · rw [hzero l hc.1, List.count_replicate_self]; omega
    · have hne' : x ≠ fn := by rintro rfl; exact hc.1 hmem'
      rw [ih hc.2 hmem', List.count_replicate]
      simp [hne']

/-- **C06 is violated for overlapping patterns**: with patterns `a*` and `*1.nc` (here: any two
patterns that match everything) the only file is listed twice. -/
theorem listing_duplicates_violated :
    ∃ (P : Type) (fnmatch : Name → P → Bool) (entries : List (Name × Bool)) (ps : List P),
      (entries.map (·.1)).Nodup ∧ ¬ (ncList fnmatch entries (.many ps)).Nodup := by
  refine ⟨Unit, fun _ _ => true, [("a1.nc".toList, true)], [(), ()], ?_, ?_⟩ <;> decide +kernel

example : ncList (fun (fn : Name) (p : Char) => fn.head? = some p)
    [("b.nc".toList, true), ("a.txt".toList, true), ("a2.nc".toList, true), ("a1.nc".toList, true),
     ("a.nc".toList, false)] (.single 'a') = ["a1.nc".toList, "a2.nc".toList] := by
  decide +kernel

/-! ## C07 -/

/-- **C07.**  For a non-empty title and a limit above 3: unchanged if it fits, else exactly `maxLen`
characters, the dots and one end of the title. -/
theorem limited_title (name : Name) (maxLen : Nat) (mode : Mode) (hne : name ≠ []) (h3 : 3 < maxLen) :
    ∃ t, limitTitle name maxLen mode = .ok t ∧ t.length ≤ maxLen ∧
      (name.length ≤ maxLen → t = name) ∧
      (maxLen < name.length → t.length = maxLen ∧
        ∃ kept dropped, kept.length = maxLen - 3 ∧
          match mode with
          | .r => name = dropped ++ kept ∧ t = "...".toList ++ kept
          | .l => name = kept ++ dropped ∧ t = kept ++ "...".toList) := by
  have h3' : ¬ ¬ (maxLen : Int) > 3 := by omega
  by_cases hfit : name.length ≤ maxLen
  · refine ⟨name, ?_, hfit, fun _ => rfl, fun h => by omega⟩
    unfold limitTitle
    rw [if_neg hne, if_neg h3', if_pos (by omega)]
  · have hfit' : ¬ (name.length : Int) ≤ maxLen := by omega
    cases mode with
    | r =>
      have hs : sliceFrom name (3 - (maxLen : Int)) = name.drop (name.length - (maxLen - 3)) := by
        unfold sliceFrom
        rw [if_pos (by omega)]
        congr 1
        omega
      have hl : (name.drop (name.length - (maxLen - 3))).length = maxLen - 3 := by
        rw [List.length_drop]; omega
      refine ⟨"...".toList ++ name.drop (name.length - (maxLen - 3)), ?_, ?_, ?_, ?_⟩
      · unfold limitTitle
        rw [if_neg hne, if_neg h3', if_neg hfit']
        simp only [hs]
        rfl
      · rw [List.length_append, hl]
        have : "...".toList.length = 3 := by decide
        omega
      · intro h; omega
      · intro _
        refine ⟨?_, _, name.take (name.length - (maxLen - 3)), hl, ?_, rfl⟩
        · rw [List.length_append, hl]
          have : "...".toList.length = 3 := by decide
          omega
        · exact (List.take_append_drop _ _).symm
    | l =>
      have hs : sliceTo name ((maxLen : Int) - 3) = name.take (maxLen - 3) := by
        unfold sliceTo
        rw [if_neg (by omega)]
        congr 1
        omega
      have hl : (name.take (maxLen - 3)).length = maxLen - 3 := by
        rw [List.length_take]; omega
      refine ⟨name.take (maxLen - 3) ++ "...".toList, ?_, ?_, ?_, ?_⟩
      · unfold limitTitle
        rw [if_neg hne, if_neg h3', if_neg hfit']
        simp only [hs]
        rfl
      · rw [List.length_append, hl]
        have : "...".toList.length = 3 := by decide
        omega
      · intro h; omega
      · intro _
        refine ⟨?_, _, name.drop (maxLen - 3), hl, ?_, rfl⟩
        · rw [List.length_append, hl]
          have : "...".toList.length = 3 := by decide
          omega
        · exact (List.take_append_drop _ _).symm

/-- **C07, error branches.**  An empty title or a limit of at most 3 is rejected. -/
theorem limited_title_rejects (name : Name) (maxLen : Int) (mode : Mode)
    (h : name = [] ∨ maxLen ≤ 3) : ∃ e, limitTitle name maxLen mode = .error e := by
  unfold limitTitle
  by_cases hn : name = []
  · exact ⟨_, by rw [if_pos hn]⟩
  · rw [if_neg hn]
    have : ¬ maxLen > 3 := by rcases h with h | h <;> [exact absurd h hn; omega]
    exact ⟨_, by rw [if_pos this]⟩

example : limitTitle "/data/L1B_x.nc".toList 8 .r = .ok "..._x.nc".toList ∧
    limitTitle "/data/L1B_x.nc".toList 8 .l = .ok "/data...".toList := by decide +kernel

/-! ## C08 -/

/-- **C08, products of different kinds.**  No L1B output of any input and configuration name is an
L1B-S output of any input and configuration name, in the same directory. -/
theorem l1b_and_l1bs_never_collide (dir path₁ path₂ name₁ name₂ : Name) :
    join dir (l1bName path₁ name₁) ≠ join dir (l1bsName path₂ name₂) := by
  have key : l1bName path₁ name₁ ≠ l1bsName path₂ name₂ := by
    unfold l1bName l1bsName part
    intro h
    split at h <;> split at h <;> split at h <;> split at h <;> simp at h
  unfold join
  intro h
  split at h
  · exact key (List.append_cancel_left h)
  · exact key (List.append_cancel_left h)

theorem join_injective (dir a b : Name) (h : join dir a = join dir b) : a = b := by
  unfold join at h
  split at h
  · exact List.append_cancel_left h
  · exact List.append_cancel_left h

/-- **C08, exact criterion.**  For one processor, two inputs share an output file iff their stems
agree after removal of a leading `L1A`. -/
theorem same_output_iff (dir path₁ path₂ name : Name) :
    (join dir (l1bName path₁ name) = join dir (l1bName path₂ name) ↔ l1aBase path₁ = l1aBase path₂) ∧
    (join dir (l1bsName path₁ name) = join dir (l1bsName path₂ name) ↔
      l1aBase path₁ = l1aBase path₂) := by
  constructor <;> constructor
  · intro h
    have h := join_injective _ _ _ h
    unfold l1bName at h
    have h := List.append_cancel_right (List.append_cancel_right h)
    have h := List.append_cancel_left h
    exact part_injective (c := []) (by rw [h])
  · intro h; unfold l1bName; rw [h]
  · intro h
    have h := join_injective _ _ _ h
    unfold l1bsName at h
    have h := List.append_cancel_right (List.append_cancel_right h)
    have h := List.append_cancel_left h
    exact part_injective (c := []) (by rw [h])
  · intro h; unfold l1bsName; rw [h]

/-- **C08 (`_partial`).**  Inputs with different stems get different outputs if both stems or
neither begin with `L1A`.  Missing: the mixed case, where the claim is false, see
`distinct_inputs_collide_violated`. -/
theorem distinct_stems_distinct_outputs_partial (dir path₁ path₂ name : Name)
    (hpre : ("L1A".toList <+: stem (basename path₁)) ↔ ("L1A".toList <+: stem (basename path₂)))
    (hne : stem (basename path₁) ≠ stem (basename path₂)) :
    join dir (l1bName path₁ name) ≠ join dir (l1bName path₂ name) ∧
    join dir (l1bsName path₁ name) ≠ join dir (l1bsName path₂ name) := by
  have key : l1aBase path₁ ≠ l1aBase path₂ := by
    intro h
    unfold l1aBase at h
    simp only [List.isPrefixOf_iff_prefix] at h
    have hL : "L1A".toList = ['L', '1', 'A'] := by decide
    rw [hL] at hpre
    by_cases h1 : ['L', '1', 'A'] <+: stem (basename path₁)
    · have h2 := hpre.1 h1
      rw [if_pos h1, if_pos h2] at h
      obtain ⟨t1, e1⟩ := h1
      obtain ⟨t2, e2⟩ := h2
      rw [← e1, ← e2] at h
      simp at h
      exact hne (by rw [← e1, ← e2, h])
    · have h2 : ¬ ['L', '1', 'A'] <+: stem (basename path₂) := fun h2 => h1 (hpre.2 h2)
      rw [if_neg h1, if_neg h2] at h
      exact hne h
  exact ⟨fun h => key ((same_output_iff dir path₁ path₂ name).1.1 h),
    fun h => key ((same_output_iff dir path₁ path₂ name).2.1 h)⟩

/-- **C08 is violated**: `L1Aorbit.nc` and `orbit.nc` have different stems and the same outputs. -/
theorem distinct_inputs_collide_violated :
    ∃ path₁ path₂ : Name, stem (basename path₁) ≠ stem (basename path₂) ∧
      ∀ dir name, join dir (l1bName path₁ name) = join dir (l1bName path₂ name) ∧
        join dir (l1bsName path₁ name) = join dir (l1bsName path₂ name) := by
  refine ⟨"in/L1Aorbit.nc".toList, "in/orbit.nc".toList, by decide +kernel, ?_⟩
  intro dir name
  have h : l1aBase "in/L1Aorbit.nc".toList = l1aBase "in/orbit.nc".toList := by decide +kernel
  exact ⟨((same_output_iff dir _ _ name).1).2 h, ((same_output_iff dir _ _ name).2).2 h⟩

/-- Same stem, different extension also collide (not a violation of C08 as stated). -/
example : l1bName "a/L1A_01.nc".toList "cfg".toList = "L1B__01_cfg.nc".toList ∧
    l1bsName "a/x.y.nc".toList "cfg".toList = "L1BS_x.y_cfg.nc".toList ∧
    stem ".hidden".toList = ".hidden".toList := by decide +kernel

end Dedop.Names
