import Verif.Reader.Dataset

/-! # Region of interest: property C25 -/
namespace Dedop.Reader
variable {R : Type} [Field R] [LinearOrder R]

/-! ## Specification -/

/-- The position is inside all given bounds. -/
def InRegion (b : Bounds R) (lat lon : R) : Prop :=
  (∀ m, b.minLat = some m → m ≤ lat) ∧ (∀ m, b.maxLat = some m → lat ≤ m) ∧
  (∀ m, b.minLon = some m → m ≤ lon) ∧ (∀ m, b.maxLon = some m → lon ≤ m)

/-- Record `i` of the product lies in the region. -/
def Product.Inside (b : Bounds R) (p : Product R) (i : Nat) : Prop :=
  ∃ lat lon, p.lats[i]? = some lat ∧ p.lons[i]? = some lon ∧ InRegion b lat lon

/-- Record `i` has a position other than the placeholder 0, 0. -/
def Product.Valid (p : Product R) (i : Nat) : Prop :=
  ¬ (p.lats[i]? = some 0 ∧ p.lons[i]? = some 0)

/-- The records delivered to the caller, in order. -/
def delivered (l : List (Option Nat)) : List Nat := l.filterMap id

/-! ## Lemmas -/

theorem andBound_getD (f : List Bool) (bound : Option R) (cmp : R → R → Bool) (xs : List R)
    (h : f.length = xs.length) :
    (andBound f bound cmp xs).length = f.length ∧
    ∀ i, (andBound f bound cmp xs).getD i false =
      (f.getD i false && (bound.all (fun m => cmp (xs.getD i 0) m))) := by
  cases bound with
  | none => exact ⟨rfl, fun i => by simp [andBound]⟩
  | some m =>
    refine ⟨by simp [andBound, h], fun i => ?_⟩
    simp only [andBound, List.getD_eq_getElem?_getD, List.getElem?_zipWith, List.getElem?_map,
      Option.all_some]
    by_cases hi : i < f.length
    · rw [List.getElem?_eq_getElem hi, List.getElem?_eq_getElem (h ▸ hi)]
      rfl
    · rw [List.getElem?_eq_none (by omega)]
      rfl

theorem roiFilter_spec (b : Bounds R) (lats lons : List R) (h : lats.length = lons.length) :
    (roiFilter b lats lons).length = lats.length ∧
    ∀ i, (roiFilter b lats lons).getD i false = true ↔ Product.Inside b ⟨lats, lons⟩ i := by
  unfold roiFilter
  simp only
  obtain ⟨l1, g1⟩ := andBound_getD (List.replicate lats.length true) b.minLat
    (fun x m => decide (x ≥ m)) lats (by simp)
  rw [List.length_replicate] at l1
  generalize andBound (List.replicate lats.length true) b.minLat _ lats = f1 at *
  obtain ⟨l2, g2⟩ := andBound_getD f1 b.minLon (fun x m => decide (x ≥ m)) lons (by omega)
  generalize andBound f1 b.minLon _ lons = f2 at *
  obtain ⟨l3, g3⟩ := andBound_getD f2 b.maxLat (fun x m => decide (x ≤ m)) lats (by omega)
  generalize andBound f2 b.maxLat _ lats = f3 at *
  obtain ⟨l4, g4⟩ := andBound_getD f3 b.maxLon (fun x m => decide (x ≤ m)) lons (by omega)
  generalize andBound f3 b.maxLon _ lons = f4 at *
  refine ⟨by omega, fun i => ?_⟩
  rw [g4, g3, g2, g1]
  unfold Product.Inside InRegion
  by_cases hi : i < lats.length
  · have hi' : i < lons.length := h ▸ hi
    simp only [List.getElem?_eq_getElem hi, List.getElem?_eq_getElem hi', List.getD_eq_getElem?_getD,
      List.getElem?_replicate, if_pos hi, Option.getD_some, Bool.and_eq_true, Option.all_eq_true,
      decide_eq_true_eq, true_and, Option.some.injEq]
    constructor
    · rintro ⟨⟨⟨h1, h2⟩, h3⟩, h4⟩
      exact ⟨_, _, rfl, rfl, h1, h3, h2, h4⟩
    · rintro ⟨_, _, rfl, rfl, h1, h3, h2, h4⟩
      exact ⟨⟨⟨h1, h2⟩, h3⟩, h4⟩
  · constructor
    · intro hh
      simp [hi] at hh
    · rintro ⟨lat, lon, h1, -⟩
      rw [List.getElem?_eq_none (by simpa using hi)] at h1
      cases h1

theorem mem_argwhere (f : List Bool) (i : Nat) : i ∈ argwhere f ↔ f.getD i false = true := by
  unfold argwhere
  rw [List.mem_filter, List.mem_range]
  constructor
  · exact fun h => h.2
  · intro h
    refine ⟨?_, h⟩
    by_contra hi
    rw [List.getD_eq_getElem?_getD, List.getElem?_eq_none (by omega)] at h
    cases h

theorem isValid_iff (p : Product R) (i : Nat) (h1 : i < p.lats.length) (h2 : i < p.lons.length) :
    isValid p i = true ↔ p.Valid i := by
  unfold isValid Product.Valid
  simp only [List.getD_eq_getElem?_getD, List.getElem?_eq_getElem h1, List.getElem?_eq_getElem h2,
    Option.getD_some, Option.some.injEq, Bool.not_eq_true', Bool.and_eq_false_iff,
    decide_eq_false_iff_not]
  tauto

theorem filterMap_range' (P : Nat → Bool) (s n : Nat) :
    ((List.range' s n).map (fun i => if P i then some i else none)).filterMap id =
      (List.range' s n).filter P := by
  generalize List.range' s n = l
  induction l with
  | nil => rfl
  | cons a l ih =>
    by_cases h : P a = true
    · simp [h] at ih ⊢
      exact ih
    · simp [h] at ih ⊢
      exact ih

theorem filter_range_sub (P : Nat → Bool) (n lo hi : Nat) (hlo : lo ≤ hi) (hhi : hi ≤ n)
    (h1 : ∀ i, i < lo → P i = false) (h2 : ∀ i, hi ≤ i → i < n → P i = false) :
    (List.range n).filter P = (List.range' lo (hi - lo)).filter P := by
  have : List.range n = List.range' 0 lo ++ List.range' lo (hi - lo) ++ List.range' hi (n - hi) := by
    rw [List.range_eq_range']
    have e1 : List.range' 0 lo ++ List.range' (0 + lo) (hi - lo) = List.range' 0 (lo + (hi - lo)) :=
      List.range'_append_1
    rw [Nat.zero_add] at e1
    rw [e1]
    have e2 : List.range' 0 (lo + (hi - lo)) ++ List.range' (0 + (lo + (hi - lo))) (n - hi) =
      List.range' 0 (lo + (hi - lo) + (n - hi)) := List.range'_append_1
    rw [show 0 + (lo + (hi - lo)) = hi by omega] at e2
    rw [e2]
    congr 1
    omega
  rw [this, List.filter_append, List.filter_append]
  have a1 : (List.range' 0 lo).filter P = [] := by
    rw [List.filter_eq_nil_iff]
    intro a ha
    rw [List.mem_range'_1] at ha
    rw [h1 a (by omega)]; simp
  have a2 : (List.range' hi (n - hi)).filter P = [] := by
    rw [List.filter_eq_nil_iff]
    intro a ha
    rw [List.mem_range'_1] at ha
    rw [h2 a (by omega) (by omega)]; simp
  rw [a1, a2]
  simp

theorem nexts_eq (p : Product R) (m : Nat) (d : Dataset) (h : d.last ≤ d.final) :
    nexts p (d.final - d.last + m) d =
      ((List.range' d.last (d.final - d.last)).map
        (fun i => some (if checkRoi d i && isValid p i then some i else none))) ++
      List.replicate m none := by
  generalize hn : d.final - d.last = n
  induction n generalizing d with
  | zero =>
    have hge : d.last ≥ d.final := by omega
    have : ∀ m, nexts p m d = List.replicate m none := by
      intro m
      induction m with
      | zero => rfl
      | succ m ih =>
        have hnx : next p d = (none, d) := by unfold next; rw [if_pos hge]
        unfold nexts
        rw [hnx, List.replicate_succ]
        exact congrArg _ ih
    simpa using this m
  | succ n ih =>
    have hlt : ¬ d.last ≥ d.final := by omega
    have hnx : next p d = (some (if checkRoi d d.last && isValid p d.last then some d.last else none),
        { d with last := d.last + 1 }) := by
      unfold next
      rw [if_neg hlt]
      cases h1 : checkRoi d d.last <;> cases h2 : isValid p d.last <;> simp
    rw [show n + 1 + m = (n + m) + 1 by omega]
    unfold nexts
    rw [hnx]
    have := ih { d with last := d.last + 1 } (by simp only; omega) (by simp only; omega)
    simp only at this ⊢
    rw [this, List.range'_succ, List.map_cons, List.cons_append]
    rfl

/-! ## Properties -/

/-- The two ways of reading a product agree: `len(dataset)` calls of `next` give exactly what iterating
gives, and every further call signals the end. -/
theorem next_agrees_with_iteration (b : Bounds R) (p : Product R) (d : Dataset)
    (hd : openDataset b p = .ok d) (m : Nat) :
    nexts p (d.len + m) d = (iterate p d).map some ++ List.replicate m none ∧
    (iterate p d).length = d.len := by
  have hl : d.last = d.start ∧ d.start ≤ d.final := by
    unfold openDataset at hd
    split at hd
    · simp only at hd
      split at hd
      · rename_i lo hi hlo hhi
        cases hd
        refine ⟨rfl, ?_⟩
        exact (List.min?_eq_some_iff.1 hlo).2 hi (List.max?_eq_some_iff.1 hhi).1
      · cases hd
    · cases hd; exact ⟨rfl, Nat.zero_le _⟩
  refine ⟨?_, by simp [iterate, Dataset.len]⟩
  have := nexts_eq p m d (by omega)
  rw [hl.1] at this
  unfold Dataset.len iterate
  rw [this, List.map_map]
  rfl

open Classical in
/-- **C25 without a region.**  All valid records are delivered, in order and once each. -/
theorem no_region_delivers_all (b : Bounds R) (p : Product R) (hp : p.lats.length = p.lons.length)
    (hb : roiEnabled b = false) :
    ∃ d, openDataset b p = .ok d ∧
      delivered (iterate p d) = (List.range p.lats.length).filter (fun i => p.Valid i) := by
  refine ⟨⟨none, 0, p.lats.length, 0⟩, by unfold openDataset; rw [hb]; rfl, ?_⟩
  unfold delivered iterate
  rw [filterMap_range', List.range_eq_range']
  apply List.filter_congr
  intro i hi
  simp only [Nat.sub_zero, List.mem_range'_1] at hi
  rw [Bool.eq_iff_iff]
  simp only [checkRoi, Bool.true_and, decide_eq_true_eq]
  exact isValid_iff p i (by omega) (by omega)

open Classical in
/-- **C25 with a region (`_partial`).**  Opening fails exactly when no record lies in the region.  Otherwise
the valid records inside are delivered in order and once each — *all but the last record inside*,
which is lost.  Missing: that record (`last_record_in_region_lost_violated`). -/
theorem region_delivers_inside_partial (b : Bounds R) (p : Product R)
    (hp : p.lats.length = p.lons.length) (hb : roiEnabled b = true) :
    ((∀ i, ¬ p.Inside b i) → openDataset b p = .error .valueError) ∧
    ∀ last, p.Inside b last → (∀ i, p.Inside b i → i ≤ last) →
      ∃ d, openDataset b p = .ok d ∧
        delivered (iterate p d) = (List.range p.lats.length).filter
          (fun i => p.Inside b i ∧ p.Valid i ∧ i ≠ last) := by
  obtain ⟨hlen, hspec⟩ := roiFilter_spec b p.lats p.lons hp
  have hmem : ∀ i, i ∈ argwhere (roiFilter b p.lats p.lons) ↔ p.Inside b i :=
    fun i => (mem_argwhere _ i).trans (hspec i)
  constructor
  · intro hno
    unfold openDataset
    rw [if_pos hb]
    have : argwhere (roiFilter b p.lats p.lons) = [] :=
      List.eq_nil_iff_forall_not_mem.2 (fun i hi => hno i ((hmem i).1 hi))
    simp only [this, List.min?_nil]
  · intro last hlast hmax
    have hne : argwhere (roiFilter b p.lats p.lons) ≠ [] :=
      List.ne_nil_of_mem ((hmem last).2 hlast)
    have hmx : (argwhere (roiFilter b p.lats p.lons)).max? = some last :=
      List.max?_eq_some_iff.2 ⟨(hmem last).2 hlast, fun i hi => hmax i ((hmem i).1 hi)⟩
    obtain ⟨lo, hlo⟩ : ∃ lo, (argwhere (roiFilter b p.lats p.lons)).min? = some lo := by
      rw [← Option.isSome_iff_exists, Option.isSome_iff_ne_none]
      intro h
      exact hne (List.min?_eq_none_iff.1 h)
    have hlo' := List.min?_eq_some_iff.1 hlo
    refine ⟨⟨some (roiFilter b p.lats p.lons), lo, last, lo⟩, ?_, ?_⟩
    · unfold openDataset
      rw [if_pos hb]
      simp only [hlo, hmx]
    have hn : ∀ i, p.Inside b i → i < p.lats.length := by
      rintro i ⟨lat, lon, h, -⟩
      exact (List.getElem?_eq_some_iff.1 h).1
    have hll : lo ≤ last := hlo'.2 last ((hmem last).2 hlast)
    unfold delivered iterate
    rw [filterMap_range']
    rw [filter_range_sub (fun i => decide (p.Inside b i ∧ p.Valid i ∧ i ≠ last)) p.lats.length lo last
      hll (hn last hlast).le ?_ ?_]
    · apply List.filter_congr
      intro i hi
      simp only [List.mem_range'_1] at hi
      rw [Bool.eq_iff_iff]
      simp only [checkRoi, Bool.and_eq_true, decide_eq_true_eq, hspec i]
      have hil := hn last hlast
      rw [isValid_iff p i (by omega) (by omega)]
      constructor
      · rintro ⟨h1, h2⟩
        exact ⟨h1, h2, by omega⟩
      · rintro ⟨h1, h2, -⟩
        exact ⟨h1, h2⟩
    · intro i hi
      simp only [decide_eq_false_iff_not]
      rintro ⟨h, -⟩
      have := hlo'.2 i ((hmem i).2 h)
      omega
    · intro i hi _
      simp only [decide_eq_false_iff_not]
      rintro ⟨h, -, hne⟩
      have := hmax i h
      omega

/-- **C25 is violated**: with the region latitude ≥ 1 on the track 0, 1, 2, 3 only two of the three records
inside are delivered. -/
theorem last_record_in_region_lost_violated :
    let p : Product ℚ := ⟨[0, 1, 2, 3], [5, 5, 5, 5]⟩
    let b : Bounds ℚ := ⟨some 1, none, none, none⟩
    ∃ d, openDataset b p = .ok d ∧ delivered (iterate p d) = [1, 2] ∧ p.Inside b 3 ∧ p.Valid 3 := by
  refine ⟨_, rfl, by decide +kernel, ⟨3, 5, rfl, rfl, ?_, ?_, ?_, ?_⟩, ?_⟩
  · rintro m ⟨⟩; norm_num
  · rintro m ⟨⟩
  · rintro m ⟨⟩
  · rintro m ⟨⟩
  · intro h
    have h1 := h.1
    simp at h1

/-- A record inside the region that is the only one is lost, too: the product looks empty. -/
example :
    let p : Product ℚ := ⟨[0, 1, 0], [5, 5, 5]⟩
    ∃ d, openDataset ⟨some 1, none, none, none⟩ p = .ok d ∧ d.len = 0 :=
  ⟨_, rfl, by decide +kernel⟩

/-- The test `in_range` on positions in radians agrees with the filter on degrees. -/
theorem in_range_agrees [IsStrictOrderedRing R] (toRad : R) (hr : 0 < toRad) (b : Bounds R)
    (p : Product R) (hp : p.lats.length = p.lons.length) (i : Nat) (hi : i < p.lats.length) :
    inRange toRad b p i = true ↔ p.Inside b i ∧ p.Valid i := by
  have hi' : i < p.lons.length := hp ▸ hi
  rw [← isValid_iff p i hi hi']
  unfold inRange Product.Inside InRegion
  simp only [List.getElem?_eq_getElem hi, List.getElem?_eq_getElem hi', List.getD_eq_getElem?_getD,
    Option.getD_some, gt_iff_lt, mul_lt_mul_iff_right₀ hr, Option.some.injEq]
  have any_iff : ∀ (o : Option R) (q : R → Bool), (o.any q = true) ↔ ∃ m, o = some m ∧ q m = true := by
    intro o q; cases o <;> simp
  simp only [any_iff, decide_eq_true_eq]
  split
  · rename_i h
    obtain ⟨m, h1, h2⟩ := h
    simp only [Bool.false_eq_true, false_iff]
    rintro ⟨⟨_, _, rfl, rfl, h3, -⟩, -⟩
    exact absurd h2 (not_lt.2 (h3 m h1))
  split
  · rename_i h
    obtain ⟨m, h1, h2⟩ := h
    simp only [Bool.false_eq_true, false_iff]
    rintro ⟨⟨_, _, rfl, rfl, -, h3, -⟩, -⟩
    exact absurd h2 (not_lt.2 (h3 m h1))
  split
  · rename_i h
    obtain ⟨m, h1, h2⟩ := h
    simp only [Bool.false_eq_true, false_iff]
    rintro ⟨⟨_, _, rfl, rfl, -, -, h3, -⟩, -⟩
    exact absurd h2 (not_lt.2 (h3 m h1))
  split
  · rename_i h
    obtain ⟨m, h1, h2⟩ := h
    simp only [Bool.false_eq_true, false_iff]
    rintro ⟨⟨_, _, rfl, rfl, -, -, -, h3⟩, -⟩
    exact absurd h2 (not_lt.2 (h3 m h1))
  rename_i h1 h2 h3 h4
  constructor
  · intro h
    refine ⟨⟨_, _, rfl, rfl, ?_, ?_, ?_, ?_⟩, h⟩
    · intro m hm; by_contra hc; exact h1 ⟨m, hm, not_le.1 hc⟩
    · intro m hm; by_contra hc; exact h2 ⟨m, hm, not_le.1 hc⟩
    · intro m hm; by_contra hc; exact h3 ⟨m, hm, not_le.1 hc⟩
    · intro m hm; by_contra hc; exact h4 ⟨m, hm, not_le.1 hc⟩
  · exact fun h => h.2

example :
    let p : Product ℚ := ⟨[0, 1, 2, 3, 4], [0, 5, 5, 7, 5]⟩
    let b : Bounds ℚ := ⟨some 1, none, none, some 6⟩
    ∃ d, openDataset b p = .ok d ∧ iterate p d = [some 1, some 2, none] :=
  ⟨_, rfl, by decide +kernel⟩

end Dedop.Reader
