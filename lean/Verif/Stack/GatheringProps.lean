import Verif.Stack.Gathering
import Mathlib.Data.List.Sort
import Mathlib.Data.Finset.Card
import Mathlib.Data.Finset.Dedup
import Mathlib.Order.Interval.Finset.Nat

/-! # Stack gathering: which looks are selected (C29, C30, C31) -/
namespace Dedop.Stack

variable {R C : Type} [Field R] [LinearOrder R]

/-! ## Specification -/

/-- `argsort` gives, for every list, an order of its positions in which the values do not decrease;
the order of positions with equal values is arbitrary. -/
def IsArgsort (argsort : List R → List Nat) : Prop :=
  ∀ l, (argsort l).Perm (List.range l.length) ∧
    (argsort l).Pairwise (fun i j => l.getD i 0 ≤ l.getD j 0)

/-- Every entry refers to an existing beam of its burst. -/
def Valid (all : List (Entry R C)) : Prop :=
  ∀ e ∈ all, e.index < e.burst.beamAngles.length ∧ e.index < e.burst.beams.length

/-- The beam angle, the look angle and the row of an entry. -/
def beamAngleOf (e : Entry R C) : R := e.burst.beamAngles.getD e.index 0
/-- The look used in the examples. -/
def lookOf (halfPi : R) (e : Entry R C) : R := halfPi + e.burst.doppler - beamAngleOf e

/-- `row` holds the data of entry `e`. -/
def RowOf (halfPi : R) (e : Entry R C) (row : Row R C) : Prop :=
  row.burst = e.burst.id ∧ e.burst.beams[e.index]? = some row.beam ∧
  row.beamAngle = beamAngleOf e ∧ row.t0 = e.burst.t0 ∧ row.doppler = e.burst.doppler ∧
  row.look = lookOf halfPi e ∧ row.pointing = lookOf halfPi e - e.burst.pitch ∧
  row.lookIndex = e.indexAbs ∧ row.lookCounter = e.burst.seqCount

/-- `|look|` falls strictly to some position and rises strictly after it, as along a pass. -/
def VShaped (f : Nat → R) (len : Nat) : Prop :=
  ∃ m, (∀ i j, i < j → j ≤ m → j < len → f j < f i) ∧ (∀ i j, m ≤ i → i < j → j < len → f i < f j)

/-! ## Lemmas -/

theorem gatherRow_ok (halfPi : R) (e : Entry R C)
    (h : e.index < e.burst.beamAngles.length ∧ e.index < e.burst.beams.length) :
    ∃ row, gatherRow halfPi e = .ok row ∧ RowOf halfPi e row := by
  unfold gatherRow
  rw [List.getElem?_eq_getElem h.1, List.getElem?_eq_getElem h.2]
  refine ⟨_, rfl, ?_⟩
  simp [RowOf, lookOf, beamAngleOf, List.getElem?_eq_getElem h.1, List.getElem?_eq_getElem h.2]

theorem allLooks_ok (halfPi : R) (all : List (Entry R C)) (h : Valid all) :
    allLooks halfPi all = .ok (all.map (lookOf halfPi)) := by
  induction all with
  | nil => rfl
  | cons e rest ih =>
    have he := h e (by simp)
    rw [allLooks, ih (fun x hx => h x (by simp [hx]))]
    simp [lookAngle, List.getElem?_eq_getElem he.1, lookOf, beamAngleOf]

/-- `k` is the first position of minimal value among the first `m` values of `f`. -/
def FirstMin (f : Nat → R) (m k : Nat) : Prop :=
  k < m ∧ (∀ i < m, f k ≤ f i) ∧ ∀ i < k, f k < f i

theorem gatherLoop_spec (halfPi : R) (all : List (Entry R C)) (hv : Valid all) (off : Nat) (m : Nat) :
    ∀ (k : Nat) (best : Option R) (g : Gathered R C), k + m + off ≤ all.length →
      (best = none ↔ k = 0) →
      (∀ b, best = some b → ∃ e, all[g.closest + off]? = some e ∧ b = |beamAngleOf e - halfPi|) →
      (k ≠ 0 → ∃ f : Nat → R, (∀ i < k, ∃ e, all[i + off]? = some e ∧ f i = |beamAngleOf e - halfPi|) ∧
        FirstMin f k g.closest) →
      ∃ g' rows, gatherLoop halfPi all off m k best g = .ok g' ∧ g'.rows = g.rows ++ rows ∧
        rows.length = m ∧ g'.size = g.size ∧
        (∀ i < m, ∃ e row, all[k + i + off]? = some e ∧ rows[i]? = some row ∧ RowOf halfPi e row) ∧
        (g'.rmc = true ↔ g.rmc = true ∨ ∃ i < m, ∃ e, all[k + i + off]? = some e ∧ e.burst.rmc = true) ∧
        (k + m ≠ 0 → ∃ f : Nat → R,
          (∀ i < k + m, ∃ e, all[i + off]? = some e ∧ f i = |beamAngleOf e - halfPi|) ∧
          FirstMin f (k + m) g'.closest) := by
  induction m with
  | zero =>
    intro k best g _ _ _ hf
    refine ⟨g, [], rfl, by simp, rfl, rfl, by simp, by simp, ?_⟩
    simpa using hf
  | succ m ih =>
    intro k best g hlen hbest hb hf
    have hk : k + off < all.length := by omega
    have he : all[k + off]? = some all[k + off] := List.getElem?_eq_getElem hk
    obtain ⟨row, hrow, hof⟩ := gatherRow_ok halfPi all[k + off] (hv _ (List.getElem_mem hk))
    have hra : row.beamAngle = beamAngleOf all[k + off] := hof.2.2.1
    obtain ⟨better, hbdef⟩ : ∃ better, closer best |row.beamAngle - halfPi| = better := ⟨_, rfl⟩
    have hstep : ∃ f : Nat → R,
        (∀ i < k + 1, ∃ e, all[i + off]? = some e ∧ f i = |beamAngleOf e - halfPi|) ∧
        FirstMin f (k + 1) (if better then k else g.closest) ∧
        (∀ b, (if better then some |row.beamAngle - halfPi| else best) = some b →
          b = f (if better then k else g.closest)) := by
      by_cases hk0 : k = 0
      · have hn := hbest.2 hk0
        have hbt : better = true := by rw [← hbdef, hn]; rfl
        refine ⟨fun _ => |beamAngleOf all[k + off] - halfPi|, ?_, ?_, ?_⟩
        · intro i hi
          have : i = k := by omega
          subst this
          exact ⟨_, he, rfl⟩
        · rw [if_pos hbt]
          exact ⟨by omega, fun _ _ => le_refl _, fun i hi => by omega⟩
        · intro b h
          rw [if_pos hbt] at h
          cases h
          rw [hra]
      · obtain ⟨f, hfe, h1, h2, h3⟩ := hf hk0
        obtain ⟨b, hbb⟩ : ∃ b, best = some b := by
          cases best with
          | none => exact absurd (hbest.1 rfl) hk0
          | some b => exact ⟨b, rfl⟩
        obtain ⟨e, he1, he2⟩ := hb b hbb
        obtain ⟨e', he1', he2'⟩ := hfe g.closest h1
        rw [he1] at he1'
        cases he1'
        have hbf : b = f g.closest := he2.trans he2'.symm
        have hbt : better = decide (|beamAngleOf all[k + off] - halfPi| < f g.closest) := by
          rw [← hbdef, hbb, hra, hbf]; rfl
        refine ⟨fun i => if i = k then |beamAngleOf all[k + off] - halfPi| else f i, ?_, ?_, ?_⟩
        · intro i hi
          by_cases hik : i = k
          · subst hik; exact ⟨_, he, by simp⟩
          · simpa [hik] using hfe i (by omega)
        · by_cases hd : |beamAngleOf all[k + off] - halfPi| < f g.closest
          · simp only [hbt, hd, decide_true, if_true]
            refine ⟨by omega, ?_, ?_⟩
            · intro i hi
              by_cases hik : i = k
              · simp [hik]
              · simp only [hik, if_false, if_true]
                exact le_of_lt (lt_of_lt_of_le hd (h2 i (by omega)))
            · intro i hi
              have hik : i ≠ k := by omega
              simp only [hik, if_false, if_true]
              exact lt_of_lt_of_le hd (h2 i (by omega))
          · simp only [hbt, hd, decide_false, Bool.false_eq_true, if_false]
            have hgk : g.closest ≠ k := by omega
            refine ⟨by omega, ?_, ?_⟩
            · intro i hi
              by_cases hik : i = k
              · simp only [hgk, hik, if_false, if_true]; exact not_lt.1 hd
              · simp only [hgk, hik, if_false]; exact h2 i (by omega)
            · intro i hi
              have hik : i ≠ k := by omega
              simp only [hgk, hik, if_false]
              exact h3 i hi
        · intro c hc
          by_cases hd : |beamAngleOf all[k + off] - halfPi| < f g.closest
          · simp only [hbt, hd, decide_true, if_true] at hc ⊢
            cases hc
            rw [hra]
          · simp only [hbt, hd, decide_false, Bool.false_eq_true, if_false] at hc ⊢
            rw [hbb] at hc
            cases hc
            rw [if_neg (by omega : g.closest ≠ k)]
            exact hbf
    obtain ⟨f, hfe, hmin, hbf⟩ := hstep
    obtain ⟨g', rows, e1, e2, e3, e4, e5, e6, e7⟩ := ih (k + 1)
      (if better then some |row.beamAngle - halfPi| else best)
      { g with rows := g.rows ++ [row]
               rmc := g.rmc || all[k + off].burst.rmc
               closest := if better then k else g.closest }
      (by omega)
      (by
        constructor
        · intro h
          split_ifs at h with hbt
          rw [h] at hbdef
          exact absurd hbdef.symm hbt
        · intro h; omega)
      (by
        intro b hbs
        obtain ⟨e, h1, h2⟩ := hfe _ hmin.1
        exact ⟨e, h1, (hbf b hbs).trans h2⟩)
      (fun _ => ⟨f, hfe, hmin⟩)
    refine ⟨g', row :: rows, ?_, ?_, ?_, e4, ?_, ?_, ?_⟩
    · rw [gatherLoop, he]
      simp only [hrow, hbdef]
      exact e1
    · rw [e2]; simp
    · simp [e3]
    · intro i hi
      cases i with
      | zero => exact ⟨_, row, he, rfl, hof⟩
      | succ i =>
        obtain ⟨e, row', h1, h2, h3⟩ := e5 i (by omega)
        refine ⟨e, row', ?_, by simpa using h2, h3⟩
        rw [← h1]; congr 1; omega
    · rw [e6]
      simp only [Bool.or_eq_true]
      constructor
      · rintro ((h | h) | ⟨i, hi, e, h1, h2⟩)
        · exact Or.inl h
        · exact Or.inr ⟨0, by omega, _, he, h⟩
        · refine Or.inr ⟨i + 1, by omega, e, ?_, h2⟩
          rw [← h1]; congr 1; omega
      · rintro (h | ⟨i, hi, e, h1, h2⟩)
        · exact Or.inl (Or.inl h)
        · cases i with
          | zero =>
            have : all[k + off]? = some e := h1
            rw [he] at this; cases this
            exact Or.inl (Or.inr h2)
          | succ i =>
            refine Or.inr ⟨i, by omega, e, ?_, h2⟩
            rw [← h1]; congr 1; omega
    · intro _
      obtain ⟨f, h1, h2⟩ := e7 (by omega)
      have hkm : k + 1 + m = k + (m + 1) := by omega
      rw [hkm] at h1 h2
      exact ⟨f, h1, h2⟩

/-- The window is inside the stack. -/
theorem window_ok (argsort : List R → List Nat) (ha : IsArgsort argsort) (n : Nat) (hn : 1 ≤ n)
    (halfPi : R) (all : List (Entry R C)) (hv : Valid all) :
    ∃ off, window argsort n halfPi all = .ok (min n all.length, off) ∧
      off + min n all.length ≤ all.length ∧
      (all.length < n → off = 0) ∧
      (n ≤ all.length →
        ((argsort ((all.map (lookOf halfPi)).map (|·|))).take n).min? = some off) := by
  unfold window
  by_cases h : all.length < n
  · refine ⟨0, ?_, by simp, by simp, by omega⟩
    rw [if_pos h, Nat.min_eq_right (by omega)]
  · rw [if_neg h, allLooks_ok halfPi all hv]
    obtain ⟨hperm, hsort⟩ := ha ((all.map (lookOf halfPi)).map (|·|))
    set srt := argsort ((all.map (lookOf halfPi)).map (|·|)) with hsrt
    have hlen : srt.length = all.length := by simpa using hperm.length_eq
    have hnd : srt.Nodup := (hperm.nodup_iff).2 List.nodup_range
    have hlt : ∀ x ∈ srt, x < all.length := by
      intro x hx
      have := hperm.subset hx
      simpa using this
    have htl : (srt.take n).length = n := by simp; omega
    have hne : srt.take n ≠ [] := by
      intro h0; rw [h0] at htl; simp at htl; omega
    obtain ⟨off, hoff⟩ : ∃ off, (srt.take n).min? = some off := by
      cases hm : (srt.take n).min? with
      | none => exact absurd (List.min?_eq_none_iff.1 hm) hne
      | some off => exact ⟨off, rfl⟩
    refine ⟨off, ?_, ?_, fun h' => absurd h' h, fun _ => hoff⟩
    · simp only [← hsrt, hoff]
      rw [Nat.min_eq_left (by omega)]
    · rw [Nat.min_eq_left (by omega)]
      have hmin : ∀ x ∈ srt.take n, off ≤ x := (List.min?_eq_some_iff.1 hoff).2
      have hsub : (srt.take n).toFinset ⊆ Finset.Ico off all.length := by
        intro x hx
        rw [List.mem_toFinset] at hx
        rw [Finset.mem_Ico]
        exact ⟨hmin x hx, hlt x (List.mem_of_mem_take hx)⟩
      have hcard := Finset.card_le_card hsub
      rw [List.toFinset_card_of_nodup (hnd.sublist (List.take_sublist _ _)), htl,
        Nat.card_Ico] at hcard
      have : off < all.length := by
        exact hlt off (List.mem_of_mem_take (List.min?_mem hoff))
      omega

/-! ## C29, C31 -/

/-- **C29 (size, order, no error) and C31.**  For every stack with valid entries and every
`n_looks ≥ 1`, whatever the order of equal values in the sort and the state before the call: gathering
succeeds; the result has `min n_looks (size)` looks, a contiguous part of the full stack in order, each
with the data of its entry; the surface counts as RMC exactly if one of these bursts is; and for a
non-empty stack the closest burst is the first one with the smallest distance of the beam angle to
nadir. -/
theorem gather_contiguous (argsort : List R → List Nat) (ha : IsArgsort argsort) (n : Nat)
    (hn : 1 ≤ n) (halfPi : R) (prevClosest : Nat) (all : List (Entry R C)) (hv : Valid all) :
    ∃ g off, gather argsort n halfPi prevClosest all = .ok g ∧
      g.size = min n all.length ∧ g.rows.length = g.size ∧ off + g.size ≤ all.length ∧
      List.Forall₂ (RowOf halfPi) ((all.drop off).take g.size) g.rows ∧
      (g.rmc = true ↔ ∃ e ∈ (all.drop off).take g.size, e.burst.rmc = true) ∧
      (all ≠ [] → ∃ row, g.rows[g.closest]? = some row ∧
        (∀ r ∈ g.rows, |row.beamAngle - halfPi| ≤ |r.beamAngle - halfPi|) ∧
        ∀ i r, i < g.closest → g.rows[i]? = some r →
          |row.beamAngle - halfPi| < |r.beamAngle - halfPi|) := by
  obtain ⟨off, hw, hin, _, _⟩ := window_ok argsort ha n hn halfPi all hv
  obtain ⟨g, rows, e1, e2, e3, e4, e5, e6, e7⟩ := gatherLoop_spec halfPi all hv off (min n all.length) 0
    none ⟨min n all.length, [], prevClosest, false⟩ (by omega) (by simp) (by simp) (by simp)
  have hrows : g.rows = rows := by simpa using e2
  have hsize : g.size = min n all.length := e4
  have hlen : ((all.drop off).take g.size).length = g.rows.length := by
    rw [hrows, e3, hsize]; simp; omega
  have hget : ∀ i < min n all.length, ((all.drop off).take g.size)[i]? = all[0 + i + off]? := by
    intro i hi
    rw [List.getElem?_take, if_pos (by omega), List.getElem?_drop]
    congr 1; omega
  refine ⟨g, off, ?_, hsize, by rw [hrows, e3, hsize], by omega, ?_, ?_, ?_⟩
  · unfold gather
    simp only [hw]
    exact e1
  · rw [List.forall₂_iff_get]
    refine ⟨hlen, ?_⟩
    intro i h1 h2
    have hi : i < min n all.length := by rw [hrows, e3] at h2; exact h2
    obtain ⟨e, row, ha1, ha2, ha3⟩ := e5 i hi
    have x1 : ((all.drop off).take g.size).get ⟨i, h1⟩ = e := by
      have := hget i hi
      rw [ha1, List.getElem?_eq_getElem h1] at this
      simpa using this
    have x2 : g.rows.get ⟨i, h2⟩ = row := by
      have := ha2
      rw [← hrows, List.getElem?_eq_getElem h2] at this
      simpa using this
    rw [x1, x2]; exact ha3
  · rw [e6]
    simp only [Bool.false_eq_true, false_or]
    constructor
    · rintro ⟨i, hi, e, h1, h2⟩
      refine ⟨e, ?_, h2⟩
      exact List.mem_of_getElem? ((hget i hi).trans h1)
    · rintro ⟨e, he, h2⟩
      obtain ⟨i, hi⟩ := List.getElem?_of_mem he
      have hlt : i < ((all.drop off).take g.size).length := (List.getElem?_eq_some_iff.1 hi).1
      rw [hlen, hrows, e3] at hlt
      exact ⟨i, hlt, e, (hget i hlt).symm.trans hi, h2⟩
  · intro hne
    have hpos : 0 < all.length := List.length_pos_iff.2 hne
    obtain ⟨f, hf, h1, h2, h3⟩ := e7 (by omega)
    simp only [Nat.zero_add] at h1 h2 h3 hf
    have key : ∀ i < min n all.length, ∃ row, g.rows[i]? = some row ∧ |row.beamAngle - halfPi| = f i := by
      intro i hi
      obtain ⟨e, row, ha1, ha2, ha3⟩ := e5 i hi
      obtain ⟨e', hb1, hb2⟩ := hf i hi
      rw [Nat.zero_add] at ha1
      rw [hb1] at ha1; cases ha1
      refine ⟨row, by rw [hrows]; exact ha2, ?_⟩
      rw [hb2, ha3.2.2.1]
    obtain ⟨row, hrow, hrf⟩ := key g.closest h1
    refine ⟨row, hrow, ?_, ?_⟩
    · intro r hr
      obtain ⟨i, hi⟩ := List.getElem?_of_mem hr
      have hlt : i < g.rows.length := (List.getElem?_eq_some_iff.1 hi).1
      rw [hrows, e3] at hlt
      obtain ⟨r', hr', hrf'⟩ := key i hlt
      rw [hi] at hr'; cases hr'
      rw [hrf, hrf']
      exact h2 i hlt
    · intro i r hi hir
      have hlt : i < min n all.length := by omega
      obtain ⟨r', hr', hrf'⟩ := key i hlt
      rw [hir] at hr'; cases hr'
      rw [hrf, hrf']
      exact h3 i hi

/-! ## C30 -/

/-- **C30 (and the second half of C29), where `|look angle|` falls and then rises along the stack.**
The looks selected are the ones closest to nadir: none outside has a smaller `|look angle|` than one
inside, so the closest of all is selected. -/
theorem gather_selects_smallest_partial (argsort : List R → List Nat) (ha : IsArgsort argsort) (n : Nat)
    (hn : 1 ≤ n) (halfPi : R) (prevClosest : Nat) (all : List (Entry R C)) (hv : Valid all)
    (hshape : VShaped (fun i => |(all.map (lookOf halfPi)).getD i 0|) all.length) :
    ∃ g off, gather argsort n halfPi prevClosest all = .ok g ∧ g.size = min n all.length ∧
      List.Forall₂ (RowOf halfPi) ((all.drop off).take g.size) g.rows ∧
      ∀ i j ei ej, off ≤ i → i < off + g.size → (j < off ∨ off + g.size ≤ j) →
        all[i]? = some ei → all[j]? = some ej → |lookOf halfPi ei| ≤ |lookOf halfPi ej| := by
  obtain ⟨g, off, h1, h2, h3, h4, h5, _⟩ := gather_contiguous argsort ha n hn halfPi prevClosest all hv
  obtain ⟨off', hw, hin, hsmall, htake⟩ := window_ok argsort ha n hn halfPi all hv
  obtain ⟨g', rows, e1, e2, e3, e4, e5, e6, e7⟩ := gatherLoop_spec halfPi all hv off' (min n all.length) 0
    none ⟨min n all.length, [], prevClosest, false⟩ (by omega) (by simp) (by simp) (by simp)
  have hgg : g' = g := by
    unfold gather at h1
    simp only [hw] at h1
    rw [e1] at h1
    cases h1; rfl
  subst hgg
  have hrows : g'.rows = rows := by simpa using e2
  refine ⟨g', off', h1, h2, ?_, ?_⟩
  · rw [List.forall₂_iff_get]
    have hlen : ((all.drop off').take g'.size).length = g'.rows.length := by
      rw [hrows, e3, h2]; simp; omega
    refine ⟨hlen, ?_⟩
    intro i hi1 hi2
    have hi : i < min n all.length := by rw [hrows, e3] at hi2; exact hi2
    obtain ⟨e, row, ha1, ha2, ha3⟩ := e5 i hi
    have x1 : ((all.drop off').take g'.size).get ⟨i, hi1⟩ = e := by
      have : ((all.drop off').take g'.size)[i]? = some e := by
        rw [List.getElem?_take, if_pos (by omega), List.getElem?_drop, ← ha1]
        congr 1; omega
      rw [List.getElem?_eq_getElem hi1] at this
      simpa using this
    have x2 : g'.rows.get ⟨i, hi2⟩ = row := by
      have := ha2
      rw [← hrows, List.getElem?_eq_getElem hi2] at this
      simpa using this
    rw [x1, x2]; exact ha3
  · intro i j ei ej hi1 hi2 hj hei hej
    have hil : i < all.length := (List.getElem?_eq_some_iff.1 hei).1
    have hjl : j < all.length := (List.getElem?_eq_some_iff.1 hej).1
    by_cases hbig : n ≤ all.length
    · -- truncation
      have hsz : g'.size = n := by rw [h2]; omega
      rw [hsz] at hi2 hj
      have hmin := htake hbig
      obtain ⟨hperm, hsort⟩ := ha ((all.map (lookOf halfPi)).map (|·|))
      set vals := (all.map (lookOf halfPi)).map (|·|) with hvals
      set srt := argsort vals with hsrt
      have hslen : srt.length = all.length := by simpa [hvals] using hperm.length_eq
      have hsnd : srt.Nodup := (hperm.nodup_iff).2 List.nodup_range
      have hval : ∀ k < all.length, vals.getD k 0 = |(all.map (lookOf halfPi)).getD k 0| := by
        intro k hk
        simp [hvals, hk]
      have hmem : ∀ k < all.length, k ∈ srt := by
        intro k hk
        exact hperm.symm.subset (by simpa [hvals] using hk)
      -- selected elements are not larger than the others
      have hsel : ∀ a ∈ srt.take n, ∀ b ∈ srt, b ∉ srt.take n → vals.getD a 0 ≤ vals.getD b 0 := by
        intro a haa b hb hb'
        have hd : b ∈ srt.drop n := by
          rw [← List.take_append_drop n srt] at hb
          rcases List.mem_append.1 hb with h | h
          · exact absurd h hb'
          · exact h
        rw [← List.take_append_drop n srt, List.pairwise_append] at hsort
        exact hsort.2.2 a haa b hd
      have hoffm : off' ∈ srt.take n := List.min?_mem hmin
      have hoffle : ∀ x ∈ srt.take n, off' ≤ x := (List.min?_eq_some_iff.1 hmin).2
      obtain ⟨m, hdown, hup⟩ := hshape
      -- between two selected positions everything is selected
      have hconv : ∀ a c b, a ∈ srt.take n → c ∈ srt.take n → a ≤ b → b ≤ c → b ∈ srt.take n := by
        intro a c b haS hcS hab hbc
        by_contra hbS
        have hcl : c < all.length := by
          have := hperm.subset (List.mem_of_mem_take hcS); simpa [hvals] using this
        have hab' : a < b := lt_of_le_of_ne hab (by rintro rfl; exact hbS haS)
        have hbc' : b < c := lt_of_le_of_ne hbc (by rintro rfl; exact hbS hcS)
        have hbsrt := hmem b (by omega)
        have h1 := hsel a haS b hbsrt hbS
        have h2 := hsel c hcS b hbsrt hbS
        rw [hval _ (by omega), hval _ (by omega)] at h1
        rw [hval _ (by omega), hval _ (by omega)] at h2
        rcases le_total b m with hbm | hbm
        · exact absurd (hdown a b hab' hbm (by omega)) (not_lt.2 h1)
        · exact absurd (hup b c hbm hbc' hcl) (not_lt.2 h2)
      -- so the selected positions are exactly the window
      have hcard : (srt.take n).toFinset.card = n := by
        rw [List.toFinset_card_of_nodup (hsnd.sublist (List.take_sublist _ _))]
        simp; omega
      have hwin : ∀ x, x ∈ srt.take n ↔ off' ≤ x ∧ x < off' + n := by
        have hsub : (srt.take n).toFinset ⊆ Finset.Ico off' (off' + n) := by
          intro c hc
          rw [List.mem_toFinset] at hc
          rw [Finset.mem_Ico]
          refine ⟨hoffle c hc, ?_⟩
          by_contra hge
          have : Finset.Icc off' c ⊆ (srt.take n).toFinset := by
            intro x hx
            rw [Finset.mem_Icc] at hx
            rw [List.mem_toFinset]
            exact hconv off' c x hoffm hc hx.1 hx.2
          have := Finset.card_le_card this
          rw [hcard, Nat.card_Icc] at this
          omega
        have heq := Finset.eq_of_subset_of_card_le hsub (by rw [hcard, Nat.card_Ico]; omega)
        intro x
        rw [← List.mem_toFinset, heq, Finset.mem_Ico]
      have hiS : i ∈ srt.take n := (hwin i).2 ⟨hi1, hi2⟩
      have hjS : j ∉ srt.take n := by rw [hwin]; omega
      have := hsel i hiS j (hmem j hjl) hjS
      rw [hval _ hil, hval _ hjl] at this
      simpa [hei, hej] using this
    · have := hsmall (by omega)
      omega

/-! ## Violations and examples -/

/-- `np.argsort` by insertion, an instance of `IsArgsort`. -/
def insertArg (l : List ℚ) : List Nat :=
  (List.range l.length).insertionSort (fun i j => l.getD i 0 ≤ l.getD j 0)

theorem insertArg_isArgsort : IsArgsort insertArg := by
  intro l
  refine ⟨List.perm_insertionSort _ _, ?_⟩
  have : Std.Total (fun i j : Nat => l.getD i 0 ≤ l.getD j 0) := ⟨fun i j => le_total _ _⟩
  have : IsTrans Nat (fun i j : Nat => l.getD i 0 ≤ l.getD j 0) := ⟨fun _ _ _ => le_trans⟩
  exact List.pairwise_insertionSort _ _

/-- A stack with the given look angles (`halfPi` is taken as 0, the Doppler angle carries the look). -/
def stackOf (looks : List ℚ) : List (Entry ℚ Unit) :=
  looks.map (fun x => ⟨0, 0, ⟨0, [0], [()], x, 0, 0, 0, false⟩⟩)

/-- **C29/C30 violated** without the shape assumption: with looks 1/10, 5, 5, 5, 1/20 and two looks per
stack, the two gathered are 1/10 and 5; the closest one, 1/20, is left out. -/
theorem closest_look_left_out_violated :
    (gather insertArg 2 0 0 (stackOf [1/10, 5, 5, 5, 1/20])).toOption.map
      (fun g => g.rows.map (·.look)) = some [1/10, 5] ∧ Valid (stackOf [1/10, 5, 5, 5, 1/20]) := by
  refine ⟨by decide +kernel, ?_⟩
  unfold Valid; decide +kernel

/-- The hypotheses hold for an ordinary pass: looks from 2 to −3, three of them kept. -/
example : Valid (stackOf [2, 1, 1/4, -1/2, -2, -3]) ∧
    VShaped (fun i => |((stackOf [2, 1, 1/4, -1/2, -2, -3]).map (lookOf 0)).getD i 0|) 6 := by
  refine ⟨by unfold Valid; decide +kernel, 2, ?_, ?_⟩
  · intro i j h1 h2 h3
    have : ∀ j, j ≤ 2 → ∀ i, i < j →
      |((stackOf [2, 1, 1/4, -1/2, -2, -3]).map (lookOf 0)).getD j 0| <
      |((stackOf [2, 1, 1/4, -1/2, -2, -3]).map (lookOf 0)).getD i 0| := by decide +kernel
    exact this j h2 i h1
  · intro i j h1 h2 h3
    have : ∀ j, j < 6 → ∀ i, i < j → 2 ≤ i →
      |((stackOf [2, 1, 1/4, -1/2, -2, -3]).map (lookOf 0)).getD i 0| <
      |((stackOf [2, 1, 1/4, -1/2, -2, -3]).map (lookOf 0)).getD j 0| := by decide +kernel
    exact this j h3 i h2 h1

example : (gather insertArg 3 0 0 (stackOf [2, 1, 1/4, -1/2, -2, -3])).toOption.map
    (fun g => g.rows.map (·.look)) = some [1, 1/4, -1/2] := by decide +kernel

/-- With an empty stack the closest burst is the one of an earlier surface. -/
theorem closest_stale_when_empty (argsort : List R → List Nat) (n : Nat) (hn : 1 ≤ n) (halfPi : R)
    (prevClosest : Nat) :
    gather argsort n halfPi prevClosest ([] : List (Entry R C)) = .ok ⟨0, [], prevClosest, false⟩ := by
  unfold gather window
  rw [if_pos (show ([] : List (Entry R C)).length < n from hn)]
  rfl

/-- With no looks per stack configured, gathering fails. -/
theorem gather_zero_looks_fails (argsort : List R → List Nat) (halfPi : R) (prevClosest : Nat)
    (all : List (Entry R C)) (hv : Valid all) :
    gather argsort 0 halfPi prevClosest all = .error .valueError := by
  unfold gather window
  rw [if_neg (by simp), allLooks_ok halfPi all hv]
  rfl

end Dedop.Stack
