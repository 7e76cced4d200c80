import Verif.Azimuth.Model
import Verif.Beams.Model

/-! # Azimuth processing (C37, C38, C39, C62, C63) -/
namespace Dedop.Azimuth

open Signal Finset

/-! ## C38: rows of the beam matrix -/

/-- Specification: the focussed beam of the burst `wfm`, steered to `angle`, at the signed azimuth
frequency `f`: each pulse is turned by the phase of the angle, multiplied by the Fourier factor and
all are added. -/
noncomputable def focussed (n : ℕ) (factor angle : ℝ) (wfm : ℕ → ℕ → ℂ) (f : ℤ) (s : ℕ) : ℂ :=
  (∑ p ∈ range n, Complex.exp (-(Complex.I * (factor * Real.cos angle * p : ℝ))) * wfm p s *
    twiddle n f p) / (Real.sqrt n : ℝ)

theorem fftAzimuth_eq (n : ℕ) (factor a : ℝ) (wfm : ℕ → ℕ → ℂ) (k s : ℕ) (hk : k < n) :
    fftAzimuth n (phaseShift factor a wfm) k s = focussed n factor a wfm ((k : ℤ) - (n / 2 : ℕ)) s := by
  unfold fftAzimuth
  rw [fftshift_dft n _ k hk]
  rfl

/-- Trend and size of the list as produced for a burst: the trend is 0 exactly for a full list. -/
def TrendOk (n : ℕ) (b : Burst) : Prop :=
  b.angles.length ≤ n ∧ (b.trend = 0 ↔ b.angles.length = n) ∧
    (b.trend = 0 ∨ b.trend = 1 ∨ b.trend = -1)

theorem nadirAngle_ok (n : ℕ) (b : Burst) (h : TrendOk n b) (hne : b.angles ≠ []) :
    ∃ a, nadirAngle n b.trend b.angles = .ok a := by
  obtain ⟨h1, h2, h3⟩ := h
  have hpos : 0 < b.angles.length := List.length_pos_iff.2 hne
  have hidx : ∀ i : ℤ, -(b.angles.length : ℤ) ≤ i → i < b.angles.length →
      ∃ a, pyIndex b.angles i = .ok a := by
    intro i hi1 hi2
    unfold pyIndex
    have hj : ¬ (if i < 0 then i + (b.angles.length : ℤ) else i) < 0 := by split_ifs <;> omega
    have hj2 : (if i < 0 then i + (b.angles.length : ℤ) else i).toNat < b.angles.length := by
      split_ifs <;> omega
    simp only [hj, if_false, List.getElem?_eq_getElem hj2]
    exact ⟨_, rfl⟩
  unfold nadirAngle nadirIndex
  rcases h3 with h | h | h
  · have := h2.1 h
    simp only [h]
    exact hidx _ (by omega) (by omega)
  · simp only [h, if_true]
    split_ifs with hs
    · exact hidx _ (by omega) (by omega)
    · exact hidx _ (by omega) (by omega)
  · simp only [h]
    have : b.angles.length ≠ n := by rw [Ne, ← h2, h]; decide
    rw [if_neg (by decide), if_pos trivial]
    split_ifs with hs
    · exact hidx _ (by omega) (by omega)
    · exact hidx _ (by omega) (by omega)

/-- **C38.**  With the approximate method every entry `j` of the burst's list has a row of the beam
matrix: the focussed beam, steered to the nadir angle, at the azimuth frequency that is the absolute
index recorded in the stack for this entry (`Beams.absIndex`, see C28). -/
theorem approximate_row (n : ℕ) (b : Burst) (wfm : ℕ → ℕ → ℂ) (h : TrendOk n b) (hne : b.angles ≠ []) :
    ∃ a beams, nadirAngle n b.trend b.angles = .ok a ∧ approximate n b wfm = .ok beams ∧
      ∀ j < b.angles.length, ∃ row, beams j = some row ∧
        ∀ s, row s = focussed n b.factor a wfm (Beams.absIndex n b.trend b.angles.length j) s := by
  obtain ⟨a, ha⟩ := nadirAngle_ok n b h hne
  refine ⟨a, _, ha, by unfold approximate; simp only [ha]; rfl, ?_⟩
  intro j hj
  obtain ⟨h1, h2, h3⟩ := h
  by_cases ht : b.trend = 1
  · refine ⟨_, by simp only [ht, if_true]; rw [if_pos (by omega)], ?_⟩
    intro s
    rw [fftAzimuth_eq n b.factor a wfm _ s (by omega)]
    congr 1
    unfold Beams.absIndex
    rw [if_pos ht]
    omega
  · refine ⟨_, by simp only [ht, if_false]; rw [if_pos (by omega)], ?_⟩
    intro s
    rw [fftAzimuth_eq n b.factor a wfm _ s (by omega)]
    congr 1
    unfold Beams.absIndex
    rw [if_neg ht]
    omega

/-- An empty list, a burst that sees no surface, is an `IndexError`. -/
theorem approximate_empty_list_fails (n : ℕ) (b : Burst) (wfm : ℕ → ℕ → ℂ)
    (htr : b.trend = 0 ∨ b.trend = 1 ∨ b.trend = -1) (he : b.angles = []) :
    approximate n b wfm = .error .indexError := by
  unfold approximate nadirAngle nadirIndex pyIndex
  rcases htr with h | h | h
  · simp [h, he]
  · by_cases hs : 0 < n / 2
    · simp [h, he, hs]
    · have : n / 2 = 0 := by omega
      simp [h, he, this]
  · simp [h, he]

/-! ## C62: the exact method -/

/-- **C62.**  With the exact method row `j` is the coherent sum of the pulses steered to the angle of
entry `j`, for every list; no other row is written. -/
theorem exact_row (n : ℕ) (hn : 0 < n) (b : Burst) (wfm : ℕ → ℕ → ℂ) (j : ℕ) :
    (∀ a, b.angles[j]? = some a → ∃ row, exact n b wfm j = some row ∧
      ∀ s, row s = (∑ p ∈ range n,
        Complex.exp (-(Complex.I * (b.factor * Real.cos a * p : ℝ))) * wfm p s) / (Real.sqrt n : ℝ)) ∧
    (b.angles.length ≤ j → exact n b wfm j = none) := by
  constructor
  · intro a ha
    refine ⟨_, by unfold exact; simp only [ha]; rfl, ?_⟩
    intro s
    rw [fftAzimuth_eq n b.factor a wfm _ s (Nat.div_lt_self hn (by norm_num))]
    unfold focussed
    simp [twiddle_zero_left]
  · intro hj
    unfold exact
    rw [List.getElem?_eq_none hj]

/-- **C62, energy.**  The beams of the approximate method for a full list have together the energy of
the windowed burst. -/
theorem approximate_energy (n : ℕ) (b : Burst) (wfm : ℕ → ℕ → ℂ) (hn : 0 < n)
    (hfull : b.trend = 0 ∧ b.angles.length = n) (s : ℕ) :
    ∃ beams, approximate n b wfm = .ok beams ∧
      ∑ j ∈ range n, (match beams j with | some row => ‖row s‖ ^ 2 | none => 0) =
        ∑ p ∈ range n, ‖wfm p s‖ ^ 2 := by
  have hok : TrendOk n b := ⟨by omega, by simp [hfull], Or.inl hfull.1⟩
  have hne : b.angles ≠ [] := by
    intro h; rw [h] at hfull; simp at hfull; omega
  obtain ⟨a, ha⟩ := nadirAngle_ok n b hok hne
  refine ⟨_, by unfold approximate; simp only [ha]; rfl, ?_⟩
  have e : ∀ j ∈ range n, (match (if j < n - (if b.trend = 1 then n - b.angles.length else 0) then
        some (fftAzimuth n (phaseShift b.factor a wfm) (j + (if b.trend = 1 then n - b.angles.length else 0)))
        else none) with | some row => ‖row s‖ ^ 2 | none => 0) =
      fftshift n (fun k => ‖dft n (fun p => phaseShift b.factor a wfm p s) k‖ ^ 2) j := by
    intro j hj
    have := mem_range.1 hj
    simp [hfull.1, this, fftAzimuth, fftshift]
  rw [sum_congr rfl e, sum_fftshift, parseval]
  apply sum_congr rfl
  intro p _
  unfold phaseShift
  have : -(Complex.I * ((b.factor * Real.cos a * p : ℝ) : ℂ)) =
      ((-(b.factor * Real.cos a * p) : ℝ) : ℂ) * Complex.I := by push_cast; ring
  rw [norm_mul, this, Complex.norm_exp_ofReal_mul_I, one_mul]

/-! ## C39: the nadir beam -/

/-- **C39, look index.**  For an even number of pulses the nadir beam is the entry whose absolute index
is closest to 0: it is 0 if the list has such an entry. -/
theorem nadir_has_smallest_look_index (n : ℕ) (heven : n % 2 = 0) (b : Burst) (h : TrendOk n b)
    (hne : b.angles ≠ []) :
    ∃ k, ∃ hk : k < b.angles.length, nadirAngle n b.trend b.angles = .ok (b.angles[k]) ∧
      ∀ j < b.angles.length, |Beams.absIndex n b.trend b.angles.length k| ≤
        |Beams.absIndex n b.trend b.angles.length j| := by
  obtain ⟨h1, h2, h3⟩ := h
  have hpos : 0 < b.angles.length := List.length_pos_iff.2 hne
  have hidx : ∀ i : ℤ, ∀ k, ∀ hk : k < b.angles.length, (k : ℤ) = (if i < 0 then i + b.angles.length else i) →
      pyIndex b.angles i = .ok (b.angles[k]) := by
    intro i k hk e
    unfold pyIndex
    simp only [← e]
    rw [if_neg (by omega)]
    simp [List.getElem?_eq_getElem hk]
  unfold nadirAngle nadirIndex Beams.absIndex
  rcases h3 with h | h | h
  · have hf := h2.1 h
    simp only [h]
    have hk : n / 2 < b.angles.length := by omega
    refine ⟨n / 2, hk, hidx _ (n / 2) hk (by rw [if_neg (by omega)]), ?_⟩
    intro j _
    simp
  · simp only [h, if_true]
    by_cases hs : b.angles.length < n / 2
    · refine ⟨0, hpos, by simp only [hs, if_true]; exact hidx 0 0 hpos (by simp), ?_⟩
      intro j hj
      have e : (n : ℤ) = 2 * (n / 2 : ℕ) := by omega
      rw [abs_of_nonneg (by omega), abs_of_nonneg (by omega)]
      omega
    · have hk : b.angles.length - n / 2 < b.angles.length := by
        have : b.angles.length ≠ n := by rw [Ne, ← h2, h]; decide
        omega
      refine ⟨b.angles.length - n / 2, hk, ?_, ?_⟩
      · simp only [hs, if_false]
        have : b.angles.length ≠ n := by rw [Ne, ← h2, h]; decide
        exact hidx _ _ hk (by rw [if_pos (by omega)]; omega)
      · intro j hj
        have : ((b.angles.length - n / 2 : ℕ) : ℤ) + n - b.angles.length - (n / 2 : ℕ) = 0 := by omega
        rw [this, abs_zero]
        exact abs_nonneg _
  · have hnf : b.angles.length ≠ n := by rw [Ne, ← h2, h]; decide
    simp only [h]
    by_cases hs : b.angles.length ≤ n / 2
    · have hk : b.angles.length - 1 < b.angles.length := by omega
      refine ⟨b.angles.length - 1, hk, ?_, ?_⟩
      · simp only [hs, if_true]
        exact hidx (-1) _ hk (by rw [if_pos (by omega)]; omega)
      · intro j hj
        simp only [show ¬ ((-1 : ℤ) = 1) by decide, if_false]
        rw [abs_of_nonpos (by omega), abs_of_nonpos (by omega)]
        omega
    · have hk : n / 2 < b.angles.length := by omega
      refine ⟨n / 2, hk, ?_, ?_⟩
      · simp only [hs, if_false]
        exact hidx _ (n / 2) hk (by rw [if_neg (by omega)])
      · intro j _
        simp

/-- **C39, angle.**  If beams with a smaller absolute index are closer to nadir, as along a regular
pass, the nadir beam has the smallest distance to π/2 (even number of pulses). -/
theorem nadir_closest_partial (n : ℕ) (heven : n % 2 = 0) (b : Burst) (h : TrendOk n b)
    (hne : b.angles ≠ [])
    (hreg : ∀ i j, ∀ hi : i < b.angles.length, ∀ hj : j < b.angles.length,
      |Beams.absIndex n b.trend b.angles.length i| ≤ |Beams.absIndex n b.trend b.angles.length j| →
      |b.angles[i] - Real.pi / 2| ≤ |b.angles[j] - Real.pi / 2|) :
    ∃ a, nadirAngle n b.trend b.angles = .ok a ∧ a ∈ b.angles ∧
      ∀ x ∈ b.angles, |a - Real.pi / 2| ≤ |x - Real.pi / 2| := by
  obtain ⟨k, hk, h1, h2⟩ := nadir_has_smallest_look_index n heven b h hne
  refine ⟨_, h1, List.getElem_mem _, ?_⟩
  intro x hx
  obtain ⟨j, hj, rfl⟩ := List.getElem_of_mem hx
  exact hreg k j hk hj (h2 j hj)

/-- A full list of two beams, at nadir and one radian before it. -/
example : ∃ b : Burst, TrendOk 2 b ∧ b.angles ≠ [] ∧ ∀ i j, ∀ hi : i < b.angles.length,
    ∀ hj : j < b.angles.length,
      |Beams.absIndex 2 b.trend b.angles.length i| ≤ |Beams.absIndex 2 b.trend b.angles.length j| →
      |b.angles[i] - Real.pi / 2| ≤ |b.angles[j] - Real.pi / 2| := by
  refine ⟨⟨[Real.pi / 2 - 1, Real.pi / 2], 0, 1⟩, by simp [TrendOk], by simp, ?_⟩
  intro i j hi hj h
  simp only [List.length_cons, List.length_nil] at hi hj
  have hi' : i = 0 ∨ i = 1 := by omega
  have hj' : j = 0 ∨ j = 1 := by omega
  rcases hi' with rfl | rfl <;> rcases hj' with rfl | rfl
  · simp
  · revert h; simp [Beams.absIndex]
  · simp
  · simp

/-- **C39 violated** for arbitrary lists: the second of two full-list entries is taken although the
first is exactly at nadir. -/
theorem nadir_not_closest_violated :
    ∃ b : Burst, TrendOk 2 b ∧ nadirAngle 2 b.trend b.angles = .ok 0 ∧
      ∃ x ∈ b.angles, |x - Real.pi / 2| < |(0 : ℝ) - Real.pi / 2| := by
  refine ⟨⟨[Real.pi / 2, 0], 0, 1⟩, by simp [TrendOk], ?_, Real.pi / 2, by simp, ?_⟩
  · simp [nadirAngle, nadirIndex, pyIndex]
  · rw [sub_self, abs_zero, abs_pos]
    have := Real.pi_pos
    intro h; linarith

/-- **C39, odd number of pulses.**  With a growing list of two out of three, the beam of index 0 is in
the list and the one of index 1 is taken. -/
theorem nadir_odd_violated :
    ∃ b : Burst, TrendOk 3 b ∧ nadirAngle 3 b.trend b.angles = .ok 1 ∧ b.angles[0]? = some 0 ∧
      b.angles[1]? = some 1 ∧ Beams.absIndex 3 b.trend 2 0 = 0 ∧ Beams.absIndex 3 b.trend 2 1 = 1 := by
  refine ⟨⟨[0, 1], 1, 1⟩, by simp [TrendOk], ?_, rfl, rfl, by decide, by decide⟩
  simp [nadirAngle, nadirIndex, pyIndex]

/-! ## C63: both methods agree at nadir -/

/-- **C63.**  For an even number of pulses, the row of the beam with absolute index 0 is the same in
both methods. -/
theorem methods_agree_at_nadir (n : ℕ) (heven : n % 2 = 0) (hn : 0 < n) (b : Burst) (wfm : ℕ → ℕ → ℂ)
    (h : TrendOk n b) (hne : b.angles ≠ []) (k : ℕ) (hk : k < b.angles.length)
    (hzero : Beams.absIndex n b.trend b.angles.length k = 0) :
    ∃ beams row row', approximate n b wfm = .ok beams ∧ beams k = some row ∧
      exact n b wfm k = some row' ∧ ∀ s, row s = row' s := by
  obtain ⟨a, beams, ha, hb, hrow⟩ := approximate_row n b wfm h hne
  obtain ⟨k', hk', ha', hmin⟩ := nadir_has_smallest_look_index n heven b h hne
  have hkk : k' = k := by
    have := hmin k hk
    rw [hzero, abs_zero] at this
    have h0 := abs_nonpos_iff.1 this
    unfold Beams.absIndex at h0 hzero
    split_ifs at h0 hzero <;> omega
  subst hkk
  rw [ha] at ha'
  cases ha'
  obtain ⟨row, h1, h2⟩ := hrow k' hk
  obtain ⟨row', h3, h4⟩ := (exact_row n hn b wfm k').1 _ (List.getElem?_eq_getElem hk)
  refine ⟨beams, row, row', hb, h1, h3, fun s => ?_⟩
  rw [h2 s, h4 s, hzero]
  unfold focussed
  simp [twiddle_zero_left]

/-- A growing list of three of four pulses: index 1 has absolute index 0. -/
example : TrendOk 4 ⟨[1, 2, 3], 1, 1⟩ ∧ Beams.absIndex 4 1 3 1 = 0 ∧
    nadirAngle 4 1 [1, 2, 3] = .ok 2 := by
  refine ⟨by simp [TrendOk], by decide, by decide⟩

/-! ## C37: the window -/

/-- First position of the window of the given width centred in `n` pulses. -/
def windowStart (n width : ℕ) : ℕ := n / 2 - width / 2

/-- The two shapes by their usual names. -/
noncomputable def hammingShape (width i : ℕ) : ℝ :=
  54/100 - 46/100 * Real.cos (2 * Real.pi * i / ((width : ℝ) - 1))
/-- The Hann window as usually defined. -/
noncomputable def hannShape (width i : ℕ) : ℝ :=
  1/2 - 1/2 * Real.cos (2 * Real.pi * i / ((width : ℝ) - 1))

theorem assignSlice_eq (n width : ℕ) (h : width ≤ n) (values : List (Option ℝ))
    (hl : values.length = width ∨ values.length = 1) :
    ∃ out, assignSlice n ((n / 2 : ℕ) - (width / 2 : ℕ)) ((n / 2 : ℕ) - (width / 2 : ℕ) + width) values
        (List.replicate n (some 0)) = .ok out ∧ out.length = n ∧
      (∀ i, i < windowStart n width ∨ windowStart n width + width ≤ i → i < n → out[i]? = some (some 0)) ∧
      ∀ i < width, out[windowStart n width + i]? =
        some (if values.length = width then values.getD i none else values.headD none) := by
  have ha : Reader.sliceBound n ((n / 2 : ℕ) - (width / 2 : ℕ)) = windowStart n width := by
    unfold Reader.sliceBound windowStart
    rw [if_neg (by omega)]
    omega
  have hb : Reader.sliceBound n ((n / 2 : ℕ) - (width / 2 : ℕ) + width) = windowStart n width + width := by
    unfold Reader.sliceBound windowStart
    rw [if_neg (by omega)]
    omega
  have hle : windowStart n width + width ≤ n := by unfold windowStart; omega
  obtain ⟨vals, hvl, hv, heq⟩ : ∃ vals : List (Option ℝ), vals.length = width ∧
      (∀ i < width, vals[i]? = some (if values.length = width then values.getD i none else values.headD none)) ∧
      assignSlice n ((n / 2 : ℕ) - (width / 2 : ℕ)) ((n / 2 : ℕ) - (width / 2 : ℕ) + width) values
        (List.replicate n (some 0)) =
        .ok (List.replicate (windowStart n width) (some 0) ++ vals ++
          List.replicate (n - (windowStart n width + width)) (some 0)) := by
    unfold assignSlice
    simp only [ha, hb]
    have e1 : windowStart n width + width - windowStart n width = width := by omega
    have e2 : max (windowStart n width) (windowStart n width + width) = windowStart n width + width := by omega
    rw [e1, e2]
    by_cases hw : values.length = width
    · refine ⟨values, hw, ?_, ?_⟩
      · intro i hi
        rw [if_pos hw, List.getD_eq_getElem?_getD, List.getElem?_eq_getElem (by omega)]
        rfl
      · rw [if_pos hw]
        simp only [List.take_replicate, List.drop_replicate]
        rw [Nat.min_eq_left (by omega)]
    · have h1 : values.length = 1 := hl.resolve_left hw
      refine ⟨List.replicate width (values.headD none), by simp, ?_, ?_⟩
      · intro i hi
        rw [if_neg hw, List.getElem?_replicate, if_pos hi]
      · rw [if_neg hw, if_pos h1]
        simp only [List.take_replicate, List.drop_replicate]
        rw [Nat.min_eq_left (by omega)]
  refine ⟨_, heq, ?_, ?_, ?_⟩
  · simp [hvl]; omega
  · intro i hi hin
    rcases hi with hi | hi
    · rw [List.append_assoc, List.getElem?_append_left (by simpa using hi)]
      simp [hi]
    · rw [List.getElem?_append_right (by simp [hvl]; omega)]
      rw [List.getElem?_replicate, if_pos]
      simp only [List.length_append, List.length_replicate, hvl]
      omega
  · intro i hi
    rw [List.append_assoc, List.getElem?_append_right (by simp)]
    simp only [List.length_replicate, Nat.add_sub_cancel_left]
    rw [List.getElem?_append_left (by omega)]
    exact hv i hi

/-- **C37, support.**  For every width up to the number of pulses, every shape but `disabled` gives a
window that is zero outside `width` positions starting at `n/2 - width/2`; `disabled` is 1
everywhere. -/
theorem window_support (n width : ℕ) (h : width ≤ n) (shape : Windowing) :
    ∃ out, azimuthWindow n shape width = .ok out ∧ out.length = n ∧
      (shape = .disabled → ∀ i < n, out[i]? = some (some 1)) ∧
      (shape ≠ .disabled → ∀ i, i < windowStart n width ∨ windowStart n width + width ≤ i → i < n →
        out[i]? = some (some 0)) := by
  cases shape with
  | disabled =>
    refine ⟨_, rfl, by simp, ?_, fun h => absurd rfl h⟩
    intro _ i hi; simp [hi]
  | boxcar =>
    obtain ⟨out, h1, h2, h3, _⟩ := assignSlice_eq n width h [some 1] (Or.inr rfl)
    exact ⟨out, h1, h2, by simp, fun _ => h3⟩
  | hamming =>
    obtain ⟨out, h1, h2, h3, _⟩ := assignSlice_eq n width h ((List.range width).map (hammingValue width))
      (Or.inl (by simp))
    exact ⟨out, h1, h2, by simp, fun _ => h3⟩
  | hanning =>
    obtain ⟨out, h1, h2, h3, _⟩ := assignSlice_eq n width h ((List.range width).map (hanningValue width))
      (Or.inl (by simp))
    exact ⟨out, h1, h2, by simp, fun _ => h3⟩

/-- **C37, values.**  Inside, the boxcar is 1; the window called `hamming` has the Hann shape and the one
called `hanning` the Hamming shape (width at least 2). -/
theorem window_values (n width : ℕ) (h : width ≤ n) (i : ℕ) (hi : i < width) :
    (∃ out, azimuthWindow n .boxcar width = .ok out ∧ out[windowStart n width + i]? = some (some 1)) ∧
    (2 ≤ width →
      (∃ out, azimuthWindow n .hamming width = .ok out ∧
        out[windowStart n width + i]? = some (some (hannShape width i))) ∧
      ∃ out, azimuthWindow n .hanning width = .ok out ∧
        out[windowStart n width + i]? = some (some (hammingShape width i))) := by
  refine ⟨?_, fun h2 => ⟨?_, ?_⟩⟩
  · obtain ⟨out, h1, _, _, h4⟩ := assignSlice_eq n width h [some 1] (Or.inr rfl)
    refine ⟨out, h1, ?_⟩
    rw [h4 i hi]
    split_ifs with hw
    · have : i = 0 := by simp at hw; omega
      subst this; rfl
    · rfl
  · obtain ⟨out, h1, _, _, h4⟩ := assignSlice_eq n width h ((List.range width).map (hammingValue width))
      (Or.inl (by simp))
    refine ⟨out, h1, ?_⟩
    rw [h4 i hi, if_pos (by simp)]
    simp [hi, hammingValue, cosTerm, show width ≠ 1 by omega, hannShape]
    norm_num
  · obtain ⟨out, h1, _, _, h4⟩ := assignSlice_eq n width h ((List.range width).map (hanningValue width))
      (Or.inl (by simp))
    refine ⟨out, h1, ?_⟩
    rw [h4 i hi, if_pos (by simp)]
    simp [hi, hanningValue, cosTerm, show width ≠ 1 by omega, hammingShape]

theorem cos_symm (width i : ℕ) (hi : i < width) (h2 : 2 ≤ width) :
    Real.cos (2 * Real.pi * ((width - 1 - i : ℕ) : ℝ) / ((width : ℝ) - 1)) =
      Real.cos (2 * Real.pi * i / ((width : ℝ) - 1)) := by
  have hw : (width : ℝ) - 1 ≠ 0 := by
    have : (2 : ℝ) ≤ width := by exact_mod_cast h2
    intro h0; linarith
  have e : ((width - 1 - i : ℕ) : ℝ) = (width : ℝ) - 1 - i := by
    rw [Nat.cast_sub (by omega), Nat.cast_sub (by omega)]; simp
  rw [e]
  have : 2 * Real.pi * ((width : ℝ) - 1 - i) / ((width : ℝ) - 1) =
      2 * Real.pi - 2 * Real.pi * i / ((width : ℝ) - 1) := by
    field_simp
  rw [this, Real.cos_two_pi_sub]

/-- **C37, symmetry.**  Every window of width at least 2 is symmetric about the middle of its
support. -/
theorem window_symmetric (n width : ℕ) (h : width ≤ n) (h2 : 2 ≤ width) (shape : Windowing) (i : ℕ)
    (hi : i < width) :
    ∃ out, azimuthWindow n shape width = .ok out ∧
      out[windowStart n width + i]? = out[windowStart n width + (width - 1 - i)]? := by
  have hle : windowStart n width + width ≤ n := by unfold windowStart; omega
  have hi' : width - 1 - i < width := by omega
  have same : ∀ {o o'}, azimuthWindow n shape width = .ok o → azimuthWindow n shape width = .ok o' → o = o' := by
    intro o o' e e'; rw [e] at e'; cases e'; rfl
  obtain ⟨b1, c1⟩ := window_values n width h i hi
  obtain ⟨b2, c2⟩ := window_values n width h (width - 1 - i) hi'
  obtain ⟨⟨o1, e1, v1⟩, ⟨o1', e1', v1'⟩⟩ := c1 h2
  obtain ⟨⟨o2, e2, v2⟩, ⟨o2', e2', v2'⟩⟩ := c2 h2
  cases shape with
  | disabled =>
    obtain ⟨out, g1, _, g2, _⟩ := window_support n width h .disabled
    refine ⟨out, g1, ?_⟩
    rw [g2 rfl _ (by omega), g2 rfl _ (by omega)]
  | boxcar =>
    obtain ⟨p1, q1, r1⟩ := b1
    obtain ⟨p2, q2, r2⟩ := b2
    have := same q1 q2; subst this
    exact ⟨p1, q1, by rw [r1, r2]⟩
  | hamming =>
    have := same e1 e2; subst this
    exact ⟨o1, e1, by rw [v1, v2, hannShape, hannShape, cos_symm width i hi h2]⟩
  | hanning =>
    have := same e1' e2'; subst this
    exact ⟨o1', e1', by rw [v1', v2', hammingShape, hammingShape, cos_symm width i hi h2]⟩

/-- **C37 violated: names.**  For every width from 2 up, the window `hamming` is not the Hamming window
(its first value is 0 instead of 0.08), nor `hanning` the Hann window. -/
theorem hamming_hanning_swapped_violated (n width : ℕ) (h : width ≤ n) (h2 : 2 ≤ width) :
    (∃ out, azimuthWindow n .hamming width = .ok out ∧
      out[windowStart n width]? = some (some 0) ∧ hammingShape width 0 = 8/100) ∧
    ∃ out, azimuthWindow n .hanning width = .ok out ∧
      out[windowStart n width]? = some (some (8/100)) ∧ hannShape width 0 = 0 := by
  obtain ⟨_, c⟩ := window_values n width h 0 (by omega)
  obtain ⟨⟨o1, e1, v1⟩, ⟨o2, e2, v2⟩⟩ := c h2
  have x1 : hannShape width 0 = 0 := by simp [hannShape]
  have x2 : hammingShape width 0 = 8/100 := by simp [hammingShape]; norm_num
  rw [x1] at v1
  rw [x2] at v2
  exact ⟨⟨o1, e1, v1, x2⟩, ⟨o2, e2, v2, x1⟩⟩

/-- **C37 violated: too wide.**  A boxcar wider than the burst is not cut to the burst: of 8 pulses
with width 12 only the last two are kept. -/
theorem wide_boxcar_violated :
    ∃ out, azimuthWindow 8 .boxcar 12 = .ok out ∧
      out = [some 0, some 0, some 0, some 0, some 0, some 0, some 1, some 1] := by
  refine ⟨_, ?_, rfl⟩
  simp [azimuthWindow, assignSlice, Reader.sliceBound, List.replicate]

/-- A cosine window wider than the burst is an error. -/
theorem wide_hamming_fails (n width : ℕ) (h : n < width) (h1 : 2 ≤ width) :
    azimuthWindow n .hamming width = .error .valueError := by
  unfold azimuthWindow assignSlice
  simp only [List.length_map, List.length_range]
  rw [if_neg ?_, if_neg (by omega)]
  unfold Reader.sliceBound
  split_ifs <;> omega

/-- Width 1 with a cosine shape gives NaN. -/
theorem width_one_nan (n : ℕ) (hn : 0 < n) :
    ∃ out, azimuthWindow n .hamming 1 = .ok out ∧ out[windowStart n 1]? = some none := by
  obtain ⟨out, h1, _, _, h4⟩ := assignSlice_eq n 1 (by omega) ((List.range 1).map (hammingValue 1))
    (Or.inl (by simp))
  refine ⟨out, h1, ?_⟩
  have := h4 0 (by omega)
  simpa [hammingValue, cosTerm] using this

end Dedop.Azimuth
