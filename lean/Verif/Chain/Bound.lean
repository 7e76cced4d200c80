import Verif.Chain.Own
import Mathlib.Algebra.Order.Chebyshev

/-!
# A waveform lies between zero and the energy received (C125)
-/
namespace Dedop.Chain

open Finset Signal Stack

/-! ## Specification -/

/-- The energy of the samples of a burst, after the azimuth window. -/
noncomputable def energy (c : Conf) (b : L1A) : ℝ :=
  ∑ p ∈ range c.pulses, ∑ i ∈ range c.samples, ‖b.wfm p i * (c.window p : ℂ)‖ ^ 2

/-! ## Lemmas -/

/-- One value of a Fourier transform has at most the energy of all. -/
theorem dft_le (N : ℕ) (x : ℕ → ℂ) (k : ℕ) : ‖dft N x k‖ ^ 2 ≤ ∑ n ∈ range N, ‖x n‖ ^ 2 := by
  rcases Nat.eq_zero_or_pos N with rfl | hN
  · simp [dft]
  have hN' : (0 : ℝ) < N := by exact_mod_cast hN
  have h1 : ‖∑ n ∈ range N, x n * twiddle N k n‖ ^ 2 ≤ N * ∑ n ∈ range N, ‖x n‖ ^ 2 := by
    have h2 : ‖∑ n ∈ range N, x n * twiddle N k n‖ ≤ ∑ n ∈ range N, ‖x n‖ := by
      refine (norm_sum_le _ _).trans (le_of_eq (sum_congr rfl fun n _ => ?_))
      rw [norm_mul, norm_twiddle, mul_one]
    calc ‖∑ n ∈ range N, x n * twiddle N k n‖ ^ 2 ≤ (∑ n ∈ range N, ‖x n‖) ^ 2 := by gcongr
      _ ≤ N * ∑ n ∈ range N, ‖x n‖ ^ 2 := by
        have := sq_sum_le_card_mul_sum_sq (s := range N) (f := fun n => ‖x n‖)
        simpa using this
  unfold dft
  rw [norm_div, div_pow, Complex.norm_real, Real.norm_eq_abs, sq_abs, Real.sq_sqrt hN'.le, div_le_iff₀ hN', mul_comm]
  exact h1

/-- One value of a range compression has at most the energy of the beam over the padding factor. -/
theorem compress_le (zp ns : ℕ) (shift : ℝ) (beam : ℕ → ℂ) (k : ℕ) :
    compress zp ns (applyShift ns shift beam) k ≤ (∑ i ∈ range ns, ‖beam i‖ ^ 2) / zp := by
  rcases Nat.eq_zero_or_pos zp with rfl | hz
  · simp [compress, compressIq, fftshift, dft]
  rcases Nat.eq_zero_or_pos ns with rfl | hn
  · simp [compress, compressIq, fftshift, dft]
  have hz' : (0 : ℝ) < zp := by exact_mod_cast hz
  have hn' : (0 : ℝ) < ns := by exact_mod_cast hn
  unfold compress compressIq fftshift
  generalize (k + (zp * ns - zp * ns / 2)) % (zp * ns) = j
  unfold dft
  have hsum : ∑ n ∈ range (zp * ns), pad ns (applyShift ns shift beam) n * twiddle (zp * ns) j n =
      ∑ n ∈ range ns, applyShift ns shift beam n * twiddle (zp * ns) j n := by
    have := sum_pad zp ns hz (applyShift ns shift beam) (fun i v => v * twiddle (zp * ns) j i) (by simp)
    simpa using this
  rw [hsum]
  have h2 : ‖∑ n ∈ range ns, applyShift ns shift beam n * twiddle (zp * ns) j n‖ ≤ ∑ n ∈ range ns, ‖beam n‖ := by
    refine (norm_sum_le _ _).trans (le_of_eq (sum_congr rfl fun n _ => ?_))
    rw [norm_mul, norm_twiddle, mul_one, corrections_preserve_modulus]
  have h1 : ‖∑ n ∈ range ns, applyShift ns shift beam n * twiddle (zp * ns) j n‖ ^ 2 ≤ ns * ∑ n ∈ range ns, ‖beam n‖ ^ 2 := by
    calc ‖∑ n ∈ range ns, applyShift ns shift beam n * twiddle (zp * ns) j n‖ ^ 2 ≤ (∑ n ∈ range ns, ‖beam n‖) ^ 2 := by gcongr
      _ ≤ ns * ∑ n ∈ range ns, ‖beam n‖ ^ 2 := by
        have := sq_sum_le_card_mul_sum_sq (s := range ns) (f := fun n => ‖beam n‖)
        simpa using this
  rw [norm_div, div_pow, Complex.norm_real, Real.norm_eq_abs, sq_abs, Real.sq_sqrt (Nat.cast_nonneg _)]
  push_cast
  rw [div_le_div_iff₀ (by positivity) hz']
  nlinarith [h1]

/-- A beam of either method has at most the energy of the burst. -/
theorem azimuth_le (c : Conf) (b : L1A) (beams : Azimuth.Beams) (h : azimuth c b = .ok beams) (j : ℕ) (row : ℕ → ℂ)
    (hj : beams j = some row) : ∑ i ∈ range c.samples, ‖row i‖ ^ 2 ≤ energy c b := by
  have key : ∀ (a : ℝ) (k : ℕ), ∑ i ∈ range c.samples, ‖Azimuth.fftAzimuth c.pulses
      (Azimuth.phaseShift (azBurst c b).factor a (fun p s => b.wfm p s * (c.window p : ℂ))) k i‖ ^ 2 ≤ energy c b := by
    intro a k
    unfold energy
    rw [sum_comm]
    refine sum_le_sum fun i _ => ?_
    unfold Azimuth.fftAzimuth fftshift
    refine (dft_le _ _ _).trans (le_of_eq (sum_congr rfl fun p _ => ?_))
    unfold Azimuth.phaseShift
    rw [norm_mul]
    have : -(Complex.I * (((azBurst c b).factor * Real.cos a * p : ℝ) : ℂ)) = ((-((azBurst c b).factor * Real.cos a * p) : ℝ) : ℂ) * Complex.I := by
      push_cast; ring
    rw [this, Complex.norm_exp_ofReal_mul_I, one_mul]
  unfold azimuth at h
  dsimp only at h
  split at h
  · cases h
    unfold Azimuth.exact at hj
    cases ha : (azBurst c b).angles[j]? with
    | none => rw [ha] at hj; simp at hj
    | some a =>
      rw [ha] at hj
      cases hj
      exact key a _
  · unfold Azimuth.approximate at h
    cases hn : Azimuth.nadirAngle c.pulses (azBurst c b).trend (azBurst c b).angles with
    | error e => rw [hn] at h; cases h
    | ok a =>
      rw [hn] at h
      dsimp only at h
      cases h
      dsimp only at hj
      generalize (if (azBurst c b).trend = 1 then c.pulses - (azBurst c b).angles.length else 0) = off at hj
      by_cases hlt : j < c.pulses - off
      · rw [if_pos hlt] at hj
        cases hj
        exact key a _
      · rw [if_neg hlt] at hj
        cases hj

/-- What holds of the row of every entry holds of every row gathered. -/
theorem loop_rows (P : Row ℝ (ℕ → ℂ) → Prop) (x : ℝ) (es : List (Entry ℝ (ℕ → ℂ)))
    (he : ∀ e ∈ es, ∀ row, gatherRow x e = .ok row → P row) (off m k : ℕ) (best : Option ℝ) (g g' : Gathered ℝ (ℕ → ℂ))
    (hg : ∀ row ∈ g.rows, P row) (h : gatherLoop x es off m k best g = .ok g') : ∀ row ∈ g'.rows, P row := by
  induction m generalizing k best g with
  | zero => cases h; exact hg
  | succ m ih =>
    rw [gatherLoop] at h
    cases h1 : es[k + off]? with
    | none => rw [h1] at h; cases h
    | some e =>
      rw [h1] at h
      dsimp only at h
      cases h2 : gatherRow x e with
      | error => rw [h2] at h; cases h
      | ok row =>
        rw [h2] at h
        refine ih _ _ _ ?_ h
        intro r hr
        rcases List.mem_append.1 hr with hr | hr
        · exact hg r hr
        · rw [List.mem_singleton.1 hr]
          exact he e (List.mem_of_getElem? h1) row h2

theorem gather_rows (P : Row ℝ (ℕ → ℂ) → Prop) (argsort : List ℝ → List ℕ) (n : ℕ) (x : ℝ) (prev : ℕ) (es : List (Entry ℝ (ℕ → ℂ)))
    (he : ∀ e ∈ es, ∀ row, gatherRow x e = .ok row → P row) (g : Gathered ℝ (ℕ → ℂ)) (h : gather argsort n x prev es = .ok g) :
    ∀ row ∈ g.rows, P row := by
  unfold gather at h
  cases hw : window argsort n x es with
  | error => rw [hw] at h; cases h
  | ok w =>
    rw [hw] at h
    exact loop_rows P x es he _ _ _ _ _ _ (by simp) h

/-- The entries are made of the looks. -/
theorem entries_mem (junk : ℕ → ℂ) (c : Conf) (b : ℕ → L1A) (looks : Looks) (es : List (Entry ℝ (ℕ → ℂ)))
    (h : entries junk c b looks = .ok es) : ∀ e ∈ es, ∃ l ∈ looks, ∃ beams, azimuth c (b l.2.2) = .ok beams ∧
      e = ⟨l.1, l.2.1, stackBurst junk c l.2.2 (b l.2.2) beams⟩ := by
  induction looks generalizing es with
  | nil => cases h; simp
  | cons l rest ih =>
    obtain ⟨i, a, id⟩ := l
    rw [entries] at h
    cases h1 : azimuth c (b id) with
    | error => rw [h1] at h; cases h
    | ok beams =>
      cases h2 : entries junk c b rest with
      | error => rw [h1, h2] at h; cases h
      | ok fs =>
        rw [h1, h2] at h
        cases h
        intro e he
        rcases List.mem_cons.1 he with rfl | he
        · exact ⟨(i, a, id), by simp, beams, h1, rfl⟩
        · obtain ⟨l, hl, r⟩ := ih fs h2 e he
          exact ⟨l, by simp [hl], r⟩

theorem applyMask_mem (P : ℝ → Prop) (h0 : P 0) (x : MaskInput ℝ) (m : List (List Bool)) (hx : ∀ b ∈ x.beams, ∀ v ∈ b, P v) :
    ∀ b ∈ applyMask x m, ∀ v ∈ b, P v := by
  unfold applyMask
  intro b hb v hv
  obtain ⟨i, hi, rfl⟩ := List.mem_iff_getElem.1 hb
  rw [List.getElem_zipWith] at hv
  obtain ⟨k, hk, rfl⟩ := List.mem_iff_getElem.1 hv
  rw [List.getElem_zipWith]
  split
  · rw [mul_one]
    exact hx _ (List.getElem_mem _) _ (List.getElem_mem _)
  · rw [mul_zero]
    exact h0

theorem masking_mem (P : ℝ → Prop) (h0 : P 0) (round : ℝ → ℤ) (c : MaskConf ℝ) (x : MaskInput ℝ) (m : Masked ℝ)
    (hx : ∀ b ∈ x.beams, ∀ v ∈ b, P v) (h : masking round c x = .ok m) : ∀ b ∈ m.beams, ∀ v ∈ b, P v := by
  unfold masking at h
  split at h
  · cases hc : combineMasks (geometryMask round c x) (ambiguityMask c) (angleMask c x) with
    | error => rw [hc] at h; cases h
    | ok p =>
      rw [hc] at h
      cases h
      exact applyMask_mem P h0 x p.1 hx
  · cases h
    exact hx

/-- The mean of numbers between 0 and `M` is between 0 and `M`. -/
theorem loop_between (av : Bool) (n : ℕ) (M : ℝ) (beams : List (Multilook.Beam ℝ))
    (hb : ∀ b ∈ beams, ∀ v ∈ b.power, 0 ≤ v ∧ v ≤ M) (i : ℕ) (a : Multilook.Acc ℝ)
    (ha : ∀ (k : ℕ) (s : ℝ) (m : ℕ), a.sum[k]? = some s → a.counter[k]? = some m → 0 ≤ s ∧ s ≤ m * M) :
    ∀ (k : ℕ) (s : ℝ) (m : ℕ), (Multilook.loop av n i a beams).sum[k]? = some s →
      (Multilook.loop av n i a beams).counter[k]? = some m → 0 ≤ s ∧ s ≤ m * M := by
  induction beams generalizing i a with
  | nil => exact ha
  | cons b rest ih =>
    rw [Multilook.loop]
    refine ih (fun b hb' => hb b (by simp [hb'])) _ _ ?_
    unfold Multilook.turn
    split
    · intro k s m hs hm
      dsimp only at hs hm
      simp only [List.getElem?_zipWith] at hs hm
      cases h1 : a.sum[k]? with
      | none => simp [h1] at hs
      | some s0 =>
        cases h2 : b.power[k]? with
        | none => simp [h1, h2] at hs
        | some v =>
          cases h3 : (Multilook.increments av n b)[k]? with
          | none => simp [h3] at hm
          | some d =>
            cases h4 : a.counter[k]? with
            | none => simp [h4] at hm
            | some m0 =>
              simp only [h1, h2, h3, h4, Option.some.injEq] at hs hm
              obtain ⟨g1, g2⟩ := ha k s0 m0 h1 h4
              obtain ⟨v1, v2⟩ := hb b (by simp) v (List.mem_of_getElem? h2)
              subst hs; subst hm
              have hd : (0 : ℝ) ≤ d := Nat.cast_nonneg _
              refine ⟨by positivity, ?_⟩
              push_cast
              nlinarith [mul_le_mul_of_nonneg_right v2 hd]
    · exact ha

theorem compute_between (av : Bool) (n looks : ℕ) (M : ℝ) (beams : List (Multilook.Beam ℝ))
    (hb : ∀ b ∈ beams, ∀ v ∈ b.power, 0 ≤ v ∧ v ≤ M) (k : ℕ) (y : ℝ)
    (h : (Multilook.compute av n looks beams).waveform[k]? = some (some y)) : 0 ≤ y ∧ y ≤ M := by
  have hl := loop_between av n M beams hb 0 ⟨List.replicate n 0, List.replicate n 0, 0, none, none⟩ (by
    intro k s m hs hm
    simp only [List.getElem?_replicate] at hs hm
    by_cases hk : k < n
    · rw [if_pos hk, Option.some.injEq] at hs hm
      subst hs; subst hm
      simp
    · rw [if_neg hk] at hs
      cases hs) k
  unfold Multilook.compute at h
  generalize Multilook.loop av n 0 ⟨List.replicate n 0, List.replicate n 0, 0, none, none⟩ beams = a at h hl
  have hw : (List.zipWith Multilook.divide a.sum a.counter)[k]? = some (some y) := by
    cases h1 : a.start with
    | none => simpa only [h1] using h
    | some st =>
      cases h2 : a.stop with
      | none => simpa only [h1, h2] using h
      | some sp => simpa only [h1, h2] using h
  rw [List.getElem?_zipWith] at hw
  cases h1 : a.sum[k]? with
  | none => simp [h1] at hw
  | some s =>
    cases h2 : a.counter[k]? with
    | none => simp [h2] at hw
    | some m =>
      simp only [h1, h2, Option.some.injEq] at hw
      unfold Multilook.divide at hw
      split at hw
      · cases hw
      · rename_i hm
        simp only [Option.some.injEq] at hw
        obtain ⟨g1, g2⟩ := hl s m h1 h2
        have hm' : (0 : ℝ) < m := by exact_mod_cast Nat.pos_of_ne_zero hm
        subst hw
        exact ⟨by positivity, by rw [div_le_iff₀ hm', mul_comm]; exact g2⟩

/-- The powers of the looks given to the multilooking. -/
theorem look_powers (argsort : List ℝ → List ℕ) (round : ℝ → ℤ) (junk : ℕ → ℂ) (c : Conf) (bursts : ℕ → L1A) (s : Surf)
    (prev : ℕ) (looks : Looks) (hw : WellMade c bursts looks) (es : List (Entry ℝ (ℕ → ℂ))) (h1 : entries junk c bursts looks = .ok es)
    (g : Gathered ℝ (ℕ → ℂ)) (h2 : gather argsort c.looks (Real.pi / 2) prev es = .ok g) (m : Masked ℝ)
    (h3 : masking round (maskConf c) (maskInput c bursts s g.rows) = .ok m) (E : ℝ) (hE0 : 0 ≤ E)
    (hE : ∀ l ∈ looks, energy c (bursts l.2.2) ≤ E) : ∀ b ∈ lookBeams g.rows m, ∀ v ∈ b.power, 0 ≤ v ∧ v ≤ E / c.zp := by
  have hrows : ∀ row ∈ g.rows, ∑ i ∈ range c.samples, ‖row.beam i‖ ^ 2 ≤ E := by
    refine gather_rows (fun row => ∑ i ∈ range c.samples, ‖row.beam i‖ ^ 2 ≤ E) argsort c.looks _ prev es ?_ g h2
    intro e he row hrow
    obtain ⟨l, hl, beams, hb, rfl⟩ := entries_mem junk c bursts looks es h1 e he
    obtain ⟨w1, w2⟩ := hw.2 l hl
    obtain ⟨br, hbr⟩ := written c (bursts l.2.2) l.1 hw.1 w1 w2 beams hb
    have hrb : row.beam = br := by
      unfold gatherRow at hrow
      simp only [stackBurst, List.getElem?_map] at hrow
      by_cases hi : l.1 < c.pulses
      · rw [List.getElem?_range hi] at hrow
        simp only [Option.map_some, hbr, Option.getD_some] at hrow
        split at hrow
        · rename_i e1 e2
          cases hrow
          simp only [Option.some.injEq] at e1
          exact e1.symm
        · cases hrow
      · rw [List.getElem?_eq_none (show (List.range c.pulses).length ≤ l.1 by simpa using hi)] at hrow
        simp at hrow
    show ∑ i ∈ range c.samples, ‖row.beam i‖ ^ 2 ≤ E
    rw [hrb]
    exact (azimuth_le c _ beams hb l.1 br hbr).trans (hE l hl)
  have hM : (0 : ℝ) ≤ E / c.zp := by positivity
  have hbeams : ∀ b ∈ m.beams, ∀ v ∈ b, 0 ≤ v ∧ v ≤ E / c.zp := by
    refine masking_mem (fun v => 0 ≤ v ∧ v ≤ E / c.zp) ⟨le_refl _, hM⟩ round _ _ m ?_ h3
    intro b hb v hv
    simp only [maskInput, List.mem_map] at hb
    obtain ⟨row, hr, rfl⟩ := hb
    simp only [compressed, List.mem_map] at hv
    obtain ⟨j, _, rfl⟩ := hv
    refine ⟨by unfold compress; positivity, (compress_le _ _ _ _ _).trans ?_⟩
    gcongr
    exact hrows row hr
  intro B hB v hv
  simp only [lookBeams, List.mem_map] at hB
  obtain ⟨p, _, rfl⟩ := hB
  dsimp only at hv
  rw [List.getD_eq_getElem?_getD] at hv
  cases hg : m.beams[p.2]? with
  | none => simp [hg] at hv
  | some b =>
    rw [hg] at hv
    exact hbeams b (List.mem_of_getElem? hg) v hv

/-! ## C125 -/

/-- **C125.**  Every sample of the waveform of a record is defined as a power: it is not negative, and not larger than the energy of
the strongest burst of the stack, over the padding factor. -/
theorem waveform_between (argsort : List ℝ → List ℕ) (round : ℝ → ℤ) (junk : ℕ → ℂ) (c : Conf) (bursts : ℕ → L1A) (s : Surf)
    (prev : ℕ) (looks : Looks) (hw : WellMade c bursts looks) (r : Result)
    (h : surface argsort round junk c bursts s prev looks = .ok (some r)) (E : ℝ) (hE0 : 0 ≤ E)
    (hE : ∀ l ∈ looks, energy c (bursts l.2.2) ≤ E) (k : ℕ) (y : ℝ) (hy : r.out.waveform[k]? = some (some y)) :
    0 ≤ y ∧ y ≤ E / c.zp := by
  unfold surface at h
  cases h1 : entries junk c bursts looks with
  | error => rw [h1] at h; cases h
  | ok es =>
    rw [h1] at h
    dsimp only at h
    cases h2 : gather argsort c.looks (Real.pi / 2) prev es with
    | error => rw [h2] at h; cases h
    | ok g =>
      rw [h2] at h
      dsimp only at h
      split at h
      · cases h
      · cases h3 : masking round (maskConf c) (maskInput c bursts s g.rows) with
        | error => rw [h3] at h; cases h
        | ok m =>
          rw [h3] at h
          dsimp only at h
          split at h
          · cases h
          · split at h
            · cases h
            · cases h
              dsimp only at hy
              exact compute_between _ _ _ _ _
                (look_powers argsort round junk c bursts s prev looks hw es h1 g h2 m h3 E hE0 hE) k y hy

/-- **C125, the bound is attained.**  In the example the echo of a point, of energy 16 in each burst, reaches the bound 16 / 2 with
either azimuth method, so that the bound cannot be improved. -/
theorem bound_attained (exact : Bool) (argsort : List ℝ → List ℕ) (ha : IsArgsort argsort) :
    ∃ r, surface argsort (fun x => ⌊x + 1 / 2⌋) (fun _ => 0) (demoConf exact) (demoBurst 1) demoSurf 0
        [(0, 0, 0), (1, 1, 1)] = .ok (some r) ∧ WellMade (demoConf exact) (demoBurst 1) [(0, 0, 0), (1, 1, 1)] ∧
      (∀ id, energy (demoConf exact) (demoBurst 1 id) = 16) ∧ r.out.waveform[8]? = some (some (16 / ((demoConf exact).zp : ℝ))) := by
  obtain ⟨r, h1, h2, _⟩ := demo_surface exact argsort ha 1 (by norm_num)
  refine ⟨r, h1, ⟨by simp [demoConf], ?_⟩, ?_, ?_⟩
  · intro l hl
    simp only [List.mem_cons, List.not_mem_nil, or_false] at hl
    rcases hl with rfl | rfl <;> simp [demoBurst, demoConf, azBurst, Azimuth.TrendOk]
  · intro id
    unfold energy
    have : ∀ p i, ‖(demoBurst 1 id).wfm p i * ((demoConf exact).window p : ℂ)‖ ^ 2 = 1 := by
      intro p i
      have e1 : ∀ t : ℝ, ‖Complex.exp (-(Complex.I * (t : ℂ)))‖ = 1 := by
        intro t
        rw [show -(Complex.I * (t : ℂ)) = ((-t : ℝ) : ℂ) * Complex.I by push_cast; ring, Complex.norm_exp_ofReal_mul_I]
      have e2 : ∀ t : ℝ, ‖Complex.exp (Complex.I * (t : ℂ))‖ = 1 := by
        intro t
        rw [mul_comm, Complex.norm_exp_ofReal_mul_I]
      simp only [demoBurst, demoConf]
      rw [norm_mul, norm_mul, norm_mul, e1, e2]
      simp
    simp only [this]
    simp [demoConf]
    norm_num
  · rw [h2]
    simp [demoConf]
    norm_num

end Dedop.Chain
