import Verif.Chain.Demo

/-! # The loss of the approximate azimuth method (C109) -/
namespace Dedop.Chain

open Finset Signal Stack

/-! ## Specification -/

/-- The phase per pulse by which beam `j`, made with steering angle `a`, misses the direction `θ`: the
phase of the direction less those of the steering angle and of the azimuth frequency of the beam.
Neighbouring beams are `2 π / pulses` apart. -/
noncomputable def miss (c : Conf) (b : L1A) (j : ℕ) (θ a : ℝ) : ℝ :=
  4 * Real.pi / c.wavelength * b.velocity * b.pri * (Real.cos θ - Real.cos a) -
    2 * Real.pi * (Beams.absIndex c.pulses b.trend b.angles.length j : ℤ) / c.pulses

/-- Beam `j` of the burst, made with the approximate method, sees the point, at most half a beam beside
its direction; the other conditions are those of `Sees`. -/
def SeesNearby (c : Conf) (s : Surf) (b : L1A) (j : ℕ) (A : ℂ) : Prop :=
  j < c.pulses ∧ ∃ θ, b.angles[j]? = some θ ∧ 0 < θ ∧ θ < Real.pi ∧
    PointEcho c s b θ A ∧ Azimuth.TrendOk c.pulses (azBurst c b) ∧
    (∀ a, Azimuth.nadirAngle c.pulses b.trend b.angles = .ok a → |miss c b j θ a| ≤ Real.pi / c.pulses) ∧
    |position c s b θ| < ((c.samples : ℝ) - 1) / 2 ∧
    AngleAccepts (maskConf c) (Real.pi / 2 + b.doppler - θ)

/-! ## Lemmas -/

/-- Sum of the windowed pulses, each turned by `δ` against the one before. -/
noncomputable def pulseSum (c : Conf) (δ : ℝ) : ℂ :=
  ∑ p ∈ range c.pulses, (c.window p : ℂ) * Complex.exp (Complex.I * (δ * p : ℝ))

/-- The amplitude of the echo in a beam that misses it by `δ`. -/
noncomputable def missAmp (c : Conf) (s : Surf) (b : L1A) (A : ℂ) (δ : ℝ) : ℂ :=
  A * Complex.exp (-(Complex.I * (2 * Real.pi * (2 * distance s b / c.wavelength) : ℝ))) *
    pulseSum c δ / (Real.sqrt c.pulses : ℝ)

theorem missAmp_sq (c : Conf) (s : Surf) (b : L1A) (A : ℂ) (δ : ℝ) :
    ‖missAmp c s b A δ‖ ^ 2 = ‖A‖ ^ 2 * (‖pulseSum c δ‖ ^ 2 / c.pulses) := by
  unfold missAmp
  have h : ‖Complex.exp (-(Complex.I * (2 * Real.pi * (2 * distance s b / c.wavelength) : ℝ)))‖ = 1 := by
    rw [show (-(Complex.I * ((2 * Real.pi * (2 * distance s b / c.wavelength) : ℝ) : ℂ)) : ℂ) =
      ((-(2 * Real.pi * (2 * distance s b / c.wavelength)) : ℝ) : ℂ) * Complex.I by push_cast; ring,
      Complex.norm_exp_ofReal_mul_I]
  rw [norm_div, norm_mul, norm_mul, h, Complex.norm_real, mul_one, div_pow, mul_pow,
    Real.norm_eq_abs, sq_abs, Real.sq_sqrt (by positivity)]
  ring

theorem focussed_miss (c : Conf) (s : Surf) (b : L1A) (θ a : ℝ) (A : ℂ) (f : ℤ)
    (h : PointEcho c s b θ A) :
    FocussedAt c s b θ (missAmp c s b A (4 * Real.pi / c.wavelength * b.velocity * b.pri *
        (Real.cos θ - Real.cos a) - 2 * Real.pi * f / c.pulses))
      (Azimuth.focussed c.pulses (azBurst c b).factor a (fun p i => b.wfm p i * (c.window p : ℂ)) f) := by
  intro i hi
  unfold Azimuth.focussed missAmp pulseSum
  rw [div_mul_eq_mul_div]
  congr 1
  rw [mul_sum, sum_mul]
  apply sum_congr rfl
  intro p hp
  dsimp only
  rw [h p i (mem_range.1 hp) hi]
  unfold twiddle
  set δ : ℝ := 4 * Real.pi / c.wavelength * b.velocity * b.pri * (Real.cos θ - Real.cos a) -
    2 * Real.pi * f / c.pulses with hδ
  have e : Complex.exp (-(Complex.I * (((azBurst c b).factor * Real.cos a * p : ℝ) : ℂ))) *
      Complex.exp (-(Complex.I * ((2 * Real.pi * (2 * (distance s b - b.velocity * Real.cos θ * (b.pri * p)) /
        c.wavelength) : ℝ) : ℂ))) *
      Complex.exp (-(2 * Real.pi * Complex.I * (((f : ℤ) : ℂ) * ((p : ℤ) : ℂ) / (c.pulses : ℂ)))) =
      Complex.exp (-(Complex.I * ((2 * Real.pi * (2 * distance s b / c.wavelength) : ℝ) : ℂ))) *
        Complex.exp (Complex.I * ((δ * p : ℝ) : ℂ)) := by
    rw [← Complex.exp_add, ← Complex.exp_add, ← Complex.exp_add]
    congr 1
    have e2 : (azBurst c b).factor = 4 * Real.pi / c.wavelength * b.velocity * b.pri := rfl
    have e1 : (azBurst c b).factor * Real.cos a * p +
        2 * Real.pi * (2 * (distance s b - b.velocity * Real.cos θ * (b.pri * p)) / c.wavelength) +
        2 * Real.pi * (f * p / c.pulses) = 2 * Real.pi * (2 * distance s b / c.wavelength) - δ * p := by
      rw [e2, hδ]
      ring
    have e3 := congrArg (fun x : ℝ => -(Complex.I * (x : ℂ))) e1
    have e4 : -(Complex.I * ((2 * Real.pi * (2 * distance s b / c.wavelength) - δ * p : ℝ) : ℂ)) =
        -(Complex.I * ((2 * Real.pi * (2 * distance s b / c.wavelength) : ℝ) : ℂ)) +
          Complex.I * ((δ * p : ℝ) : ℂ) := by
      push_cast; ring
    rw [← e4, ← e3]
    push_cast
    ring
  calc _ = A * (Complex.exp (-(Complex.I * (((azBurst c b).factor * Real.cos a * p : ℝ) : ℂ))) *
      Complex.exp (-(Complex.I * ((2 * Real.pi * (2 * (distance s b - b.velocity * Real.cos θ * (b.pri * p)) /
        c.wavelength) : ℝ) : ℂ))) *
      Complex.exp (-(2 * Real.pi * Complex.I * (((f : ℤ) : ℂ) * ((p : ℤ) : ℂ) / (c.pulses : ℂ))))) *
      (c.window p : ℂ) *
      Complex.exp (Complex.I * ((2 * Real.pi * (position c s b θ * i / c.samples) : ℝ) : ℂ)) := by ring
    _ = _ := by rw [e]; ring

/-- The sum of pulses of equal weight, turned by up to half a beam, keeps 2/π of its length. -/
theorem pulseSum_bounds (c : Conf) (δ : ℝ) (hn : 0 < c.pulses) (hw : ∀ p < c.pulses, c.window p = 1)
    (hδ : |δ| ≤ Real.pi / c.pulses) :
    2 / Real.pi * c.pulses ≤ ‖pulseSum c δ‖ ∧ ‖pulseSum c δ‖ ≤ c.pulses := by
  have hN : (0 : ℝ) < c.pulses := by exact_mod_cast hn
  have hpi := Real.pi_pos
  have hS : pulseSum c δ = ∑ p ∈ range c.pulses, Complex.exp (Complex.I * (δ : ℝ)) ^ p := by
    unfold pulseSum
    apply sum_congr rfl
    intro p hp
    rw [hw p (mem_range.1 hp), ← Complex.exp_nat_mul]
    push_cast
    rw [one_mul]
    congr 1
    ring
  constructor
  · rcases eq_or_ne δ 0 with rfl | hd
    · rw [hS]
      simp only [Complex.ofReal_zero, mul_zero, Complex.exp_zero, one_pow, sum_const, card_range,
        nsmul_eq_mul, mul_one, Complex.norm_natCast]
      have : 2 / Real.pi ≤ 1 := by
        rw [div_le_one hpi]; exact Real.two_le_pi
      nlinarith
    · have key : ‖pulseSum c δ‖ * (2 * |Real.sin (δ / 2)|) = 2 * |Real.sin (c.pulses * δ / 2)| := by
        have e : pulseSum c δ * (Complex.exp (Complex.I * (δ : ℝ)) - 1) =
            Complex.exp (Complex.I * ((c.pulses * δ : ℝ) : ℂ)) - 1 := by
          rw [hS, geom_sum_mul, ← Complex.exp_nat_mul]
          push_cast
          congr 2
          ring
        have := congrArg norm e
        rw [norm_mul, Complex.norm_exp_I_mul_ofReal_sub_one, Complex.norm_exp_I_mul_ofReal_sub_one] at this
        simpa [abs_mul] using this
      have habs : 0 < |δ| := abs_pos.2 hd
      have hNd : c.pulses * |δ| ≤ Real.pi := by
        rw [le_div_iff₀ hN] at hδ; linarith
      -- lower bound of the right side
      have hJ : 2 / Real.pi * (c.pulses * |δ| / 2) ≤ |Real.sin (c.pulses * δ / 2)| := by
        have h1 := Real.mul_le_sin (x := c.pulses * |δ| / 2) (by positivity) (by linarith)
        have h2 : |Real.sin (c.pulses * δ / 2)| = Real.sin (c.pulses * |δ| / 2) := by
          rcases abs_cases δ with ⟨h, _⟩ | ⟨h, _⟩
          · rw [h, abs_of_nonneg]
            rw [← h]
            exact Real.sin_nonneg_of_nonneg_of_le_pi (by positivity) (by linarith)
          · rw [h, show c.pulses * (-δ) / 2 = -(c.pulses * δ / 2) by ring, Real.sin_neg, abs_of_nonpos]
            have := Real.sin_nonneg_of_nonneg_of_le_pi (x := c.pulses * |δ| / 2) (by positivity) (by linarith)
            rw [h, show c.pulses * (-δ) / 2 = -(c.pulses * δ / 2) by ring, Real.sin_neg] at this
            linarith
        rw [h2]; exact h1
      have hs : |Real.sin (δ / 2)| ≤ |δ| / 2 := by
        have := Real.abs_sin_le_abs (x := δ / 2)
        rw [abs_div, abs_two] at this
        exact this
      have h3 : 2 / Real.pi * c.pulses * |δ| ≤ ‖pulseSum c δ‖ * |δ| := by
        have : ‖pulseSum c δ‖ * (2 * |Real.sin (δ / 2)|) ≤ ‖pulseSum c δ‖ * (2 * (|δ| / 2)) :=
          mul_le_mul_of_nonneg_left (by linarith) (norm_nonneg _)
        nlinarith
      exact le_of_mul_le_mul_right h3 habs
  · rw [hS]
    refine (norm_sum_le _ _).trans ?_
    have : ∀ p ∈ range c.pulses, ‖Complex.exp (Complex.I * (δ : ℝ)) ^ p‖ = 1 := by
      intro p _
      rw [norm_pow, mul_comm, Complex.norm_exp_ofReal_mul_I, one_pow]
    rw [sum_congr rfl this]
    simp

/-! ## C109 -/

/-- **C109.**  With the approximate azimuth method and no azimuth window, looks that miss the point by at
most half a beam cost at most a factor 4/π² (3.9 dB) of the power that the exact method gives (C107),
and never add to it; the echo stays in the centre of the waveform. -/
theorem approximate_loss_bounded (argsort : List ℝ → List ℕ) (ha : IsArgsort argsort) (round : ℝ → ℤ)
    (hround : ∀ x, |(round x : ℝ) - x| ≤ 1 / 2) (junk : ℕ → ℂ) (c : Conf) (bursts : ℕ → L1A) (s : Surf)
    (prev : ℕ) (looks : Looks) (A : ℕ → ℂ)
    (hn : 0 < c.pulses) (hs2 : 2 ≤ c.samples) (hz : 0 < c.zp) (hl : 1 ≤ c.looks) (hc : c.c ≠ 0)
    (hd : c.dopplerOn = true) (hs : c.slantOn = true) (hm : c.exactMethod = false)
    (hw : ∀ p < c.pulses, c.window p = 1) (hne : looks ≠ []) (hmin : c.looks / 2 ≤ looks.length)
    (h : ∀ l ∈ looks, SeesNearby c s (bursts l.2.2) l.1 (A l.2.2)) (power : ℝ) (hp : 0 < power)
    (hA : ∀ l ∈ looks, ‖A l.2.2‖ ^ 2 = power) :
    ∃ r x, surface argsort round junk c bursts s prev looks = .ok (some r) ∧
      r.out.waveform[c.zp * c.samples / 2]? = some (some x) ∧
      4 / Real.pi ^ 2 * (power * gain c) ≤ x ∧ x ≤ power * gain c ∧
      ∀ k y, r.out.waveform[k]? = some (some y) → k ≠ c.zp * c.samples / 2 → y < power * gain c := by
  have hN : (0 : ℝ) < c.pulses := by exact_mod_cast hn
  have hpi := Real.pi_pos
  have hsum : ∑ p ∈ range c.pulses, c.window p = c.pulses := by
    rw [sum_congr rfl (fun p hp' => hw p (mem_range.1 hp'))]; simp
  have hg : gain c = c.pulses * (c.samples / c.zp) := by
    unfold gain
    rw [hsum]
    field_simp
  obtain ⟨r, x, h1, h2, h3, h4, h5⟩ := focussed_peaks argsort ha round hround junk c bursts s prev looks
    hs2 hz hl hc hd hs hne hmin (4 / Real.pi ^ 2 * (power * c.pulses)) (power * c.pulses)
    (by
      intro l hl'
      obtain ⟨hj, θ, ht, h0, h0', he, htr, hmiss, hw', hacc⟩ := h l hl'
      have hlt : l.1 < (bursts l.2.2).angles.length := (List.getElem?_eq_some_iff.1 ht).1
      have hne' : (azBurst c (bursts l.2.2)).angles ≠ [] := by
        intro h0
        have : (bursts l.2.2).angles = [] := h0
        simp [this] at hlt
      obtain ⟨a, beams, b1, b2, b3⟩ := Azimuth.approximate_row c.pulses (azBurst c (bursts l.2.2))
        (fun p i => (bursts l.2.2).wfm p i * (c.window p : ℂ)) htr hne'
      obtain ⟨row, b4, b5⟩ := b3 l.1 hlt
      have hfoc := focussed_miss c s (bursts l.2.2) θ a (A l.2.2)
        (Beams.absIndex c.pulses (bursts l.2.2).trend (bursts l.2.2).angles.length l.1) he
      have hb := pulseSum_bounds c _ hn hw (hmiss a b1)
      refine ⟨hj, θ, ht, h0, h0', ⟨beams, row,
        missAmp c s (bursts l.2.2) (A l.2.2) (miss c (bursts l.2.2) l.1 θ a), ?_, b4, ?_, ?_, ?_⟩, hw', hacc⟩
      · unfold azimuth
        simp only [hm]
        exact b2
      · intro i hi
        rw [b5]
        exact hfoc i hi
      · rw [missAmp_sq, hA l hl']
        have : (2 / Real.pi * c.pulses) ^ 2 ≤ ‖pulseSum c (miss c (bursts l.2.2) l.1 θ a)‖ ^ 2 :=
          pow_le_pow_left₀ (by positivity) hb.1 2
        have h' : 4 / Real.pi ^ 2 * c.pulses ≤
            ‖pulseSum c (miss c (bursts l.2.2) l.1 θ a)‖ ^ 2 / c.pulses := by
          rw [le_div_iff₀ hN]
          calc _ = (2 / Real.pi * c.pulses) ^ 2 := by ring
            _ ≤ _ := this
        nlinarith
      · rw [missAmp_sq, hA l hl']
        have : ‖pulseSum c (miss c (bursts l.2.2) l.1 θ a)‖ ^ 2 ≤ (c.pulses : ℝ) ^ 2 :=
          pow_le_pow_left₀ (norm_nonneg _) hb.2 2
        have h' : ‖pulseSum c (miss c (bursts l.2.2) l.1 θ a)‖ ^ 2 / c.pulses ≤ c.pulses := by
          rw [div_le_iff₀ hN]
          calc _ ≤ (c.pulses : ℝ) ^ 2 := this
            _ = _ := by ring
        nlinarith)
  refine ⟨r, x, h1, h2, ?_, ?_, ?_⟩
  · rw [hg]
    calc _ = 4 / Real.pi ^ 2 * (power * c.pulses) * (c.samples / c.zp) := by ring
      _ ≤ x := h3
  · rw [hg]
    calc x ≤ power * c.pulses * (c.samples / c.zp) := h4
      _ = _ := by ring
  · intro k y hk hkne
    rw [hg]
    calc y < power * c.pulses * (c.samples / c.zp) := (h5 k y hk hkne).2 (by positivity)
      _ = _ := by ring

/-! ## A case: half a beam beside the point -/

/-- The first burst of `demoBurst`, from a satellite of half the velocity: its beam 0 points at the point
only with the exact method, and misses it by half a beam with the approximate one. -/
noncomputable def slowBurst (A : ℂ) : L1A := { demoBurst A 0 with velocity := 1 / 2 }

theorem slow_position (exact : Bool) (A : ℂ) :
    position (demoConf exact) demoSurf (slowBurst A) (Real.pi / 2) = 0 := by
  unfold position delay dopplerFreq distance
  simp only [slowBurst, demoBurst, demoConf, demoAngle, if_true, Real.cos_pi_div_two]
  push_cast
  ring

theorem slow_echo (exact : Bool) (A : ℂ) :
    PointEcho (demoConf exact) demoSurf (slowBurst A) (Real.pi / 2) A := by
  intro p i _ _
  rw [slow_position]
  simp only [slowBurst, demoBurst, demoConf, demoAngle, if_true, Real.cos_pi_div_two, distance]
  push_cast
  simp

theorem slow_nadir (A : ℂ) (a : ℝ)
    (ha : Azimuth.nadirAngle 2 (slowBurst A).trend (slowBurst A).angles = .ok a) : a = Real.pi / 3 := by
  simpa [Azimuth.nadirAngle, Azimuth.nadirIndex, Azimuth.pyIndex, slowBurst, demoBurst] using ha.symm

theorem slow_miss (exact : Bool) (A : ℂ) :
    miss (demoConf exact) (slowBurst A) 0 (Real.pi / 2) (Real.pi / 3) = Real.pi / 2 := by
  unfold miss
  simp only [slowBurst, demoBurst, demoConf, Real.cos_pi_div_two, Real.cos_pi_div_three, Beams.absIndex]
  norm_num
  ring

theorem slow_accepts (exact : Bool) (A : ℂ) :
    AngleAccepts (maskConf (demoConf exact)) (Real.pi / 2 + (slowBurst A).doppler - Real.pi / 2) := by
  intro lo hi hlo hhi
  simp only [maskConf, demoConf, Option.some.injEq] at hlo hhi
  subst hlo; subst hhi
  simp [slowBurst, demoBurst]

theorem slow_nearby (A : ℂ) : SeesNearby (demoConf false) demoSurf (slowBurst A) 0 A := by
  have hpi := Real.pi_pos
  refine ⟨by simp [demoConf], Real.pi / 2, by simp [slowBurst, demoBurst], by linarith, by linarith,
    slow_echo false A, by simp [Azimuth.TrendOk, azBurst, slowBurst, demoBurst, demoConf], ?_, ?_,
    slow_accepts false A⟩
  · intro a ha
    have := slow_nadir A a ha
    subst this
    rw [slow_miss, abs_of_pos (by linarith)]
    simp [demoConf]
  · rw [slow_position]
    simp [demoConf]

theorem slow_focuses (exact : Bool) (A : ℂ) :
    Focuses (demoConf exact) demoSurf (slowBurst A) 0 (‖A‖ ^ 2 * if exact then 2 else 1)
      (‖A‖ ^ 2 * if exact then 2 else 1) := by
  have hpi := Real.pi_pos
  refine ⟨by simp [demoConf], Real.pi / 2, by simp [slowBurst, demoBurst], by linarith, by linarith,
    ?_, ?_, slow_accepts exact A⟩
  · cases exact
    · have htr : Azimuth.TrendOk 2 (azBurst (demoConf false) (slowBurst A)) := by
        simp [Azimuth.TrendOk, azBurst, slowBurst, demoBurst, demoConf]
      obtain ⟨a, beams, b1, b2, b3⟩ := Azimuth.approximate_row 2 (azBurst (demoConf false) (slowBurst A))
        (fun p i => (slowBurst A).wfm p i * ((demoConf false).window p : ℂ)) htr
        (by simp [azBurst, slowBurst, demoBurst])
      obtain ⟨row, b4, b5⟩ := b3 0 (by simp [azBurst, slowBurst, demoBurst])
      have := slow_nadir A a b1
      subst this
      have hfoc := focussed_miss (demoConf false) demoSurf (slowBurst A) (Real.pi / 2) (Real.pi / 3) A
        (Beams.absIndex 2 (slowBurst A).trend (slowBurst A).angles.length 0) (slow_echo false A)
      have hsq : ‖missAmp (demoConf false) demoSurf (slowBurst A) A
          (miss (demoConf false) (slowBurst A) 0 (Real.pi / 2) (Real.pi / 3))‖ ^ 2 = ‖A‖ ^ 2 := by
        rw [slow_miss, missAmp_sq]
        have : pulseSum (demoConf false) (Real.pi / 2) = 1 + Complex.I := by
          unfold pulseSum
          simp only [demoConf, sum_range_succ, sum_range_zero]
          have : Complex.exp (Complex.I * ((Real.pi / 2 * ((1 : ℕ) : ℝ) : ℝ) : ℂ)) = Complex.I := by
            rw [mul_comm]
            push_cast
            rw [mul_one]
            exact Complex.exp_pi_div_two_mul_I
          rw [this]
          simp
        rw [this, ← Complex.normSq_eq_norm_sq (1 + Complex.I)]
        simp [Complex.normSq_apply, demoConf]
      refine ⟨beams, row, missAmp (demoConf false) demoSurf (slowBurst A) A
        (miss (demoConf false) (slowBurst A) 0 (Real.pi / 2) (Real.pi / 3)), b2, b4, ?_, ?_, ?_⟩
      · intro i hi
        rw [b5]
        exact hfoc i hi
      · rw [hsq]; simp
      · rw [hsq]; simp
    · obtain ⟨beams, row, b1, b2, b3⟩ := azimuth_sees (demoConf true) demoSurf (slowBurst A) 0 A (Real.pi / 2)
        (by simp [demoConf]) (by simp [slowBurst, demoBurst]) (slow_echo true A) (Or.inl rfl)
      have hsq : ‖focusAmp (demoConf true) demoSurf (slowBurst A) A‖ ^ 2 = ‖A‖ ^ 2 * 2 := by
        rw [focusAmp_sq]
        simp [demoConf]
        norm_num
      exact ⟨beams, row, _, b1, b2, b3, by rw [hsq]; simp, by rw [hsq]; simp⟩
  · rw [slow_position]
    simp [demoConf]

/-- **C109**: the loss is real.  Half a beam beside the point, with two pulses, the approximate method gives
half the power of the exact one. -/
theorem approximate_loses (exact : Bool) (argsort : List ℝ → List ℕ) (ha : IsArgsort argsort) (A : ℂ) :
    ∃ r, surface argsort (fun x => ⌊x + 1 / 2⌋) (fun _ => 0) (demoConf exact) (fun _ => slowBurst A) demoSurf 0
        [(0, 0, 0)] = .ok (some r) ∧
      r.out.waveform[8]? = some (some (‖A‖ ^ 2 * if exact then 8 else 4)) := by
  obtain ⟨r, x, h1, h2, h3, h4, _⟩ := focussed_peaks argsort ha (fun x => ⌊x + 1 / 2⌋)
    (by
      intro x
      have h1 := Int.floor_le (x + 1 / 2)
      have h2 := Int.lt_floor_add_one (x + 1 / 2)
      rw [abs_le]; constructor <;> linarith)
    (fun _ => 0) (demoConf exact) (fun _ => slowBurst A) demoSurf 0 [(0, 0, 0)]
    (by simp [demoConf]) (by simp [demoConf]) (by simp [demoConf]) (by simp [demoConf])
    rfl rfl (by simp) (by simp [demoConf]) (‖A‖ ^ 2 * if exact then 2 else 1)
    (‖A‖ ^ 2 * if exact then 2 else 1)
    (by
      intro l hl
      simp only [List.mem_cons, List.not_mem_nil, or_false] at hl
      subst hl
      exact slow_focuses exact A)
  have hc : (demoConf exact).zp * (demoConf exact).samples / 2 = 8 := by simp [demoConf]
  rw [hc] at h2
  refine ⟨r, h1, ?_⟩
  rw [h2]
  have : x = ‖A‖ ^ 2 * (if exact then 2 else 1) * (8 / 2) := by
    simp only [demoConf, Nat.cast_ofNat] at h3 h4
    exact le_antisymm h4 h3
  rw [this]
  congr 2
  cases exact
  · simp only [Bool.false_eq_true, if_false]; ring
  · simp only [if_true]; ring

/-- The hypotheses of `approximate_loss_bounded` hold for it, and its bound is 4/π² · 8 < 4 ≤ 8. -/
example (argsort : List ℝ → List ℕ) (ha : IsArgsort argsort) (A : ℂ) (hA : A ≠ 0) :
    ∃ r x, surface argsort (fun x => ⌊x + 1 / 2⌋) (fun _ => 0) (demoConf false) (fun _ => slowBurst A) demoSurf
        0 [(0, 0, 0)] = .ok (some r) ∧
      r.out.waveform[(demoConf false).zp * (demoConf false).samples / 2]? = some (some x) ∧
      4 / Real.pi ^ 2 * (‖A‖ ^ 2 * gain (demoConf false)) ≤ x ∧ x ≤ ‖A‖ ^ 2 * gain (demoConf false) := by
  obtain ⟨r, x, h1, h2, h3, h4, _⟩ := approximate_loss_bounded argsort ha (fun x => ⌊x + 1 / 2⌋)
    (by
      intro x
      have h1 := Int.floor_le (x + 1 / 2)
      have h2 := Int.lt_floor_add_one (x + 1 / 2)
      rw [abs_le]; constructor <;> linarith)
    (fun _ => 0) (demoConf false) (fun _ => slowBurst A) demoSurf 0 [(0, 0, 0)] (fun _ => A)
    (by simp [demoConf]) (by simp [demoConf]) (by simp [demoConf]) (by simp [demoConf]) (by simp [demoConf])
    rfl rfl rfl (by simp [demoConf]) (by simp) (by simp [demoConf])
    (by
      intro l hl
      simp only [List.mem_cons, List.not_mem_nil, or_false] at hl
      subst hl
      exact slow_nearby A)
    (‖A‖ ^ 2) (by positivity) (by simp)
  exact ⟨r, x, h1, h2, h3, h4⟩

end Dedop.Chain
