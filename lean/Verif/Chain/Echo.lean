import Verif.Chain.Model
import Verif.Azimuth.Props
import Verif.Signal.RangeProps

/-! # Echo of a point: focussing, alignment and compression of one look (C107, lemmas) -/
namespace Dedop.Chain

open Finset Signal

/-! ## Specification -/

/-- Distance between the satellite and the surface. -/
noncomputable def distance (s : Surf) (b : L1A) : ℝ :=
  dist (WithLp.toLp 2 b.sat : EuclideanSpace ℝ (Fin 3)) (WithLp.toLp 2 s.pos)

/-- Doppler frequency of an echo from a direction at angle `θ` to the velocity. -/
noncomputable def dopplerFreq (c : Conf) (b : L1A) (θ : ℝ) : ℝ := 2 * (b.velocity * Real.cos θ) / c.wavelength

/-- Apparent delay of the echo of the surface: travel time there and back, plus the Doppler frequency
divided by the slope of the chirp. -/
noncomputable def delay (c : Conf) (s : Surf) (b : L1A) (θ : ℝ) : ℝ :=
  2 * distance s b / c.c + dopplerFreq c b θ / (c.bandwidth / c.pulseLength)

/-- Position of the echo in the window of the burst, in samples. -/
noncomputable def position (c : Conf) (s : Surf) (b : L1A) (θ : ℝ) : ℝ :=
  (delay c s b θ - b.winDelay) / b.t0

/-- The burst holds the echo, with amplitude `A`, of a point at the surface, seen at angle `θ` to the
velocity.  From pulse to pulse the distance shrinks by the velocity towards the point times the pulse
interval, and the phase of the echo is that of twice the distance; within a pulse (the signal is
deramped) the position in the window is a frequency.  The point does not move in the window during the
burst. -/
def PointEcho (c : Conf) (s : Surf) (b : L1A) (θ : ℝ) (A : ℂ) : Prop :=
  ∀ p i, p < c.pulses → i < c.samples →
    b.wfm p i = A *
      Complex.exp (-(Complex.I *
        (2 * Real.pi * (2 * (distance s b - b.velocity * Real.cos θ * (b.pri * p)) / c.wavelength) : ℝ))) *
      Complex.exp (Complex.I * (2 * Real.pi * (position c s b θ * i / c.samples) : ℝ))

/-- Gain in power from a pulse to a sample of the compressed look: coherent sum of the windowed pulses
and of the samples. -/
noncomputable def gain (c : Conf) : ℝ :=
  (∑ p ∈ range c.pulses, c.window p) ^ 2 / c.pulses * (c.samples / c.zp)

/-! ## Lemmas -/

/-- The focussed beam of a point echo: a complex exponential at the position of the echo. -/
def FocussedAt (c : Conf) (s : Surf) (b : L1A) (θ : ℝ) (B : ℂ) (beam : ℕ → ℂ) : Prop :=
  ∀ i < c.samples,
    beam i = B * Complex.exp (Complex.I * (2 * Real.pi * (position c s b θ * i / c.samples) : ℝ))

/-- The amplitude of the focussed beam. -/
noncomputable def focusAmp (c : Conf) (s : Surf) (b : L1A) (A : ℂ) : ℂ :=
  A * Complex.exp (-(Complex.I * (2 * Real.pi * (2 * distance s b / c.wavelength) : ℝ))) *
    ((∑ p ∈ range c.pulses, c.window p : ℝ) : ℂ) / (Real.sqrt c.pulses : ℝ)

theorem focusAmp_sq (c : Conf) (s : Surf) (b : L1A) (A : ℂ) :
    ‖focusAmp c s b A‖ ^ 2 = ‖A‖ ^ 2 * ((∑ p ∈ range c.pulses, c.window p) ^ 2 / c.pulses) := by
  unfold focusAmp
  have h : ‖Complex.exp (-(Complex.I * (2 * Real.pi * (2 * distance s b / c.wavelength) : ℝ)))‖ = 1 := by
    rw [show (-(Complex.I * ((2 * Real.pi * (2 * distance s b / c.wavelength) : ℝ) : ℂ)) : ℂ) =
      ((-(2 * Real.pi * (2 * distance s b / c.wavelength)) : ℝ) : ℂ) * Complex.I by push_cast; ring,
      Complex.norm_exp_ofReal_mul_I]
  rw [norm_div, norm_mul, norm_mul, h, Complex.norm_real, Complex.norm_real, mul_one, div_pow, mul_pow,
    Real.norm_eq_abs, Real.norm_eq_abs, sq_abs, sq_abs, Real.sq_sqrt (by positivity)]
  ring

/-- Coherent sum of the pulses steered to the direction of the point, at azimuth frequency `f`, when the
steering angle `a` and the frequency together are the direction of the point. -/
theorem focussed_point (c : Conf) (s : Surf) (b : L1A) (θ a : ℝ) (A : ℂ) (f : ℤ)
    (h : PointEcho c s b θ A)
    (hf : (azBurst c b).factor * Real.cos a + 2 * Real.pi * f / c.pulses =
      (azBurst c b).factor * Real.cos θ) :
    FocussedAt c s b θ (focusAmp c s b A)
      (Azimuth.focussed c.pulses (azBurst c b).factor a (fun p i => b.wfm p i * (c.window p : ℂ)) f) := by
  intro i hi
  unfold Azimuth.focussed focusAmp
  rw [div_mul_eq_mul_div]
  congr 1
  rw [Complex.ofReal_sum, mul_sum, sum_mul]
  apply sum_congr rfl
  intro p hp
  dsimp only
  rw [h p i (mem_range.1 hp) hi]
  unfold twiddle
  have hn : (c.pulses : ℝ) ≠ 0 := by
    have := mem_range.1 hp
    have : c.pulses ≠ 0 := by omega
    exact_mod_cast this
  have e : Complex.exp (-(Complex.I * (((azBurst c b).factor * Real.cos a * p : ℝ) : ℂ))) *
      Complex.exp (-(Complex.I * ((2 * Real.pi * (2 * (distance s b - b.velocity * Real.cos θ * (b.pri * p)) /
        c.wavelength) : ℝ) : ℂ))) *
      Complex.exp (-(2 * Real.pi * Complex.I * (((f : ℤ) : ℂ) * ((p : ℤ) : ℂ) / (c.pulses : ℂ)))) =
      Complex.exp (-(Complex.I * ((2 * Real.pi * (2 * distance s b / c.wavelength) : ℝ) : ℂ))) := by
    rw [← Complex.exp_add, ← Complex.exp_add]
    congr 1
    have e1 : (azBurst c b).factor * Real.cos a * p +
        2 * Real.pi * (2 * (distance s b - b.velocity * Real.cos θ * (b.pri * p)) / c.wavelength) +
        2 * Real.pi * (f * p / c.pulses) = 2 * Real.pi * (2 * distance s b / c.wavelength) := by
      have e2 : (azBurst c b).factor = 4 * Real.pi / c.wavelength * b.velocity * b.pri := rfl
      have : (azBurst c b).factor * Real.cos a * p + 2 * Real.pi * (f * p / c.pulses) =
          (azBurst c b).factor * Real.cos θ * p := by
        rw [← hf]; ring
      rw [e2] at this
      rw [e2]
      linear_combination this
    have e3 := congrArg (fun x : ℝ => -(Complex.I * (x : ℂ))) e1
    rw [← e3]
    push_cast
    ring
  rw [← e]
  ring

/-- The corrections bring the echo of a point at the surface to position zero. -/
theorem aligned (c : Conf) (s : Surf) (b : L1A) (row : Stack.Row ℝ (ℕ → ℂ)) (B : ℂ)
    (hd : c.dopplerOn = true) (hs : c.slantOn = true) (hc : c.c ≠ 0) (ht : row.t0 = b.t0)
    (h : FocussedAt c s b row.beamAngle B row.beam) :
    totalShift (geo c s b row) = - position c s b row.beamAngle ∧
    ∀ i < c.samples, applyShift c.samples (totalShift (geo c s b row)) row.beam i = B := by
  have key : totalShift (geo c s b row) = - position c s b row.beamAngle := by
    have hr : rangeSatSurf (geo c s b row) = distance s b := by
      rw [slant_range_is_distance]; rfl
    unfold totalShift dopplerCorrection slantCorrection winDelayCorrection
    rw [hr]
    simp only [geo, hd, hs, if_true, ht]
    unfold position delay dopplerFreq
    rw [div_div_eq_mul_div]
    by_cases hl : c.wavelength = 0
    · simp [hl]; ring
    by_cases hb : c.bandwidth = 0
    · simp [hb]; ring
    by_cases h0 : b.t0 = 0
    · simp [h0]
    field_simp
    ring
  refine ⟨key, ?_⟩
  intro i hi
  unfold applyShift
  rw [key, h i hi, mul_left_comm, ← Complex.exp_add]
  have : (2 * Complex.I * Real.pi / c.samples * ((- position c s b row.beamAngle : ℝ) : ℂ) * i +
      Complex.I * ((2 * Real.pi * (position c s b row.beamAngle * i / c.samples) : ℝ) : ℂ) : ℂ) = 0 := by
    push_cast; ring
  rw [this, Complex.exp_zero, mul_one]

theorem compress_eq (zp ns : ℕ) (hz : 0 < zp) (beam : ℕ → ℂ) (B : ℂ) (h : ∀ i < ns, beam i = B) (k : ℕ)
    (hk : k < zp * ns) :
    compress zp ns beam k =
      ‖B‖ ^ 2 * ‖∑ i ∈ range ns, twiddle (zp * ns) ((k : ℤ) - (zp * ns / 2 : ℕ)) i‖ ^ 2 / (zp * ns) := by
  unfold compress compressIq
  rw [fftshift_dft _ _ _ hk,
    sum_pad zp ns hz _ (fun i z => z * twiddle (zp * ns) ((k : ℤ) - (zp * ns / 2 : ℕ)) i) (by simp)]
  have : ∑ i ∈ range ns, beam i * twiddle (zp * ns) ((k : ℤ) - (zp * ns / 2 : ℕ)) i =
      B * ∑ i ∈ range ns, twiddle (zp * ns) ((k : ℤ) - (zp * ns / 2 : ℕ)) i := by
    rw [mul_sum]
    exact sum_congr rfl (fun i hi => by rw [h i (mem_range.1 hi)])
  rw [this, norm_div, norm_mul, div_pow, mul_pow, Complex.norm_real, Real.norm_eq_abs, sq_abs,
    Real.sq_sqrt (by positivity)]
  push_cast
  rfl

/-- The sample of position zero of a constant beam. -/
theorem compress_centre (zp ns : ℕ) (hz : 0 < zp) (hn : 0 < ns) (beam : ℕ → ℂ) (B : ℂ)
    (h : ∀ i < ns, beam i = B) :
    compress zp ns beam (zp * ns / 2) = ‖B‖ ^ 2 * (ns / zp) := by
  have hP : 0 < zp * ns := Nat.mul_pos hz hn
  rw [compress_eq zp ns hz beam B h _ (Nat.div_lt_self hP (by omega))]
  simp only [sub_self, twiddle_zero_left, sum_const, card_range, nsmul_eq_mul, mul_one,
    Complex.norm_natCast]
  have : (ns : ℝ) ≠ 0 := by exact_mod_cast hn.ne'
  have : (zp : ℝ) ≠ 0 := by exact_mod_cast hz.ne'
  field_simp

theorem twiddle_one_ne (N : ℕ) (m : ℤ) (h0 : m ≠ 0) (h1 : -(N : ℤ) < m) (h2 : m < N) :
    twiddle N m 1 ≠ 1 := by
  have hN : (N : ℂ) ≠ 0 := by
    have : N ≠ 0 := by omega
    exact_mod_cast this
  unfold twiddle
  intro h
  rw [Complex.exp_eq_one_iff] at h
  obtain ⟨n, hn⟩ := h
  have hpi : (2 * Real.pi * Complex.I : ℂ) ≠ 0 := Complex.two_pi_I_ne_zero
  have e : (m : ℂ) = ((-n * N : ℤ) : ℂ) := by
    have : (2 * Real.pi * Complex.I : ℂ) * (-(m / N) : ℂ) = (2 * Real.pi * Complex.I : ℂ) * (n : ℂ) := by
      rw [mul_comm _ (n : ℂ), ← hn]; push_cast; ring
    have := mul_left_cancel₀ hpi this
    push_cast
    rw [← this]
    field_simp
  have e' : m = -n * N := by exact_mod_cast e
  rcases lt_trichotomy n 0 with h | h | h
  · have : (N : ℤ) ≤ -n * N := by nlinarith
    omega
  · subst h; simp at e'; exact h0 e'
  · have : -n * (N : ℤ) ≤ -N := by nlinarith
    omega

theorem norm_sum_lt (ns : ℕ) (hn : 2 ≤ ns) (z : ℕ → ℂ) (h0 : z 0 = 1) (h1 : z 1 ≠ 1)
    (hz : ∀ i, ‖z i‖ = 1) : ‖∑ i ∈ range ns, z i‖ < ns := by
  obtain ⟨m, rfl⟩ : ∃ m, ns = m + 2 := ⟨ns - 2, by omega⟩
  have e : ∑ i ∈ range (m + 2), z i = (1 + z 1) + ∑ i ∈ range m, z (i + 2) := by
    rw [sum_range_succ', sum_range_succ']
    rw [h0]; ring_nf
  have a1 : ‖(1 : ℂ) + z 1‖ < 2 := by
    have hle : ‖(1 : ℂ) + z 1‖ ≤ 2 := by
      refine (norm_add_le _ _).trans ?_
      rw [hz 1, norm_one]; norm_num
    refine lt_of_le_of_ne hle ?_
    intro heq
    have e1 : Complex.normSq (1 + z 1) = 4 := by
      rw [Complex.normSq_eq_norm_sq, heq]; norm_num
    have e2 : Complex.normSq (z 1) = 1 := by
      rw [Complex.normSq_eq_norm_sq, hz 1]; norm_num
    rw [Complex.normSq_apply] at e1 e2
    simp only [Complex.add_re, Complex.one_re, Complex.add_im, Complex.one_im] at e1
    have hre : (z 1).re = 1 := by linarith
    have him : (z 1).im = 0 := by
      rw [hre] at e2
      have : (z 1).im * (z 1).im = 0 := by linarith
      exact mul_self_eq_zero.1 this
    exact h1 (Complex.ext (by simpa using hre) (by simpa using him))
  have a2 : ‖∑ i ∈ range m, z (i + 2)‖ ≤ m := by
    refine (norm_sum_le _ _).trans ?_
    simp [hz]
  rw [e]
  refine (norm_add_le _ _).trans_lt ?_
  push_cast
  linarith

/-- Every other sample of a constant beam is smaller. -/
theorem compress_off_centre (zp ns : ℕ) (hz : 0 < zp) (hn : 2 ≤ ns) (beam : ℕ → ℂ) (B : ℂ)
    (h : ∀ i < ns, beam i = B) (hB : B ≠ 0) (k : ℕ) (hk : k < zp * ns) (hne : k ≠ zp * ns / 2) :
    compress zp ns beam k < ‖B‖ ^ 2 * (ns / zp) := by
  rw [compress_eq zp ns hz beam B h k hk]
  have hlt := norm_sum_lt ns hn (fun i => twiddle (zp * ns) ((k : ℤ) - (zp * ns / 2 : ℕ)) (i : ℤ))
    (by simp [twiddle])
    (by
      have hh : zp * ns / 2 ≤ zp * ns := Nat.div_le_self _ _
      have := twiddle_one_ne (zp * ns) ((k : ℤ) - (zp * ns / 2 : ℕ)) (by omega) (by omega) (by omega)
      simpa using this)
    (fun i => norm_twiddle _ _ _)
  have hz' : (0 : ℝ) < zp := by exact_mod_cast hz
  have hn' : (0 : ℝ) < ns := by exact_mod_cast (by omega : 0 < ns)
  have hB' : 0 < ‖B‖ ^ 2 := by positivity
  rw [mul_div_assoc]
  apply mul_lt_mul_of_pos_left _ hB'
  rw [div_lt_div_iff₀ (by positivity) hz']
  have : ‖∑ i ∈ range ns, twiddle (zp * ns) ((k : ℤ) - (zp * ns / 2 : ℕ)) (i : ℤ)‖ ^ 2 < (ns : ℝ) ^ 2 :=
    pow_lt_pow_left₀ hlt (norm_nonneg _) (by norm_num)
  nlinarith

end Dedop.Chain
