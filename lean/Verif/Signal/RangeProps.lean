import Verif.Signal.Range
import Mathlib.Analysis.InnerProductSpace.PiL2
import Mathlib.Geometry.Euclidean.Angle.Unoriented.Basic
import Verif.Stack.MaskingProps

/-! # Range compression and geometry corrections (C60, C64) -/
namespace Dedop.Signal

open Finset

theorem sum_pad (zp ns : ℕ) (hz : 0 < zp) (f : ℕ → ℂ) (g : ℕ → ℂ → ℂ) (hg : ∀ i, g i 0 = 0) :
    ∑ i ∈ range (zp * ns), g i (pad ns f i) = ∑ i ∈ range ns, g i (f i) := by
  have hle : ns ≤ zp * ns := Nat.le_mul_of_pos_left _ hz
  rw [← sum_subset (range_mono hle) (fun i _ hi => by
    unfold pad
    rw [if_neg (by simpa using hi), hg])]
  apply sum_congr rfl
  intro i hi
  unfold pad
  rw [if_pos (mem_range.1 hi)]

/-- **C60, energy.**  For every beam and every padding factor the compressed powers add up to the energy
of the beam. -/
theorem compression_preserves_energy (zp ns : ℕ) (hz : 0 < zp) (beam : ℕ → ℂ) :
    ∑ k ∈ range (zp * ns), compress zp ns beam k = ∑ i ∈ range ns, ‖beam i‖ ^ 2 := by
  have h1 : ∑ k ∈ range (zp * ns), compress zp ns beam k =
      ∑ k ∈ range (zp * ns), fftshift (zp * ns) (fun k => ‖dft (zp * ns) (pad ns beam) k‖ ^ 2) k := rfl
  rw [h1, sum_fftshift, parseval]
  have := sum_pad zp ns hz beam (fun _ z => ((‖z‖ ^ 2 : ℝ) : ℂ)) (by simp)
  exact_mod_cast this

/-- **C60, shift.**  The shift is a permutation of the samples: sample `k` of the transform is sample
`(k + P/2) mod P` of the result. -/
theorem compression_shift (zp ns : ℕ) (beam : ℕ → ℂ) (k : ℕ) (hk : k < zp * ns) :
    compressIq zp ns beam ((k + zp * ns / 2) % (zp * ns)) = dft (zp * ns) (pad ns beam) k := by
  unfold compressIq fftshift
  congr 1
  have hle : zp * ns / 2 ≤ zp * ns := Nat.div_le_self _ _
  rw [Nat.mod_add_mod, show k + zp * ns / 2 + (zp * ns - zp * ns / 2) = k + zp * ns by omega,
    Nat.add_mod_right, Nat.mod_eq_of_lt hk]

/-- **C60, padding.**  Zero padding only interpolates: every `zp`-th sample of the transform is the sample
of the transform without padding, divided by `√zp`. -/
theorem padding_interpolates (zp ns : ℕ) (hz : 0 < zp) (beam : ℕ → ℂ) (j : ℕ) :
    dft (zp * ns) (pad ns beam) (zp * j) = dft ns beam j / (Real.sqrt zp : ℝ) := by
  unfold dft
  rw [sum_pad zp ns hz beam (fun i z => z * twiddle (zp * ns) ((zp * j : ℕ) : ℤ) i) (by simp), div_div]
  congr 1
  · apply sum_congr rfl
    intro i _
    congr 1
    unfold twiddle
    congr 1
    have hz' : (zp : ℂ) ≠ 0 := by exact_mod_cast hz.ne'
    push_cast
    rcases Nat.eq_zero_or_pos ns with rfl | hn
    · simp
    · have hn' : (ns : ℂ) ≠ 0 := by exact_mod_cast hn.ne'
      field_simp
  · rw [← Complex.ofReal_mul, ← Real.sqrt_mul (by positivity)]
    congr 2
    push_cast
    ring

/-- **C64, energy.**  The geometry corrections change only phases, whatever the shift. -/
theorem corrections_preserve_modulus (ns : ℕ) (shift : ℝ) (beam : ℕ → ℂ) (i : ℕ) :
    ‖applyShift ns shift beam i‖ = ‖beam i‖ := by
  unfold applyShift
  have : (2 * Complex.I * Real.pi / ns * shift * i : ℂ) =
      ((2 * Real.pi / ns * shift * i : ℝ) : ℂ) * Complex.I := by push_cast; ring
  rw [norm_mul, this, Complex.norm_exp_ofReal_mul_I, one_mul]

/-- No correction, no change. -/
theorem zero_shift (ns : ℕ) (beam : ℕ → ℂ) (i : ℕ) : applyShift ns 0 beam i = beam i := by
  simp [applyShift]

/-- **C64, shift.**  A total shift of a whole number `m` of samples moves the compressed beam by `m * zp`
samples, around the end of the window. -/
theorem integer_shift_moves (zp ns : ℕ) (hz : 0 < zp) (m : ℤ) (beam : ℕ → ℂ) (k : ℕ)
    (hk : k < zp * ns) :
    compressIq zp ns (applyShift ns m beam) k =
      compressIq zp ns beam (((k : ℤ) - m * zp) % ((zp * ns : ℕ) : ℤ)).toNat := by
  have hP : 0 < zp * ns := by omega
  have hn : 0 < ns := Nat.pos_of_mul_pos_left hP
  set k' := (((k : ℤ) - m * zp) % ((zp * ns : ℕ) : ℤ)).toNat with hk'
  have hk'z : (k' : ℤ) = ((k : ℤ) - m * zp) % ((zp * ns : ℕ) : ℤ) := by
    rw [hk']
    exact Int.toNat_of_nonneg (Int.emod_nonneg _ (by omega))
  have hk'lt : k' < zp * ns := by
    have := Int.emod_lt_of_pos ((k : ℤ) - m * zp) (show (0 : ℤ) < ((zp * ns : ℕ) : ℤ) by omega)
    omega
  unfold compressIq
  rw [fftshift_dft _ _ _ hk, fftshift_dft _ _ _ hk'lt]
  congr 1
  rw [sum_pad zp ns hz _ (fun i z => z * twiddle (zp * ns) ((k : ℤ) - (zp * ns / 2 : ℕ)) i) (by simp),
    sum_pad zp ns hz _ (fun i z => z * twiddle (zp * ns) ((k' : ℤ) - (zp * ns / 2 : ℕ)) i) (by simp)]
  apply sum_congr rfl
  intro i _
  -- express k' through k
  have e1 : (k' : ℤ) - (zp * ns / 2 : ℕ) = ((k : ℤ) - (zp * ns / 2 : ℕ) + (-(m * zp))) +
      (-(((k : ℤ) - m * zp) / ((zp * ns : ℕ) : ℤ))) * ((zp * ns : ℕ) : ℤ) := by
    have := Int.emod_add_mul_ediv ((k : ℤ) - m * zp) ((zp * ns : ℕ) : ℤ)
    rw [hk'z]
    linear_combination this
  rw [e1, twiddle_add_period _ hP, twiddle_add_left]
  have e2 : twiddle (zp * ns) (-(m * zp)) i = Complex.exp (2 * Complex.I * Real.pi / ns * ((m : ℝ) : ℂ) * i) := by
    unfold twiddle
    congr 1
    have hz' : (zp : ℂ) ≠ 0 := by exact_mod_cast hz.ne'
    have hn' : (ns : ℂ) ≠ 0 := by exact_mod_cast hn.ne'
    push_cast
    field_simp
  rw [e2]
  unfold applyShift
  ring

/-- **C64, with the mask.**  The samples of a beam shifted by a whole number of samples that the geometry
mask accepts are exactly those not moved around the end: each equals the sample `m * zp` before it of
the unshifted beam. -/
theorem accepted_samples_not_wrapped (c : Stack.MaskConf ℝ) (hz : 0 < c.zp) (m : ℤ) (beam : ℕ → ℂ)
    (k : ℕ) (hk : k < c.zp * c.nSamples) :
    (Stack.GeomAccepts c m k ↔ ∃ k' : ℕ, k' < c.zp * c.nSamples ∧ (k' : ℤ) = (k : ℤ) - m * c.zp) ∧
    (Stack.GeomAccepts c m k →
      compress c.zp c.nSamples (applyShift c.nSamples m beam) k =
        compress c.zp c.nSamples beam ((k : ℤ) - m * c.zp).toNat) := by
  have hcomm : c.nSamples * c.zp = c.zp * c.nSamples := Nat.mul_comm _ _
  constructor
  · unfold Stack.GeomAccepts
    rw [hcomm]
    constructor
    · rintro ⟨h1, h2⟩
      exact ⟨((k : ℤ) - m * c.zp).toNat, by omega, by omega⟩
    · rintro ⟨k', h1, h2⟩
      omega
  · rintro ⟨h1, h2⟩
    rw [hcomm] at h2
    unfold compress
    rw [integer_shift_moves c.zp c.nSamples hz m beam k hk, Int.emod_eq_of_lt h1 h2]

/-- The wrapped sample of a beam of two samples shifted by one. -/
example : Stack.GeomAccepts (⟨1, 2, 1, true, none, none⟩ : Stack.MaskConf ℝ) 1 1 ∧
    ¬ Stack.GeomAccepts (⟨1, 2, 1, true, none, none⟩ : Stack.MaskConf ℝ) 1 0 := by
  unfold Stack.GeomAccepts
  norm_num

/-- **C64, aligned burst.**  With the Doppler correction off, a burst whose window delay is the two-way
travel time to the surface is not shifted by the slant range and window delay corrections. -/
theorem aligned_burst_not_shifted (g : GeoInput) (hd : g.dopplerOn = false) (hs : g.slantOn = true)
    (h : g.winDelayBurst = 2 * rangeSatSurf g / g.c) : totalShift g = 0 := by
  unfold totalShift dopplerCorrection slantCorrection winDelayCorrection
  rw [hd, hs, h]
  simp only [Bool.false_eq_true, if_false, if_true]
  ring

/-- In general the total shift is the difference between the burst's window delay and the travel time,
in samples, plus the Doppler term: the window delay of the surface cancels. -/
theorem shift_independent_of_reference (g : GeoInput) (hs : g.slantOn = true) (ref : ℝ) :
    totalShift { g with winDelaySurf := ref } = totalShift g := by
  unfold totalShift dopplerCorrection slantCorrection winDelayCorrection rangeSatSurf
  simp only [hs, if_true]
  ring

/-- **C64, range.**  The range used for the slant range correction is the Euclidean distance between the
satellite and the surface. -/
theorem slant_range_is_distance (g : GeoInput) :
    rangeSatSurf g = dist (WithLp.toLp 2 g.sat : EuclideanSpace ℝ (Fin 3)) (WithLp.toLp 2 g.surf) := by
  rw [EuclideanSpace.dist_eq, Fin.sum_univ_three]
  simp only [Real.dist_eq, sq_abs]
  rfl

/-- **C64, Doppler.**  The Doppler correction, as a delay, is minus the Doppler frequency `2 v·u / λ` of the
surface seen in direction `u` divided by the slope of the chirp, bandwidth over pulse length. -/
theorem doppler_shift_spec (g : GeoInput) (v u : EuclideanSpace ℝ (Fin 3)) (hu : ‖u‖ = 1)
    (hv : g.velocity = ‖v‖) (ha : g.beamAngle = InnerProductGeometry.angle v u) (hd : g.dopplerOn = true)
    (hc : g.c ≠ 0) (ht : g.t0 ≠ 0) (hb : g.bandwidth ≠ 0) (hp : g.pulseLength ≠ 0) :
    g.t0 * dopplerCorrection g = -(2 * inner ℝ v u / g.wavelength) / (g.bandwidth / g.pulseLength) := by
  have h1 : Real.cos g.beamAngle * g.velocity = inner ℝ v u := by
    have := InnerProductGeometry.cos_angle_mul_norm_mul_norm v u
    rw [hu, mul_one] at this
    rw [ha, hv, this]
  rw [← h1]
  unfold dopplerCorrection
  rw [if_pos hd]
  field_simp

/-- A satellite moving towards the surface. -/
example : ∃ (g : GeoInput) (v u : EuclideanSpace ℝ (Fin 3)), ‖u‖ = 1 ∧ g.velocity = ‖v‖ ∧ v ≠ 0 ∧
    g.beamAngle = InnerProductGeometry.angle v u ∧ g.dopplerOn = true ∧ g.c ≠ 0 ∧ g.t0 ≠ 0 ∧
    g.bandwidth ≠ 0 ∧ g.pulseLength ≠ 0 := by
  have hu : ‖(EuclideanSpace.single 0 1 : EuclideanSpace ℝ (Fin 3))‖ = 1 := by simp
  refine ⟨⟨true, true, 1, 1, 1, 0, 1, 1, 1, 0, 0, 0, 0⟩, EuclideanSpace.single 0 1,
    EuclideanSpace.single 0 1, hu, hu.symm, ?_, ?_, rfl, ?_, ?_, ?_, ?_⟩
  · intro h; rw [h] at hu; simp at hu
  · rw [InnerProductGeometry.angle_self]
    intro h; rw [h] at hu; simp at hu
  all_goals norm_num

end Dedop.Signal
