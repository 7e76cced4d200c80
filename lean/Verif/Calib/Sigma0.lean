import Verif.Calib.CalProps
import Mathlib.Analysis.Real.Pi.Bounds
import Mathlib.Analysis.SpecialFunctions.Trigonometric.Basic
/-!
# The sigma0 factor (C82, C83) and the window delay of a packet (C84)
-/
namespace Dedop.Calib
open Real

/-! ## Specification -/

/-- A number as decibels, and back. -/
noncomputable def dB (x : ℝ) : ℝ := 10 * logb 10 x

/-- The parameters of the instrument make sense. -/
structure Radar.Valid (r : Radar) : Prop where
  power : 0 < r.powerTx
  wavelength : 0 < r.wavelength
  pulses : 0 < r.nPulses
  radius : 0 < r.earthRadius
  c : 0 < r.c
  ptr : 0 < r.ptrWidth

/-- A look from a moving satellite above the surface. -/
structure Look.Valid (l : Look) : Prop where
  range : 0 < l.range
  vel : 0 < l.vel
  pri : 0 < l.pri

/-- The area of the surface seen in one resolution cell: 0.886 times the along-track extent
`λ R (1 + R/Re) / (2 v PRI N)` times the across-track extent `2 √(c R w Re / (Re + R))`. -/
noncomputable def cellArea (r : Radar) (l : Look) : ℝ :=
  0.886 * (r.wavelength * l.range * (1 + l.range / r.earthRadius) / (2 * l.vel * l.pri * r.nPulses)) *
    (2 * √(r.c * l.range * r.ptrWidth * r.earthRadius / (r.earthRadius + l.range)))

/-- The radar equation: the power loss between the surface and the receiver, with the antenna gain and the ratio of the two paths
given in decibels. -/
noncomputable def pathLoss (r : Radar) (l : Look) : ℝ :=
  64 * π ^ 3 * l.range ^ 4 * r.nPulses * pow10 (r.ratioTrc / 10) /
    (r.powerTx * pow10 (r.antennaGain / 10) ^ 2 * r.wavelength ^ 2 * cellArea r l)

/-! ## Lemmas -/

theorem pow10_pos (x : ℝ) : 0 < pow10 x := rpow_pos_of_pos (by norm_num) _

theorem logb_pow10 (x : ℝ) : logb 10 (pow10 x) = x := logb_rpow (by norm_num) (by norm_num)

theorem pow10_add (x y : ℝ) : pow10 (x + y) = pow10 x * pow10 y := rpow_add (by norm_num) _ _

theorem log10_pos {x : ℝ} (h : 0 < x) : log10 x = some (logb 10 x) := by
  unfold log10
  rw [if_pos h]

theorem cellArea_pos {r : Radar} (hr : r.Valid) {l : Look} (hl : l.Valid) : 0 < cellArea r l := by
  obtain ⟨h1, h2, h3, h4, h5, h6⟩ := hr
  obtain ⟨g1, g2, g3⟩ := hl
  unfold cellArea
  have : (0 : ℝ) < r.nPulses := by exact_mod_cast h3
  have : 0 < √(r.c * l.range * r.ptrWidth * r.earthRadius / (r.earthRadius + l.range)) := sqrt_pos.mpr (by positivity)
  positivity

theorem area_eq {r : Radar} (hr : r.Valid) {l : Look} (hl : l.Valid) :
    ∃ d, rangeDistance r l = some d ∧ azimuthDistance r l * d * 0.886 = cellArea r l := by
  obtain ⟨h1, h2, h3, h4, h5, h6⟩ := hr
  obtain ⟨g1, g2, g3⟩ := hl
  have : (0 : ℝ) < r.nPulses := by exact_mod_cast h3
  refine ⟨2 * √(r.c * l.range * r.ptrWidth * r.earthRadius / (r.earthRadius + l.range)), ?_, ?_⟩
  · unfold rangeDistance pySqrt
    rw [if_pos (by positivity)]
    rfl
  · unfold cellArea azimuthDistance
    field_simp

theorem beamFactor_eq {r : Radar} (hr : r.Valid) {l : Look} (hl : l.Valid) (agc : ℝ) :
    beamFactor r agc l = some (agc - (10 * logb 10 64 + 30 * logb 10 π - 10 * logb 10 r.powerTx - 2 * r.antennaGain -
      20 * logb 10 r.wavelength + r.ratioTrc + 10 * logb 10 r.nPulses) - 40 * logb 10 l.range + 10 * logb 10 (cellArea r l)) := by
  obtain ⟨d, hd, ha⟩ := area_eq hr hl
  have hn : (0 : ℝ) < r.nPulses := by exact_mod_cast hr.pulses
  unfold beamFactor offset
  rw [hd, log10_pos (by norm_num : (0 : ℝ) < 64), log10_pos pi_pos, log10_pos hr.power, log10_pos hr.wavelength,
    log10_pos hn, log10_pos hl.range]
  simp only [Option.bind_eq_bind, Option.bind_some, Option.pure_def]
  rw [ha, log10_pos (cellArea_pos hr hl)]
  simp only [Option.bind_some, Option.some.injEq]
  ring

theorem mapM_map {A B : Type} (f : A → Option B) (g : A → B) : ∀ l : List A, (∀ x ∈ l, f x = some (g x)) → l.mapM f = some (l.map g)
  | [], _ => rfl
  | x :: t, h => by
    rw [List.mapM_cons, h x List.mem_cons_self, mapM_map f g t fun y hy => h y (List.mem_cons_of_mem _ hy)]
    rfl

/-! ## C82 -/

/-- **C82**: the factor of a beam is the AGC setting minus the path loss of the radar equation, in decibels. -/
theorem sigma0_radar_equation (r : Radar) (hr : r.Valid) (l : Look) (hl : l.Valid) (agc : ℝ) :
    beamFactor r agc l = some (agc - dB (pathLoss r l)) := by
  rw [beamFactor_eq hr hl]
  congr 1
  have hn : (0 : ℝ) < r.nPulses := by exact_mod_cast hr.pulses
  have hA := cellArea_pos hr hl
  have hp := hr.power
  have hw := hr.wavelength
  have hR := hl.range
  have hg := pow10_pos (r.antennaGain / 10)
  have ht := pow10_pos (r.ratioTrc / 10)
  unfold dB pathLoss
  rw [logb_div (by positivity) (by positivity), logb_mul (by positivity) (by positivity), logb_mul (by positivity) (by positivity),
    logb_mul (by positivity) (by positivity), logb_mul (by positivity) (by positivity), logb_mul (by positivity) (by positivity),
    logb_mul (by positivity) (by positivity), logb_mul (by positivity) (by positivity), logb_pow, logb_pow, logb_pow, logb_pow,
    logb_pow10, logb_pow10]
  push_cast
  ring

/-- **C82**: the factor of a record is the mean of the factors of its beams, one for every beam of the stack, and lies between the
smallest and the largest of them. -/
theorem sigma0_mean (r : Radar) (hr : r.Valid) (agc : ℝ) (looks : List Look) (hl : ∀ l ∈ looks, l.Valid) (hne : looks ≠ []) :
    ∃ fs m, sigma0 r agc looks = some (fs, m) ∧ fs = looks.map (fun l => agc - dB (pathLoss r l)) ∧
      m * looks.length = fs.sum ∧ (∀ b, (∀ f ∈ fs, f ≤ b) → m ≤ b) ∧ (∀ a, (∀ f ∈ fs, a ≤ f) → a ≤ m) := by
  have hm := mapM_map (beamFactor r agc) (fun l => agc - dB (pathLoss r l)) looks
    fun l h => sigma0_radar_equation r hr l (hl l h) agc
  have hpos : (0 : ℝ) < (looks.map fun l => agc - dB (pathLoss r l)).length := by
    rw [List.length_map]
    exact_mod_cast List.length_pos_iff.mpr hne
  refine ⟨_, (looks.map fun l => agc - dB (pathLoss r l)).sum / (looks.map fun l => agc - dB (pathLoss r l)).length, ?_, rfl, ?_, ?_, ?_⟩
  · unfold sigma0
    rw [hm]
    simp only [List.map_eq_nil_iff, hne, if_false]
  · rw [List.length_map] at hpos ⊢
    exact div_mul_cancel₀ _ hpos.ne'
  · intro b hb
    rw [div_le_iff₀ hpos]
    have := List.sum_le_card_nsmul _ b hb
    rw [nsmul_eq_mul] at this
    linarith
  · intro a ha
    rw [le_div_iff₀ hpos]
    have := List.card_nsmul_le_sum _ a ha
    rw [nsmul_eq_mul] at this
    linarith

/-- **C82**: a surface farther away has a smaller factor, because the loss grows with the range. -/
theorem sigma0_decreases (r : Radar) (hr : r.Valid) (l : Look) (hl : l.Valid) (range' : ℝ) (h : l.range < range') (agc : ℝ) :
    ∃ f f', beamFactor r agc l = some f ∧ beamFactor r agc { l with range := range' } = some f' ∧ f' < f := by
  have hl' : Look.Valid { l with range := range' } := ⟨hl.range.trans h, hl.vel, hl.pri⟩
  refine ⟨_, _, beamFactor_eq hr hl agc, beamFactor_eq hr hl' agc, ?_⟩
  have hA := cellArea_pos hr hl
  have hA' := cellArea_pos hr hl'
  have hR : 0 < l.range := hl.range
  have hR' : 0 < range' := hR.trans h
  have key : cellArea r { l with range := range' } ≤ (range' / l.range) ^ 3 * cellArea r l := by
    have hn : (0 : ℝ) < r.nPulses := by exact_mod_cast hr.pulses
    obtain ⟨h1, h2, h3, h4, h5, h6⟩ := hr
    have g2 := hl.vel
    have g3 := hl.pri
    have haz : r.wavelength * range' * (1 + range' / r.earthRadius) / (2 * l.vel * l.pri * r.nPulses) ≤
        (range' / l.range) ^ 2 * (r.wavelength * l.range * (1 + l.range / r.earthRadius) / (2 * l.vel * l.pri * r.nPulses)) := by
      have e : (range' / l.range) ^ 2 * (r.wavelength * l.range * (1 + l.range / r.earthRadius) / (2 * l.vel * l.pri * r.nPulses)) =
          r.wavelength * range' * (range' / l.range * (1 + l.range / r.earthRadius)) / (2 * l.vel * l.pri * r.nPulses) := by
        field_simp
      rw [e]
      have hin : 1 + range' / r.earthRadius ≤ range' / l.range * (1 + l.range / r.earthRadius) := by
        have e2 : range' / l.range * (1 + l.range / r.earthRadius) = range' / l.range + range' / r.earthRadius := by
          field_simp
        rw [e2]
        have := (one_lt_div hR).mpr h
        linarith
      gcongr
    have hrg : √(r.c * range' * r.ptrWidth * r.earthRadius / (r.earthRadius + range')) ≤
        (range' / l.range) * √(r.c * l.range * r.ptrWidth * r.earthRadius / (r.earthRadius + l.range)) := by
      apply sqrt_le_iff.mpr
      refine ⟨by positivity, ?_⟩
      rw [mul_pow, sq_sqrt (by positivity), div_pow, div_mul_div_comm, div_le_div_iff₀ (by positivity) (by positivity)]
      have hc : r.c * r.ptrWidth * r.earthRadius * l.range * range' * (l.range * (r.earthRadius + l.range)) ≤
          r.c * r.ptrWidth * r.earthRadius * l.range * range' * (range' * (r.earthRadius + range')) := by
        have : l.range * (r.earthRadius + l.range) ≤ range' * (r.earthRadius + range') := by
          apply mul_le_mul h.le (by linarith) (by positivity) hR'.le
        exact mul_le_mul_of_nonneg_left this (by positivity)
      nlinarith
    have e3 : (range' / l.range) ^ 3 * cellArea r l = 0.886 *
        ((range' / l.range) ^ 2 * (r.wavelength * l.range * (1 + l.range / r.earthRadius) / (2 * l.vel * l.pri * r.nPulses))) *
        (2 * ((range' / l.range) * √(r.c * l.range * r.ptrWidth * r.earthRadius / (r.earthRadius + l.range)))) := by
      unfold cellArea
      ring
    rw [e3]
    unfold cellArea
    simp only
    gcongr
  have hlog : logb 10 (cellArea r { l with range := range' }) ≤ 3 * (logb 10 range' - logb 10 l.range) + logb 10 (cellArea r l) := by
    have := logb_le_logb_of_le (by norm_num : (1 : ℝ) < 10) hA' key
    rw [logb_mul (by positivity) (by positivity), logb_pow, logb_div hR'.ne' hR.ne'] at this
    push_cast at this
    exact this
  have hlt : logb 10 l.range < logb 10 range' := logb_lt_logb (by norm_num) hR h
  simp only
  linarith

/-- **C82**: an error of the instrument parameters or a range that is not positive raises an exception. -/
theorem sigma0_refused (r : Radar) (agc : ℝ) (l : Look) (h : r.powerTx ≤ 0 ∨ r.wavelength ≤ 0 ∨ r.nPulses = 0 ∨ l.range ≤ 0) :
    beamFactor r agc l = none := by
  have hz : ∀ x : ℝ, x ≤ 0 → log10 x = none := fun x hx => by
    unfold log10
    rw [if_neg (not_lt.mpr hx)]
  unfold beamFactor offset
  simp only [Option.bind_eq_bind, Option.pure_def, Option.bind_eq_none_iff]
  intro a ha d _ lr hlr
  exfalso
  simp only [Option.bind_eq_some_iff] at ha
  obtain ⟨_, _, _, _, _, hp, _, hw, _, hn, _⟩ := ha
  rcases h with h | h | h | h
  · rw [hz _ h] at hp; cases hp
  · rw [hz _ h] at hw; cases hw
  · rw [hz _ (by rw [h]; simp)] at hn; cases hn
  · rw [hz _ h] at hlr; cases hlr

/-- Values like those of the shipped characterisation file. -/
noncomputable def exRadar : Radar := ⟨7.5, 42, 0.022, 0, 64, 6371000, 299792458, 2.8e-9⟩
theorem exRadar_valid : exRadar.Valid := by
  constructor <;> norm_num [exRadar]
example : Look.Valid ⟨800000, 7500, 5.6e-5⟩ := ⟨by norm_num, by norm_num, by norm_num⟩

/-! ## C83: the setting of the receiver -/

/-- The backscatter of a sample: the power of the calibrated sample in decibels plus the sigma0 factor, which is the AGC setting
minus a loss that does not depend on it (`sigma0_radar_equation`). -/
noncomputable def backscatter (on : Bool) (sig0Cal power phase loss agc i q : ℝ) : ℝ :=
  dB (‖cal1 on agc sig0Cal (fun _ => power) (fun _ => phase) (fun _ _ => echo agc i q) 0 0‖ ^ 2) + (agc - loss)

theorem echo_power (agc i q : ℝ) : ‖echo agc i q‖ ^ 2 = (i ^ 2 + q ^ 2) * pow10 (agc / 10) := by
  unfold echo
  rw [norm_div, div_pow, Complex.norm_real, norm_of_nonneg (pow10_pos _).le]
  have h1 : ‖(i : ℂ) + Complex.I * q‖ ^ 2 = i ^ 2 + q ^ 2 := by
    rw [mul_comm, Complex.sq_norm, Complex.normSq_add_mul_I]
  have h2 : pow10 (-agc / 20) ^ 2 * pow10 (agc / 10) = 1 := by
    rw [sq, ← pow10_add, ← pow10_add]
    unfold pow10
    rw [show -agc / 20 + -agc / 20 + agc / 10 = 0 by ring, rpow_zero]
  rw [h1, div_eq_iff (by have := pow10_pos (-agc / 20); positivity)]
  linear_combination -(i ^ 2 + q ^ 2) * h2

/-- **C83**, with CAL1: when the receiver is attenuated by `d` more decibels, so that the counts are smaller by that, the
backscatter stays the same. -/
theorem agc_independent_partial (sig0Cal power phase loss agc i q d : ℝ) (hp : 0 < power) (h : 0 < i ^ 2 + q ^ 2) :
    backscatter true sig0Cal power phase loss (agc + d) (i * pow10 (-d / 20)) (q * pow10 (-d / 20)) =
      backscatter true sig0Cal power phase loss agc i q := by
  have key : ∀ agc i q : ℝ, 0 < i ^ 2 + q ^ 2 → backscatter true sig0Cal power phase loss agc i q =
      dB (i ^ 2 + q ^ 2) + dB power + sig0Cal + (agc - loss) := by
    intro agc i q h
    unfold backscatter
    rw [cal1_power _ _ _ _ _ _ _ hp.le, echo_power]
    have : (i ^ 2 + q ^ 2) * pow10 (agc / 10) * power * pow10 ((sig0Cal - agc) / 10) = (i ^ 2 + q ^ 2) * power * pow10 (sig0Cal / 10) := by
      have e : pow10 (sig0Cal / 10) = pow10 (agc / 10) * pow10 ((sig0Cal - agc) / 10) := by
        rw [← pow10_add]
        congr 1
        ring
      rw [e]
      ring
    rw [this]
    unfold dB
    rw [logb_mul (by positivity) (pow10_pos _).ne', logb_mul h.ne' hp.ne', logb_pow10]
    ring
  have hs : (i * pow10 (-d / 20)) ^ 2 + (q * pow10 (-d / 20)) ^ 2 = (i ^ 2 + q ^ 2) * pow10 (-d / 10) := by
    have : pow10 (-d / 10) = pow10 (-d / 20) * pow10 (-d / 20) := by
      rw [← pow10_add]
      congr 1
      ring
    rw [this]
    ring
  rw [key _ _ _ (by rw [hs]; exact mul_pos h (pow10_pos _)), key _ _ _ h, hs]
  unfold dB
  rw [logb_mul h.ne' (pow10_pos _).ne', logb_pow10]
  ring

/-- **C83 is violated** without CAL1: the AGC setting is contained in the echo and again in the sigma0 factor, and the backscatter
changes by `d`. -/
theorem agc_twice_violated (sig0Cal power phase loss agc i q d : ℝ) :
    backscatter false sig0Cal power phase loss (agc + d) (i * pow10 (-d / 20)) (q * pow10 (-d / 20)) =
      backscatter false sig0Cal power phase loss agc i q + d := by
  have hs : ((i * pow10 (-d / 20)) ^ 2 + (q * pow10 (-d / 20)) ^ 2) * pow10 ((agc + d) / 10) = (i ^ 2 + q ^ 2) * pow10 (agc / 10) := by
    have h1 : pow10 ((agc + d) / 10) = pow10 (agc / 10) * pow10 (d / 10) := by
      rw [← pow10_add]
      congr 1
      ring
    have h2 : pow10 (-d / 20) * pow10 (-d / 20) * pow10 (d / 10) = 1 := by
      rw [← pow10_add, ← pow10_add]
      unfold pow10
      rw [show -d / 20 + -d / 20 + d / 10 = 0 by ring, rpow_zero]
    rw [h1]
    linear_combination (i ^ 2 + q ^ 2) * pow10 (agc / 10) * h2
  unfold backscatter cal1
  simp only [Bool.false_eq_true, if_false, echo_power, hs]
  ring

/-! ## C84: the centre of gravity -/

/-- **C84**, the part that holds: without a centre-of-gravity correction, or with pitch 0, the window delay is that of the range plus
the correction along the line of sight. -/
theorem cog_partial (c pitch cogCor range : ℝ) (h : pitch = 0 ∨ cogCor = 0) :
    winDelay c pitch cogCor range = 2 * (range + cos (pitch * π / 180) * cogCor) / c := by
  unfold winDelay
  rcases h with rfl | rfl
  · simp; ring
  · simp; ring

/-- **C84 is violated**: the pitch of the input product is a number of degrees, and the code takes the cosine of that number.  For
every pitch up to 3 degrees and every correction the window delay is wrong. -/
theorem cog_degrees_violated (c pitch cogCor range : ℝ) (hc : 0 < c) (hp : 0 < pitch) (h3 : pitch ≤ 3) (hcor : 0 < cogCor) :
    winDelay c pitch cogCor range < 2 * (range + cos (pitch * π / 180) * cogCor) / c := by
  have hpi : 3 < π := pi_gt_three
  have hpi4 : π < 4 := pi_lt_four
  have hlt : cos pitch < cos (pitch * π / 180) := by
    apply cos_lt_cos_of_nonneg_of_le_pi
    · positivity
    · linarith
    · rw [div_lt_iff₀ (by norm_num)]
      nlinarith
  unfold winDelay
  rw [div_lt_div_iff_of_pos_right hc]
  nlinarith

/-- Half a degree of pitch already changes a correction of one metre by more than a decimetre. -/
theorem cog_size_violated : (1 : ℝ) / 10 < cos (1 / 2 * π / 180) * 1 - cos (1 / 2) * 1 := by
  have h1 : cos (1 / 2 : ℝ) ≤ 1 - (1 / 2) ^ 2 / 2 + (1 / 2) ^ 4 * (5 / 96) := by
    have := cos_bound (x := 1 / 2) (by norm_num [abs_of_pos])
    rw [abs_le] at this
    have h2 := this.2
    rw [abs_of_pos (by norm_num)] at h2
    linarith
  have h2 : 1 - (1 / 2 * π / 180) ^ 2 / 2 ≤ cos (1 / 2 * π / 180) := one_sub_sq_div_two_le_cos
  have hpi : π < 4 := pi_lt_four
  have : (1 / 2 * π / 180) ^ 2 ≤ (1 / 90) ^ 2 := by
    apply pow_le_pow_left₀ (by positivity)
    linarith
  nlinarith

end Dedop.Calib
