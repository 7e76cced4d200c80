import Verif.Calib.Model
import Verif.Geo.Props
/-!
# The Doppler angle and the look angle of the point below the satellite (C80)
-/
namespace Dedop.Calib
open Real InnerProductGeometry

/-! ## Specification -/

/-- The sine of the angle by which the velocity `v` points below the local horizontal plane, for the direction `n` to the point
below the satellite: positive when the satellite descends, negative when it climbs. -/
noncomputable def descent (n v : Vec) : ℝ := inner ℝ n v / (‖n‖ * ‖v‖)

/-- The look angle of a point in the direction `s` (dedop/proc/sar/algorithms/stack_gathering.py 60-62 with the beam angle of
dedop/proc/sar/algorithms/beam_angles.py, the angle between the velocity and the direction of the point). -/
noncomputable def lookAngle (doppler : ℝ) (v s : Vec) : ℝ := π / 2 + doppler - angle v s

/-! ## Lemmas -/

theorem inner_eq (a b : Vec) : inner ℝ a b = a 0 * b 0 + a 1 * b 1 + a 2 * b 2 := by
  rw [PiLp.inner_apply, Fin.sum_univ_three]
  simp [mul_comm]

theorem norm_sq_eq (a : Vec) : ‖a‖ ^ 2 = a 0 ^ 2 + a 1 ^ 2 + a 2 ^ 2 := by
  rw [← real_inner_self_eq_norm_sq, inner_eq]
  ring

/-- `(n × v) × n` is the part of the velocity in the horizontal plane, times `‖n‖²`. -/
theorem cross_cross (n v : Vec) : cross (cross n v) n = ‖n‖ ^ 2 • v - inner ℝ n v • n := by
  ext i
  fin_cases i <;> simp [cross, inner_eq, norm_sq_eq] <;> ring

theorem descent_sq_lt (n v : Vec) (hn : n ≠ 0) (h : cross (cross n v) n ≠ 0) : descent n v ^ 2 < 1 := by
  by_contra hc
  push Not at hc
  have hv : v ≠ 0 := by
    rintro rfl
    apply h
    rw [cross_cross]
    simp
  have hpos : 0 < ‖n‖ * ‖v‖ := mul_pos (norm_pos_iff.mpr hn) (norm_pos_iff.mpr hv)
  unfold descent at hc
  rw [div_pow, le_div_iff₀ (by positivity), one_mul] at hc
  apply h
  rw [cross_cross, ← norm_eq_zero, ← sq_eq_zero_iff]
  have : ‖‖n‖ ^ 2 • v - inner ℝ n v • n‖ ^ 2 = ‖n‖ ^ 2 * (‖n‖ ^ 2 * ‖v‖ ^ 2 - inner ℝ n v ^ 2) := by
    rw [norm_sub_sq_real, norm_smul, norm_smul, inner_smul_left, inner_smul_right, real_inner_comm]
    simp only [norm_pow, norm_norm, Real.norm_eq_abs, mul_pow, sq_abs, conj_trivial]
    ring
  refine le_antisymm ?_ (by positivity)
  rw [this]
  have : 0 ≤ ‖n‖ ^ 2 := by positivity
  nlinarith

theorem angle_horizontal (n v : Vec) (hn : n ≠ 0) (h : cross (cross n v) n ≠ 0) :
    angle v (cross (cross n v) n) = arcsin |descent n v| := by
  have hv : v ≠ 0 := by
    rintro rfl
    apply h
    rw [cross_cross]
    simp
  have hpos : 0 < ‖n‖ * ‖v‖ := mul_pos (norm_pos_iff.mpr hn) (norm_pos_iff.mpr hv)
  have hlt := descent_sq_lt n v hn h
  have hnn : 0 < ‖n‖ := norm_pos_iff.mpr hn
  have hvv : 0 < ‖v‖ := norm_pos_iff.mpr hv
  have hd : inner ℝ n v = descent n v * (‖n‖ * ‖v‖) := by
    unfold descent
    rw [div_mul_cancel₀ _ hpos.ne']
  have hinner : inner ℝ v (cross (cross n v) n) = ‖n‖ ^ 2 * ‖v‖ ^ 2 * (1 - descent n v ^ 2) := by
    rw [cross_cross, inner_sub_right, inner_smul_right, inner_smul_right, real_inner_self_eq_norm_sq, real_inner_comm n v, hd]
    ring
  have hnorm : ‖cross (cross n v) n‖ = ‖n‖ ^ 2 * ‖v‖ * √(1 - descent n v ^ 2) := by
    rw [← sq_eq_sq₀ (norm_nonneg _) (by positivity), mul_pow, sq_sqrt (by linarith), cross_cross,
      norm_sub_sq_real, norm_smul, norm_smul, inner_smul_left, inner_smul_right, real_inner_comm n v]
    simp only [norm_pow, norm_norm, Real.norm_eq_abs, mul_pow, sq_abs, conj_trivial]
    rw [hd]
    ring
  have hs : 0 < √(1 - descent n v ^ 2) := sqrt_pos.mpr (by linarith)
  unfold angle
  rw [hinner, hnorm]
  have : ‖n‖ ^ 2 * ‖v‖ ^ 2 * (1 - descent n v ^ 2) / (‖v‖ * (‖n‖ ^ 2 * ‖v‖ * √(1 - descent n v ^ 2))) = √(1 - descent n v ^ 2) := by
    rw [div_eq_iff (by positivity)]
    have := sq_sqrt (show 0 ≤ 1 - descent n v ^ 2 by linarith)
    linear_combination -(‖n‖ ^ 2 * ‖v‖ ^ 2) * this
  rw [this, arccos_eq_arcsin (sqrt_nonneg _), sq_sqrt (by linarith), sub_sub_cancel, sqrt_sq_eq_abs]

/-- The Doppler angle in exact arithmetic: minus the angle between velocity and horizontal plane. -/
theorem doppler_eq (n v : Vec) (hn : n ≠ 0) (h : cross (cross n v) n ≠ 0) : dopplerAngle id n v = some (-arcsin |descent n v|) := by
  have hv : v ≠ 0 := by
    rintro rfl
    apply h
    rw [cross_cross]
    simp
  unfold dopplerAngle
  rw [(Geo.angle_between_partial v _ hv h).1, angle_horizontal n v hn h, Option.map_some]
  have hlt : |descent n v| < 1 := (sq_lt_one_iff_abs_lt_one _).mp (descent_sq_lt n v hn h)
  rw [if_pos (arcsin_lt_pi_div_two.mpr hlt), mul_neg_one]

/-! ## Properties -/

/-- What the Doppler angle is, for every position and velocity that is not vertical: its size is the angle between the velocity
and the local horizontal plane, and it is never positive, whether the satellite climbs or descends. -/
theorem doppler_angle_partial (n v : Vec) (hn : n ≠ 0) (h : cross (cross n v) n ≠ 0) :
    ∃ a, dopplerAngle id n v = some a ∧ -(π / 2) < a ∧ a ≤ 0 ∧ sin a = -|inner ℝ n v| / (‖n‖ * ‖v‖) := by
  have hlt : |descent n v| < 1 := (sq_lt_one_iff_abs_lt_one _).mp (descent_sq_lt n v hn h)
  refine ⟨_, doppler_eq n v hn h, ?_, ?_, ?_⟩
  · exact neg_lt_neg (arcsin_lt_pi_div_two.mpr hlt)
  · exact neg_nonpos.mpr (arcsin_nonneg.mpr (abs_nonneg _))
  · rw [sin_neg, sin_arcsin (by linarith [abs_nonneg (descent n v)]) hlt.le]
    unfold descent
    rw [abs_div, abs_of_nonneg (by positivity : 0 ≤ ‖n‖ * ‖v‖), neg_div]

/-- **C80**, descending: the point below the satellite has look angle 0. -/
theorem nadir_look_partial (n v : Vec) (hn : n ≠ 0) (h : cross (cross n v) n ≠ 0) (hd : 0 ≤ inner ℝ n v) :
    ∃ a, dopplerAngle id n v = some a ∧ lookAngle a v n = 0 := by
  refine ⟨_, doppler_eq n v hn h, ?_⟩
  have hs : 0 ≤ descent n v := div_nonneg hd (by positivity)
  unfold lookAngle angle
  rw [real_inner_comm, mul_comm ‖v‖]
  change π / 2 + -arcsin |descent n v| - arccos (descent n v) = 0
  rw [abs_of_nonneg hs, arccos]
  ring

/-- **C80 is violated** whenever the satellite climbs: the look angle of the point below it is twice the climbing angle off. -/
theorem nadir_look_violated (n v : Vec) (hn : n ≠ 0) (h : cross (cross n v) n ≠ 0) (hd : inner ℝ n v < 0) :
    ∃ a, dopplerAngle id n v = some a ∧ lookAngle a v n = -2 * arcsin (-descent n v) ∧ lookAngle a v n < 0 := by
  refine ⟨_, doppler_eq n v hn h, ?_⟩
  have hv : v ≠ 0 := by
    rintro rfl
    simp at hd
  have hs : descent n v < 0 := div_neg_of_neg_of_pos hd (mul_pos (norm_pos_iff.mpr hn) (norm_pos_iff.mpr hv))
  have e : lookAngle (-arcsin |descent n v|) v n = -2 * arcsin (-descent n v) := by
    unfold lookAngle angle
    rw [real_inner_comm, mul_comm ‖v‖]
    change π / 2 + -arcsin |descent n v| - arccos (descent n v) = _
    rw [abs_of_neg hs, arccos, arcsin_neg]
    ring
  refine ⟨e, ?_⟩
  rw [e]
  have : 0 < arcsin (-descent n v) := arcsin_pos.mpr (neg_pos.mpr hs)
  linarith

/-- A velocity straight up or down gives NaN. -/
theorem doppler_vertical (fl : ℝ → ℝ) (n v : Vec) (h : cross (cross n v) n = 0) : dopplerAngle fl n v = none := by
  unfold dopplerAngle Geo.angleBetween
  rw [h]
  simp

/-- Such satellites exist: one that descends and one that climbs, both over the same point. -/
def down : Vec := WithLp.toLp 2 ![-1, 0, 0]

example : ∃ v : Vec, down ≠ 0 ∧ cross (cross down v) down ≠ 0 ∧ 0 < inner ℝ down v := by
  refine ⟨WithLp.toLp 2 ![-1, 1, 0], ?_, ?_, ?_⟩
  · intro h; have := congrArg (fun x : Vec => x 0) h; simp [down] at this
  · intro h; have := congrArg (fun x : Vec => x 1) h; simp [down, cross] at this
  · rw [inner_eq]; simp [down]
example : ∃ v : Vec, down ≠ 0 ∧ cross (cross down v) down ≠ 0 ∧ inner ℝ down v < 0 := by
  refine ⟨WithLp.toLp 2 ![1, 1, 0], ?_, ?_, ?_⟩
  · intro h; have := congrArg (fun x : Vec => x 0) h; simp [down] at this
  · intro h; have := congrArg (fun x : Vec => x 1) h; simp [down, cross] at this
  · rw [inner_eq]; simp [down]

end Dedop.Calib
