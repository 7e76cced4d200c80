import Verif.Geo.Model
import Mathlib.Geometry.Euclidean.Angle.Unoriented.Basic
import Mathlib.Analysis.Real.Pi.Bounds

/-! # Coordinates and angles (C51, C52, C53) -/
namespace Dedop.Geo

open Real

/-! ## Auxiliary facts -/

theorem arctan2_polar {r φ : ℝ} (hr : 0 < r) (hφ : φ ∈ Set.Ioc (-π) π) :
    arctan2 (r * sin φ) (r * cos φ) = φ := by
  unfold arctan2
  have h := Complex.arg_mul_cos_add_sin_mul_I hr hφ
  have e : (⟨r * cos φ, r * sin φ⟩ : ℂ) = r * (Complex.cos φ + Complex.sin φ * Complex.I) := by
    apply Complex.ext <;> simp [Complex.cos_ofReal_re, Complex.sin_ofReal_re]
  rw [e]
  exact h

theorem arctan2_polar_mod {r : ℝ} (hr : 0 < r) (φ : ℝ) :
    ∃ k : ℤ, arctan2 (r * sin φ) (r * cos φ) = φ + k * (2 * π) := by
  have hp := Real.two_pi_pos
  obtain ⟨k, hk⟩ : ∃ k : ℤ, φ + k * (2 * π) ∈ Set.Ioc (-π) π := by
    have h := toIocMod_mem_Ioc hp (-π) φ
    refine ⟨-toIocDiv hp (-π) φ, ?_⟩
    have e : φ + ((-toIocDiv hp (-π) φ : ℤ) : ℝ) * (2 * π) = toIocMod hp (-π) φ := by
      show _ = φ - toIocDiv hp (-π) φ • (2 * π)
      rw [zsmul_eq_mul]; push_cast; ring
    rw [e]
    refine ⟨h.1, ?_⟩
    have := h.2
    linarith
  refine ⟨k, ?_⟩
  rw [← arctan2_polar hr hk, Real.sin_add_int_mul_two_pi, Real.cos_add_int_mul_two_pi]

theorem cos_arctan2 {x y : ℝ} (h : x ^ 2 + y ^ 2 = 1) {k : ℝ} (hk : 0 < k) :
    cos (arctan2 (k * y) (k * x)) = x ∧ sin (arctan2 (k * y) (k * x)) = y := by
  have hn : ‖(⟨k * x, k * y⟩ : ℂ)‖ = k := by
    rw [Complex.norm_eq_sqrt_sq_add_sq]
    have : (k * x) ^ 2 + (k * y) ^ 2 = k ^ 2 := by nlinarith
    simp only [this]
    exact Real.sqrt_sq hk.le
  have hne : (⟨k * x, k * y⟩ : ℂ) ≠ 0 := by
    intro h0; rw [h0] at hn; simp at hn; linarith
  unfold arctan2
  rw [Complex.cos_arg hne, Complex.sin_arg, hn]
  constructor <;> field_simp

theorem pyMod_range (x : ℝ) {m : ℝ} (hm : 0 < m) : 0 ≤ pyMod x m ∧ pyMod x m < m := by
  unfold pyMod
  have h1 := Int.floor_le (x / m)
  have h2 := Int.lt_floor_add_one (x / m)
  rw [le_div_iff₀ hm] at h1
  rw [div_lt_iff₀ hm] at h2
  constructor <;> nlinarith

theorem pyMod_add (x : ℝ) {m : ℝ} (hm : 0 < m) (k : ℤ) : pyMod (x + k * m) m = pyMod x m := by
  unfold pyMod
  have : (x + k * m) / m = x / m + k := by field_simp
  rw [this, Int.floor_add_intCast]
  push_cast
  ring

theorem pyMod_of_range {x m : ℝ} (h0 : 0 ≤ x) (hm : x < m) : pyMod x m = x := by
  unfold pyMod
  have hmp : 0 < m := lt_of_le_of_lt h0 hm
  have : ⌊x / m⌋ = 0 := by
    rw [Int.floor_eq_zero_iff]
    exact ⟨div_nonneg h0 hmp.le, (div_lt_one hmp).2 hm⟩
  rw [this]; simp

/-! ## C51: geodetic and Cartesian coordinates -/

/-- An ellipsoid of revolution that is not prolate. -/
structure Cst.Valid (c : Cst) : Prop where
  b_pos : 0 < c.b
  b_le : c.b ≤ c.a

/-- The three constants fit together. -/
def Cst.Consistent (c : Cst) : Prop := c.b = (1 - c.f) * c.a

/-- Square of the eccentricity of the ellipsoid with half axes `a` and `b`. -/
noncomputable def ecc2 (c : Cst) : ℝ := 1 - c.b ^ 2 / c.a ^ 2

/-- Distance from the axis along the normal (the function's `N`). -/
noncomputable def nrad (c : Cst) (lat : ℝ) : ℝ := c.a / √(1 - ecc2 c * sin lat ^ 2)

section
variable {c : Cst} (hv : c.Valid)
include hv

theorem a_pos : 0 < c.a := lt_of_lt_of_le hv.b_pos hv.b_le

theorem ecc2_nonneg : 0 ≤ ecc2 c := by
  have ha := a_pos hv
  unfold ecc2
  have : c.b ^ 2 / c.a ^ 2 ≤ 1 := by
    rw [div_le_one (by positivity)]
    exact pow_le_pow_left₀ hv.b_pos.le hv.b_le 2
  linarith

theorem ecc2_lt : ecc2 c < 1 := by
  have ha := a_pos hv
  have hb := hv.b_pos
  unfold ecc2
  have : 0 < c.b ^ 2 / c.a ^ 2 := by positivity
  linarith

theorem denom_pos (lat : ℝ) : 0 < 1 - ecc2 c * sin lat ^ 2 := by
  have h1 := ecc2_nonneg hv
  have h2 := ecc2_lt hv
  have h3 := Real.sin_sq_le_one lat
  have h4 := sq_nonneg (sin lat)
  nlinarith

theorem nrad_pos (lat : ℝ) : 0 < nrad c lat :=
  div_pos (a_pos hv) (Real.sqrt_pos.2 (denom_pos hv lat))

theorem nrad_sq (lat : ℝ) : nrad c lat ^ 2 * (1 - ecc2 c * sin lat ^ 2) = c.a ^ 2 := by
  have h := denom_pos hv lat
  unfold nrad
  rw [div_pow, Real.sq_sqrt h.le]
  field_simp

/-- `lla2ecef` in closed form. -/
theorem lla2ecef_eq (lat lon alt : ℝ) : lla2ecef c false lat lon alt =
    ((nrad c lat + alt) * cos lat * cos lon, (nrad c lat + alt) * cos lat * sin lon,
      (nrad c lat * (c.b ^ 2 / c.a ^ 2) + alt) * sin lat) := by
  have ha := a_pos hv
  have he : (c.a - c.b) / c.a * (2 - (c.a - c.b) / c.a) = ecc2 c := by
    unfold ecc2; field_simp; ring
  have hs : √(ecc2 c) ^ 2 = ecc2 c := Real.sq_sqrt (ecc2_nonneg hv)
  unfold lla2ecef
  simp only [Bool.false_eq_true, if_false, he, mul_pow, hs]
  have : 1 - ecc2 c = c.b ^ 2 / c.a ^ 2 := by unfold ecc2; ring
  rw [this]
  rfl

/-- C51: points with altitude 0 lie on the ellipsoid. -/
theorem altitude_zero_on_ellipsoid (lat lon : ℝ) :
    let q := lla2ecef c false lat lon 0
    q.1 ^ 2 / c.a ^ 2 + q.2.1 ^ 2 / c.a ^ 2 + q.2.2 ^ 2 / c.b ^ 2 = 1 := by
  have ha := a_pos hv
  have hb := hv.b_pos
  rw [lla2ecef_eq hv]
  simp only [add_zero]
  have h := nrad_sq hv lat
  have h1 : cos lon ^ 2 = 1 - sin lon ^ 2 := Real.cos_sq' lon
  have h2 : cos lat ^ 2 = 1 - sin lat ^ 2 := Real.cos_sq' lat
  have hE : ecc2 c = 1 - c.b ^ 2 / c.a ^ 2 := rfl
  rw [hE] at h
  field_simp at h ⊢
  have hl : cos lon ^ 2 + sin lon ^ 2 = 1 := Real.cos_sq_add_sin_sq lon
  linear_combination h + nrad c lat ^ 2 * c.a ^ 2 * cos lat ^ 2 * hl + nrad c lat ^ 2 * c.a ^ 2 * h2

/-- C51: the altitude is measured along the normal of the ellipsoid: the point is the one of altitude 0
plus the altitude times a unit vector, which is parallel to the gradient of the ellipsoid's equation. -/
theorem altitude_along_normal (lat lon alt : ℝ) :
    let foot := lla2ecef c false lat lon 0
    let n : ℝ × ℝ × ℝ := (cos lat * cos lon, cos lat * sin lon, sin lat)
    n.1 ^ 2 + n.2.1 ^ 2 + n.2.2 ^ 2 = 1 ∧
    lla2ecef c false lat lon alt = (foot.1 + alt * n.1, foot.2.1 + alt * n.2.1, foot.2.2 + alt * n.2.2) ∧
    ∃ k > 0, foot.1 / c.a ^ 2 = k * n.1 ∧ foot.2.1 / c.a ^ 2 = k * n.2.1 ∧ foot.2.2 / c.b ^ 2 = k * n.2.2 := by
  have ha := a_pos hv
  have hb := hv.b_pos
  simp only [lla2ecef_eq hv]
  refine ⟨?_, ?_, nrad c lat / c.a ^ 2, div_pos (nrad_pos hv lat) (by positivity), ?_, ?_, ?_⟩
  · have h1 : cos lon ^ 2 = 1 - sin lon ^ 2 := Real.cos_sq' lon
    have h2 : cos lat ^ 2 = 1 - sin lat ^ 2 := Real.cos_sq' lat
    simp only [mul_pow, h1, h2]
    ring
  · refine Prod.ext ?_ (Prod.ext ?_ ?_) <;> simp only [] <;> ring
  · simp only [add_zero]; field_simp
  · simp only [add_zero]; field_simp
  · simp only [add_zero]; field_simp

omit hv in
/-- Degrees are converted. -/
theorem degrees (lat lon alt : ℝ) :
    lla2ecef c true lat lon alt = lla2ecef c false (lat * (π / 180)) (lon * (π / 180)) alt := by
  simp only [lla2ecef, if_true, Bool.false_eq_true, if_false, mul_div_assoc]

/-- The constants computed by `ecef2lla` are those of the ellipsoid. -/
theorem ecc_sq (hc : c.Consistent) : ecc c ^ 2 = ecc2 c := by
  have h := ecc2_nonneg hv
  unfold ecc ecc2 at *
  rw [← hc]
  exact Real.sq_sqrt h

theorem polar_eq (hc : c.Consistent) : polar c = c.b := by
  have ha := a_pos hv
  unfold polar
  rw [ecc_sq hv hc]
  have : c.a ^ 2 * (1 - ecc2 c) = c.b ^ 2 := by unfold ecc2; field_simp; ring
  rw [this, Real.sqrt_sq hv.b_pos.le]

omit hv in
/-- The horizontal distance of a point above the surface. -/
theorem horizontal (k lon : ℝ) (hk : 0 ≤ k) : √((k * cos lon) ^ 2 + (k * sin lon) ^ 2) = k := by
  have : (k * cos lon) ^ 2 + (k * sin lon) ^ 2 = k ^ 2 := by
    have := Real.sin_sq_add_cos_sq lon
    linear_combination k ^ 2 * this
  rw [this, Real.sqrt_sq hk]

/-- C51: the longitude is recovered for every altitude above the centre: it lies in `[0, 2π)` and differs
from the given one by a multiple of `2π`. -/
theorem longitude_round_trip (lat lon alt : ℝ) (h : 0 < (nrad c lat + alt) * cos lat) :
    let q := lla2ecef c false lat lon alt
    let r := ecef2lla c q.1 q.2.1 q.2.2
    0 ≤ r.2.1 ∧ r.2.1 < 2 * π ∧ ∃ k : ℤ, r.2.1 = lon + k * (2 * π) := by
  have hp := Real.two_pi_pos
  have key : ∀ x y z : ℝ, (ecef2lla c x y z).2.1 = pyMod (arctan2 y x) (2 * π) := by
    intro x y z
    unfold ecef2lla bowring
    simp only []
    split <;> rfl
  simp only [key, lla2ecef_eq hv]
  obtain ⟨k, hk⟩ := arctan2_polar_mod h lon
  rw [hk]
  refine ⟨(pyMod_range _ hp).1, (pyMod_range _ hp).2, ?_⟩
  refine ⟨k - ⌊(lon + k * (2 * π)) / (2 * π)⌋, ?_⟩
  unfold pyMod
  push_cast
  ring

/-- The latitude and altitude found, in terms of the horizontal distance. -/
theorem bowring_eq (hc : c.Consistent) (k lon z : ℝ) (hk : 0 ≤ k) :
    let th := arctan2 (c.a * z) (c.b * k)
    let lat := arctan2 (z + (c.a ^ 2 - c.b ^ 2) / c.b ^ 2 * c.b * sin th ^ 3) (k - ecc2 c * c.a * cos th ^ 3)
    (bowring c (k * cos lon) (k * sin lon) z).1 = lat ∧
    (bowring c (k * cos lon) (k * sin lon) z).2.2 = k / cos lat - nrad c lat := by
  have ha := a_pos hv
  have hb := hv.b_pos
  have h1 : √((c.a ^ 2 - c.b ^ 2) / c.b ^ 2) ^ 2 = (c.a ^ 2 - c.b ^ 2) / c.b ^ 2 := by
    apply Real.sq_sqrt
    apply div_nonneg _ (by positivity)
    have := pow_le_pow_left₀ hv.b_pos.le hv.b_le 2
    linarith
  unfold bowring
  simp only [polar_eq hv hc, ecc_sq hv hc, horizontal k lon hk, h1]
  exact ⟨trivial, rfl⟩

/-- On the ellipsoid latitude and altitude are recovered exactly. -/
theorem bowring_on_ellipsoid (hc : c.Consistent) (lat lon : ℝ) (h1 : -(π / 2) < lat) (h2 : lat < π / 2) :
    let q := lla2ecef c false lat lon 0
    (bowring c q.1 q.2.1 q.2.2).1 = lat ∧ (bowring c q.1 q.2.1 q.2.2).2.2 = 0 := by
  have ha := a_pos hv
  have hb := hv.b_pos
  have hN := nrad_pos hv lat
  have hcos : 0 < cos lat := Real.cos_pos_of_mem_Ioo ⟨h1, h2⟩
  have hD := denom_pos hv lat
  simp only [lla2ecef_eq hv, add_zero]
  have hk : 0 < nrad c lat * cos lat := mul_pos hN hcos
  obtain ⟨e1, e2⟩ := bowring_eq hv hc (nrad c lat * cos lat) lon (nrad c lat * (c.b ^ 2 / c.a ^ 2) * sin lat) hk.le
  rw [e1, e2]
  set N := nrad c lat with hNdef
  have hsq := nrad_sq hv lat
  rw [← hNdef] at hsq
  -- the parametric latitude
  have hth := cos_arctan2 (x := N * cos lat / c.a) (y := N * (c.b / c.a ^ 2) * sin lat) (by
    have h3 : cos lat ^ 2 = 1 - sin lat ^ 2 := Real.cos_sq' lat
    have hE : ecc2 c = 1 - c.b ^ 2 / c.a ^ 2 := rfl
    rw [hE] at hsq
    field_simp at hsq ⊢
    linear_combination hsq + N ^ 2 * c.a ^ 2 * h3) (k := c.a * c.b) (mul_pos ha hb)
  have g1 : c.a * c.b * (N * (c.b / c.a ^ 2) * sin lat) = c.a * (N * (c.b ^ 2 / c.a ^ 2) * sin lat) := by
    ring
  have g2 : c.a * c.b * (N * cos lat / c.a) = c.b * (N * cos lat) := by field_simp
  rw [g1, g2] at hth
  have hlat : arctan2 (N * (c.b ^ 2 / c.a ^ 2) * sin lat + (c.a ^ 2 - c.b ^ 2) / c.b ^ 2 * c.b *
        sin (arctan2 (c.a * (N * (c.b ^ 2 / c.a ^ 2) * sin lat)) (c.b * (N * cos lat))) ^ 3)
      (N * cos lat - ecc2 c * c.a *
        cos (arctan2 (c.a * (N * (c.b ^ 2 / c.a ^ 2) * sin lat)) (c.b * (N * cos lat))) ^ 3) = lat := by
    rw [hth.1, hth.2]
    have hr : 0 < N ^ 3 * (c.b ^ 2 / c.a ^ 4) := by positivity
    have f1 : N * (c.b ^ 2 / c.a ^ 2) * sin lat + (c.a ^ 2 - c.b ^ 2) / c.b ^ 2 * c.b *
        (N * (c.b / c.a ^ 2) * sin lat) ^ 3 = N ^ 3 * (c.b ^ 2 / c.a ^ 4) * sin lat := by
      have hE : ecc2 c = 1 - c.b ^ 2 / c.a ^ 2 := rfl
      rw [hE] at hsq
      field_simp at hsq ⊢
      linear_combination (-sin lat) * hsq
    have f2 : N * cos lat - ecc2 c * c.a * (N * cos lat / c.a) ^ 3 = N ^ 3 * (c.b ^ 2 / c.a ^ 4) * cos lat := by
      have h3 : cos lat ^ 2 = 1 - sin lat ^ 2 := Real.cos_sq' lat
      have hE : ecc2 c = 1 - c.b ^ 2 / c.a ^ 2 := rfl
      rw [hE] at hsq ⊢
      field_simp at hsq ⊢
      linear_combination -hsq - N ^ 2 * (c.a ^ 2 - c.b ^ 2) * h3
    rw [f1, f2]
    exact arctan2_polar hr ⟨by linarith [Real.pi_pos], by linarith [Real.pi_pos]⟩
  rw [hlat]
  refine ⟨rfl, ?_⟩
  rw [← hNdef]
  field_simp
  ring

omit hv in
/-- The longitude of the result. -/
theorem bowring_lon (k lon z : ℝ) (hk : 0 < k) (h0 : 0 ≤ lon) (h1 : lon < 2 * π) :
    (bowring c (k * cos lon) (k * sin lon) z).2.1 = lon := by
  have hp := Real.two_pi_pos
  obtain ⟨j, hj⟩ := arctan2_polar_mod hk lon
  show pyMod (arctan2 (k * sin lon) (k * cos lon)) (2 * π) = lon
  rw [hj, pyMod_add _ hp, pyMod_of_range h0 h1]

/-- C51: on the ellipsoid, at least a metre from the axis, both versions of the conversion to geodetic
coordinates invert the conversion to Cartesian ones exactly. -/
theorem ellipsoid_round_trip (hc : c.Consistent) (lat lon : ℝ) (h1 : -(π / 2) < lat) (h2 : lat < π / 2)
    (h3 : 0 ≤ lon) (h4 : lon < 2 * π)
    (far : 1 ≤ |(lla2ecef c false lat lon 0).1| ∨ 1 ≤ |(lla2ecef c false lat lon 0).2.1|) :
    let q := lla2ecef c false lat lon 0
    ecef2lla c q.1 q.2.1 q.2.2 = (lat, lon, 0) ∧ ecef2llaArray c q.1 q.2.1 q.2.2 = (lat, lon, 0) := by
  intro q
  obtain ⟨e1, e2⟩ := bowring_on_ellipsoid hv hc lat lon h1 h2
  have e3 : (bowring c q.1 q.2.1 q.2.2).2.1 = lon := by
    have hk : 0 < nrad c lat * cos lat := mul_pos (nrad_pos hv lat) (Real.cos_pos_of_mem_Ioo ⟨h1, h2⟩)
    show (bowring c (lla2ecef c false lat lon 0).1 (lla2ecef c false lat lon 0).2.1
      (lla2ecef c false lat lon 0).2.2).2.1 = lon
    rw [lla2ecef_eq hv]
    simp only [add_zero]
    exact bowring_lon _ lon _ hk h3 h4
  have hn : ¬ (|q.1| < 1 ∧ |q.2.1| < 1) := by
    rintro ⟨n1, n2⟩
    rcases far with f | f
    · exact absurd n1 (not_lt.2 f)
    · exact absurd n2 (not_lt.2 f)
  have e : bowring c q.1 q.2.1 q.2.2 = (lat, lon, 0) := Prod.ext e1 (Prod.ext e3 e2)
  unfold ecef2lla ecef2llaArray
  simp only [if_neg hn, e, and_self]

/-- C51: on a sphere both versions invert the conversion at every altitude above the centre. -/
theorem sphere_round_trip (hc : c.Consistent) (hs : c.b = c.a) (lat lon alt : ℝ) (h1 : -(π / 2) < lat)
    (h2 : lat < π / 2) (h3 : 0 ≤ lon) (h4 : lon < 2 * π) (halt : 0 < c.a + alt)
    (far : 1 ≤ |(lla2ecef c false lat lon alt).1| ∨ 1 ≤ |(lla2ecef c false lat lon alt).2.1|) :
    let q := lla2ecef c false lat lon alt
    ecef2lla c q.1 q.2.1 q.2.2 = (lat, lon, alt) ∧ ecef2llaArray c q.1 q.2.1 q.2.2 = (lat, lon, alt) := by
  intro q
  have ha := a_pos hv
  have hcos : 0 < cos lat := Real.cos_pos_of_mem_Ioo ⟨h1, h2⟩
  have hE : ecc2 c = 0 := by unfold ecc2; rw [hs]; field_simp; ring
  have hN : ∀ l, nrad c l = c.a := by intro l; unfold nrad; rw [hE]; simp
  have hk : 0 < (c.a + alt) * cos lat := mul_pos halt hcos
  have hq : q = ((c.a + alt) * cos lat * cos lon, (c.a + alt) * cos lat * sin lon, (c.a + alt) * sin lat) := by
    show lla2ecef c false lat lon alt = _
    rw [lla2ecef_eq hv, hN, hs]
    have : c.a ^ 2 / c.a ^ 2 = 1 := by field_simp
    rw [this, mul_one]
  obtain ⟨e1, e2⟩ := bowring_eq hv hc ((c.a + alt) * cos lat) lon ((c.a + alt) * sin lat) hk.le
  have hlat : (bowring c ((c.a + alt) * cos lat * cos lon) ((c.a + alt) * cos lat * sin lon) ((c.a + alt) * sin lat)).1
      = lat := by
    rw [e1, hE, hs]
    simp only [sub_self, zero_div, zero_mul, add_zero, sub_zero]
    exact arctan2_polar halt ⟨by linarith [Real.pi_pos], by linarith [Real.pi_pos]⟩
  have hn : ¬ (|q.1| < 1 ∧ |q.2.1| < 1) := by
    rintro ⟨n1, n2⟩
    rcases far with f | f
    · exact absurd n1 (not_lt.2 f)
    · exact absurd n2 (not_lt.2 f)
  have e : bowring c q.1 q.2.1 q.2.2 = (lat, lon, alt) := by
    rw [hq]
    refine Prod.ext hlat (Prod.ext (bowring_lon _ lon _ hk h3 h4) ?_)
    rw [← e1, hlat, hN] at e2
    rw [e2]
    field_simp
    ring
  unfold ecef2lla ecef2llaArray
  simp only [if_neg hn, e, and_self]

/-- C51: on the equator latitude and altitude are recovered at every altitude down to `b²/a` from the
centre. -/
theorem equator_round_trip (hc : c.Consistent) (lon alt : ℝ) (halt : c.a * ecc2 c < c.a + alt) :
    let q := lla2ecef c false 0 lon alt
    (bowring c q.1 q.2.1 q.2.2).1 = 0 ∧ (bowring c q.1 q.2.1 q.2.2).2.2 = alt := by
  have ha := a_pos hv
  have hb := hv.b_pos
  have hE := ecc2_nonneg hv
  have hN : nrad c 0 = c.a := by unfold nrad; simp
  have hk : 0 < c.a + alt := by nlinarith
  simp only [lla2ecef_eq hv, hN, Real.cos_zero, Real.sin_zero, mul_one, mul_zero]
  obtain ⟨e1, e2⟩ := bowring_eq hv hc (c.a + alt) lon 0 hk.le
  have hth : arctan2 0 (c.b * (c.a + alt)) = 0 := by
    have := arctan2_polar (r := c.b * (c.a + alt)) (φ := 0) (mul_pos hb hk)
      ⟨by linarith [Real.pi_pos], Real.pi_pos.le⟩
    simpa using this
  have hlat : arctan2 0 (c.a + alt - ecc2 c * c.a) = 0 := by
    have := arctan2_polar (r := c.a + alt - ecc2 c * c.a) (φ := 0) (by linarith)
      ⟨by linarith [Real.pi_pos], Real.pi_pos.le⟩
    simpa using this
  simp only [mul_zero, hth, Real.sin_zero, Real.cos_zero, one_pow, mul_one, ne_eq, OfNat.ofNat_ne_zero,
    not_false_eq_true, zero_pow, add_zero, hlat] at e1 e2
  rw [e1, e2, hN]
  constructor
  · rfl
  · simp

/-- The point above a pole. -/
theorem pole_point (lon alt : ℝ) (s : ℝ) (hs : s = 1 ∨ s = -1) :
    lla2ecef c false (s * (π / 2)) lon alt = (0, 0, s * (c.b + alt)) := by
  have ha := a_pos hv
  have hb := hv.b_pos
  have hsin : sin (s * (π / 2)) = s := by
    rcases hs with h | h <;> subst h
    · simp
    · rw [neg_one_mul, Real.sin_neg, Real.sin_pi_div_two]
  have hcos : cos (s * (π / 2)) = 0 := by
    rcases hs with h | h <;> subst h
    · simp
    · rw [neg_one_mul, Real.cos_neg, Real.cos_pi_div_two]
  have hs2 : s ^ 2 = 1 := by rcases hs with h | h <;> subst h <;> norm_num
  have hN : nrad c (s * (π / 2)) * (c.b ^ 2 / c.a ^ 2) = c.b := by
    unfold nrad
    rw [hsin, hs2]
    have : 1 - ecc2 c * 1 = (c.b / c.a) ^ 2 := by unfold ecc2; field_simp; ring
    rw [this, Real.sqrt_sq (by positivity)]
    field_simp
  rw [lla2ecef_eq hv, hcos, hsin, hN]
  refine Prod.ext ?_ (Prod.ext ?_ ?_) <;> simp only [] <;> ring

/-- C51: at the north pole both versions give back the latitude and the altitude. -/
theorem north_pole_round_trip (hc : c.Consistent) (lon alt : ℝ) (halt : 0 < c.b + alt) :
    let q := lla2ecef c false (π / 2) lon alt
    ((ecef2lla c q.1 q.2.1 q.2.2).1 = π / 2 ∧ (ecef2lla c q.1 q.2.1 q.2.2).2.2 = alt) ∧
    (ecef2llaArray c q.1 q.2.1 q.2.2).1 = π / 2 ∧ (ecef2llaArray c q.1 q.2.1 q.2.2).2.2 = alt := by
  have ha := a_pos hv
  have hb := hv.b_pos
  have hq := pole_point hv lon alt 1 (Or.inl rfl)
  rw [one_mul, one_mul] at hq
  simp only [hq]
  have hnear : |(0 : ℝ)| < 1 ∧ |(0 : ℝ)| < 1 := by simp
  obtain ⟨e1, -⟩ := bowring_eq hv hc 0 0 (c.b + alt) le_rfl
  rw [zero_mul, zero_mul, mul_zero] at e1
  have hth : arctan2 (c.a * (c.b + alt)) 0 = π / 2 := by
    have := arctan2_polar (r := c.a * (c.b + alt)) (φ := π / 2) (mul_pos ha halt)
      ⟨by linarith [Real.pi_pos], by linarith [Real.pi_pos]⟩
    simpa using this
  have hlat : (bowring c 0 0 (c.b + alt)).1 = π / 2 := by
    rw [e1, hth, Real.sin_pi_div_two, Real.cos_pi_div_two]
    have hr : 0 < c.b + alt + (c.a ^ 2 - c.b ^ 2) / c.b ^ 2 * c.b * 1 ^ 3 := by
      have := pow_le_pow_left₀ hv.b_pos.le hv.b_le 2
      have : 0 ≤ (c.a ^ 2 - c.b ^ 2) / c.b ^ 2 * c.b * 1 ^ 3 := by
        have : 0 ≤ c.a ^ 2 - c.b ^ 2 := by linarith
        positivity
      linarith
    have := arctan2_polar (φ := π / 2) hr ⟨by linarith [Real.pi_pos], by linarith [Real.pi_pos]⟩
    simpa using this
  unfold ecef2lla ecef2llaArray
  simp only [if_pos hnear, hlat, polar_eq hv hc, abs_of_pos halt]
  refine ⟨⟨trivial, ?_⟩, trivial, ?_⟩ <;> ring

/-- The version for arrays is also right at the south pole. -/
theorem south_pole_array (hc : c.Consistent) (lon alt : ℝ) (halt : 0 < c.b + alt) :
    let q := lla2ecef c false (-(π / 2)) lon alt
    (ecef2llaArray c q.1 q.2.1 q.2.2).2.2 = alt := by
  have hq := pole_point hv lon alt (-1) (Or.inr rfl)
  rw [neg_one_mul, neg_one_mul] at hq
  simp only [hq]
  have hnear : |(0 : ℝ)| < 1 ∧ |(0 : ℝ)| < 1 := by simp
  unfold ecef2llaArray
  simp only [if_pos hnear, polar_eq hv hc, abs_neg, abs_of_pos halt]
  ring

/-- C51 is violated at the south pole: the version for numbers gives, for every point above it, an altitude
that is wrong by more than the diameter of the earth, and so differs from the version for arrays. -/
theorem south_pole_violated (hc : c.Consistent) (lon alt : ℝ) (halt : 0 ≤ alt) :
    let q := lla2ecef c false (-(π / 2)) lon alt
    (ecef2lla c q.1 q.2.1 q.2.2).2.2 + 2 * c.b ≤ alt ∧
    (ecef2lla c q.1 q.2.1 q.2.2).2.2 ≠ (ecef2llaArray c q.1 q.2.1 q.2.2).2.2 := by
  have hb := hv.b_pos
  have h2 := south_pole_array hv hc lon alt (by linarith)
  have hq := pole_point hv lon alt (-1) (Or.inr rfl)
  rw [neg_one_mul, neg_one_mul] at hq
  have hnear : |(0 : ℝ)| < 1 ∧ |(0 : ℝ)| < 1 := by simp
  have h1 : (ecef2lla c (lla2ecef c false (-(π / 2)) lon alt).1 (lla2ecef c false (-(π / 2)) lon alt).2.1
      (lla2ecef c false (-(π / 2)) lon alt).2.2).2.2 = -(c.b + alt) - c.b := by
    rw [hq]
    unfold ecef2lla
    simp only [if_pos hnear, polar_eq hv hc]
  simp only at h2 ⊢
  rw [h1, h2]
  constructor
  · linarith
  · intro h; linarith

/-- C51: on the ellipsoid less than a metre from the northern half of the axis, where the altitude is
replaced, its error is at most `2 b / a²` (for the earth less than a micrometre). -/
theorem near_pole_altitude (hc : c.Consistent) (lat lon : ℝ) (h1 : 0 < lat) (h2 : lat < π / 2)
    (hx : |(lla2ecef c false lat lon 0).1| < 1) (hy : |(lla2ecef c false lat lon 0).2.1| < 1) :
    let q := lla2ecef c false lat lon 0
    (ecef2lla c q.1 q.2.1 q.2.2).2.2 ∈ Set.Icc (-(2 * c.b / c.a ^ 2)) 0 ∧
    ecef2llaArray c q.1 q.2.1 q.2.2 = ecef2lla c q.1 q.2.1 q.2.2 := by
  intro q
  have ha := a_pos hv
  have hb := hv.b_pos
  have hell : q.1 ^ 2 / c.a ^ 2 + q.2.1 ^ 2 / c.a ^ 2 + q.2.2 ^ 2 / c.b ^ 2 = 1 := altitude_zero_on_ellipsoid hv lat lon
  have hz : 0 < q.2.2 := by
    show 0 < (lla2ecef c false lat lon 0).2.2
    rw [lla2ecef_eq hv]
    have := nrad_pos hv lat
    have := Real.sin_pos_of_pos_of_lt_pi h1 (by linarith [Real.pi_pos])
    positivity
  have hx2 : q.1 ^ 2 ≤ 1 := by rw [← sq_abs]; nlinarith [abs_nonneg q.1, hx]
  have hy2 : q.2.1 ^ 2 ≤ 1 := by rw [← sq_abs]; nlinarith [abs_nonneg q.2.1, hy]
  have hnear : |q.1| < 1 ∧ |q.2.1| < 1 := ⟨hx, hy⟩
  have halt : (ecef2lla c q.1 q.2.1 q.2.2).2.2 = q.2.2 - c.b := by
    unfold ecef2lla
    simp only [if_pos hnear, polar_eq hv hc]
  set t := q.2.2 / c.b with ht
  have htp : 0 < t := div_pos hz hb
  have hza : q.2.2 = t * c.b := by rw [ht]; field_simp
  have ht2 : t ^ 2 = 1 - (q.1 ^ 2 + q.2.1 ^ 2) / c.a ^ 2 := by
    rw [ht, div_pow]; rw [add_div]; linarith
  have ha2 : 0 < c.a ^ 2 := by positivity
  have hfr : (q.1 ^ 2 + q.2.1 ^ 2) / c.a ^ 2 ≤ 2 / c.a ^ 2 :=
    div_le_div_of_nonneg_right (by linarith) ha2.le
  have hfr0 : 0 ≤ (q.1 ^ 2 + q.2.1 ^ 2) / c.a ^ 2 := by positivity
  have ht1 : t ≤ 1 := by nlinarith
  have htl : 1 - 2 / c.a ^ 2 ≤ t := by nlinarith
  refine ⟨⟨?_, ?_⟩, ?_⟩
  · rw [halt, hza]
    have : -(2 * c.b / c.a ^ 2) = (1 - 2 / c.a ^ 2) * c.b - c.b := by ring
    rw [this]
    have := mul_le_mul_of_nonneg_right htl hb.le
    linarith
  · rw [halt, hza]; nlinarith
  · unfold ecef2lla ecef2llaArray
    simp only [if_pos hnear, abs_of_pos hz]

end

/-- C51: the two versions agree except near the southern half of the axis. -/
theorem versions_agree_partial (c : Cst) (x y z : ℝ) (h : 0 ≤ z ∨ 1 ≤ |x| ∨ 1 ≤ |y|) :
    ecef2lla c x y z = ecef2llaArray c x y z := by
  unfold ecef2lla ecef2llaArray
  simp only
  split
  · rename_i hn
    rcases h with h | h | h
    · rw [abs_of_nonneg h]
    · exact absurd hn.1 (not_lt.2 h)
    · exact absurd hn.2 (not_lt.2 h)
  · rfl

/-- The constants delivered with the program (`ui/data/config/CST.json`). -/
noncomputable def wgs84 : Cst := ⟨6378137, 6356752.3142, 0.00335281067183084⟩

/-- They satisfy the assumptions, up to a nanometre in the half axis. -/
example : wgs84.Valid ∧ |(1 - wgs84.f) * wgs84.a - wgs84.b| < 1e-9 := by
  refine ⟨⟨by unfold wgs84; norm_num, by unfold wgs84; norm_num⟩, ?_⟩
  unfold wgs84
  rw [abs_lt]
  constructor <;> norm_num

/-- An ellipsoid with fitting constants and a point on it away from the axis. -/
example : (⟨6378137, 6356752, (6378137 - 6356752) / 6378137⟩ : Cst).Valid ∧
    (⟨6378137, 6356752, (6378137 - 6356752) / 6378137⟩ : Cst).Consistent ∧
    1 ≤ |(lla2ecef ⟨6378137, 6356752, (6378137 - 6356752) / 6378137⟩ false 0 0 0).1| := by
  have hv : (⟨6378137, 6356752, (6378137 - 6356752) / 6378137⟩ : Cst).Valid := ⟨by norm_num, by norm_num⟩
  refine ⟨hv, by unfold Cst.Consistent; norm_num, ?_⟩
  rw [lla2ecef_eq hv]
  simp [nrad]

/-- Away from the ellipsoid the latitude is not exact in general (one step of Bowring's method): an
ellipsoid with half axes 2 and 1, latitude 45° and altitude half the normal. -/
theorem bowring_not_exact : ∃ (c : Cst) (alt : ℝ), c.Valid ∧ c.Consistent ∧ 0 < alt ∧
    (bowring c (lla2ecef c false (π / 4) 0 alt).1 (lla2ecef c false (π / 4) 0 alt).2.1
      (lla2ecef c false (π / 4) 0 alt).2.2).1 ≠ π / 4 := by
  have hv : (⟨2, 1, 1 / 2⟩ : Cst).Valid := ⟨by norm_num, by norm_num⟩
  have hc : (⟨2, 1, 1 / 2⟩ : Cst).Consistent := by unfold Cst.Consistent; norm_num
  have hN := nrad_pos hv (π / 4)
  have hsq := nrad_sq hv (π / 4)
  refine ⟨⟨2, 1, 1 / 2⟩, nrad ⟨2, 1, 1 / 2⟩ (π / 4) / 2, hv, hc, by positivity, ?_⟩
  rw [lla2ecef_eq hv]
  set N := nrad ⟨2, 1, 1 / 2⟩ (π / 4) with hNd
  have h2 : √2 ^ 2 = 2 := Real.sq_sqrt (by norm_num)
  have h2p : 0 < √2 := by positivity
  have hsc : sin (π / 4) = cos (π / 4) := by rw [Real.sin_pi_div_four, Real.cos_pi_div_four]
  have hcp : 0 < cos (π / 4) := by rw [Real.cos_pi_div_four]; positivity
  have hcc : cos (π / 4) ^ 2 = 1 / 2 := by rw [Real.cos_pi_div_four, div_pow, h2]; norm_num
  set w := cos (π / 4) with hw
  obtain ⟨e1, -⟩ := bowring_eq hv hc ((N + N / 2) * w) 0 ((N * ((1 : ℝ) ^ 2 / 2 ^ 2) + N / 2) * sin (π / 4))
    (by positivity)
  simp only at e1 ⊢
  rw [e1, hsc]
  have hth : arctan2 (2 * ((N * ((1 : ℝ) ^ 2 / 2 ^ 2) + N / 2) * w)) (1 * ((N + N / 2) * w)) = π / 4 := by
    have h := arctan2_polar (r := N * 3 / 2) (φ := π / 4) (by positivity)
      ⟨by linarith [Real.pi_pos], by linarith [Real.pi_pos]⟩
    rw [hsc, ← hw] at h
    rw [← h]
    congr 1 <;> ring
  rw [hth, hsc, ← hw]
  intro h
  -- the two arguments would be equal
  unfold arctan2 at h
  set ξ : ℂ := ⟨(N + N / 2) * w - ecc2 ⟨2, 1, 1 / 2⟩ * 2 * w ^ 3,
    (N * ((1 : ℝ) ^ 2 / 2 ^ 2) + N / 2) * w + ((2 : ℝ) ^ 2 - 1 ^ 2) / 1 ^ 2 * 1 * w ^ 3⟩ with hξ
  have hne : ξ ≠ 0 := by
    intro h0
    rw [h0, Complex.arg_zero] at h
    linarith [Real.pi_pos]
  have c1 := Complex.cos_arg hne
  have c2 := Complex.sin_arg ξ
  rw [h] at c1 c2
  have hn : 0 < ‖ξ‖ := norm_pos_iff.2 hne
  have : ξ.re = ξ.im := by
    rw [hsc] at c2
    rw [← hw, eq_div_iff hn.ne'] at c1
    rw [eq_div_iff hn.ne'] at c2
    rw [← c1, ← c2]
  rw [hξ] at this
  simp only at this
  have he : ecc2 ⟨2, 1, 1 / 2⟩ = 3 / 4 := by unfold ecc2; norm_num
  rw [he] at this hsq
  rw [hsc, hcc] at hsq
  have hw3 : w ^ 3 = w / 2 := by rw [pow_succ, hcc]; ring
  rw [hw3] at this
  have h3 : N * w = 3 * w := by nlinarith
  have h4 : N = 3 := mul_right_cancel₀ hcp.ne' h3
  rw [h4] at hsq
  norm_num at hsq

/-! ## C52: normalisation -/

theorem raise_spec {p : ℝ} (hp : 0 < p) : ∀ (n : ℕ) (r : ℝ), -p - r < 2 * p * n →
    ∃ s, raise id p (n + 1) r = some s ∧ -p ≤ s ∧ (∃ k : ℕ, s = r + 2 * p * k) ∧ s ≤ max r p := by
  intro n
  induction n with
  | zero =>
    intro r h
    refine ⟨r, ?_, ?_, ⟨0, by simp⟩, le_max_left _ _⟩
    · have : ¬ r < -p := by push_cast at h; linarith
      simp [raise, this]
    · push_cast at h; linarith
  | succ n ih =>
    intro r h
    by_cases hr : r < -p
    · obtain ⟨s, h1, h2, ⟨k, h3⟩, h4⟩ := ih (r + 2 * p) (by push_cast at h ⊢; linarith)
      refine ⟨s, ?_, h2, ⟨k + 1, by rw [h3]; push_cast; ring⟩, ?_⟩
      · rw [raise, if_pos hr]; exact h1
      · refine h4.trans ?_
        rw [max_le_iff]
        exact ⟨le_max_of_le_right (by linarith), le_max_right _ _⟩
    · exact ⟨r, by rw [raise, if_neg hr], by linarith, ⟨0, by simp⟩, le_max_left _ _⟩

theorem lower_spec {p : ℝ} (hp : 0 < p) : ∀ (n : ℕ) (r : ℝ), -p ≤ r → r - p < 2 * p * n →
    ∃ s, lower id p (n + 1) r = some s ∧ -p ≤ s ∧ s ≤ p ∧ ∃ k : ℕ, s = r - 2 * p * k := by
  intro n
  induction n with
  | zero =>
    intro r h0 h
    have hle : r ≤ p := by push_cast at h; linarith
    exact ⟨r, by simp [lower, not_lt.2 hle], h0, hle, 0, by simp⟩
  | succ n ih =>
    intro r h0 h
    by_cases hr : r > p
    · obtain ⟨s, h1, h2, h3, k, h4⟩ := ih (r - 2 * p) (by linarith) (by push_cast at h ⊢; linarith)
      refine ⟨s, ?_, h2, h3, k + 1, by rw [h4]; push_cast; ring⟩
      rw [lower, if_pos hr]; exact h1
    · exact ⟨r, by rw [lower, if_neg hr], h0, by linarith, 0, by simp⟩

/-- C52 (partial): with exact sums the loops end, after at most `|r| / 2π + 2` iterations each; the result
lies in `[-π, π]`, differs from the angle by a multiple of `2π`, and is the angle itself if that lies in the
range.  Missing: rounding (`normalize_diverges_violated`). -/
theorem normalize_partial {p : ℝ} (hp : 0 < p) (r : ℝ) : ∃ s, normalize id p (⌈|r| / (2 * p)⌉₊ + 2) r = some s ∧
    -p ≤ s ∧ s ≤ p ∧ (∃ k : ℤ, s = r + 2 * p * k) ∧ (-p ≤ r → r ≤ p → s = r) := by
  have hc : |r| ≤ 2 * p * ⌈|r| / (2 * p)⌉₊ := by
    have := Nat.le_ceil (|r| / (2 * p))
    rw [div_le_iff₀ (by positivity)] at this
    linarith
  have h1 := neg_abs_le r
  have h2 := le_abs_self r
  obtain ⟨s, e1, e2, ⟨k, e3⟩, e4⟩ := raise_spec hp (⌈|r| / (2 * p)⌉₊ + 1) r (by push_cast; linarith)
  obtain ⟨t, f1, f2, f3, j, f4⟩ := lower_spec hp (⌈|r| / (2 * p)⌉₊ + 1) s e2 (by
    push_cast
    rcases le_max_iff.1 e4 with h | h <;> nlinarith [abs_nonneg r])
  refine ⟨t, ?_, f2, f3, ⟨k - j, by rw [f4, e3]; push_cast; ring⟩, ?_⟩
  · unfold normalize; rw [e1]; exact f1
  · intro g1 g2
    have hs : s = r := by
      have : raise id p (⌈|r| / (2 * p)⌉₊ + 1 + 1) r = some r := by
        rw [raise, if_neg (not_lt.2 g1)]
      rw [e1] at this
      exact Option.some.inj this
    have : lower id p (⌈|r| / (2 * p)⌉₊ + 1 + 1) s = some s := by
      rw [lower, if_neg (by rw [hs]; exact not_lt.2 g2)]
    rw [f1] at this
    rw [← hs]; exact Option.some.inj this

/-- With more iterations allowed the result is the same. -/
theorem normalize_mono (fl : ℝ → ℝ) (p : ℝ) (n m : ℕ) (h : n ≤ m) (r s : ℝ)
    (hs : normalize fl p n r = some s) : normalize fl p m r = some s := by
  have h1 : ∀ n m r s, n ≤ m → raise fl p n r = some s → raise fl p m r = some s := by
    intro n
    induction n with
    | zero => intro m r s _ h; simp [raise] at h
    | succ n ih =>
      intro m r s hm h
      obtain ⟨m, rfl⟩ : ∃ k, m = k + 1 := ⟨m - 1, by omega⟩
      rw [raise] at h ⊢
      split
      · rename_i hr; rw [if_pos hr] at h; exact ih m _ s (by omega) h
      · rename_i hr; rw [if_neg hr] at h; exact h
  have h2 : ∀ n m r s, n ≤ m → lower fl p n r = some s → lower fl p m r = some s := by
    intro n
    induction n with
    | zero => intro m r s _ h; simp [lower] at h
    | succ n ih =>
      intro m r s hm h
      obtain ⟨m, rfl⟩ : ∃ k, m = k + 1 := ⟨m - 1, by omega⟩
      rw [lower] at h ⊢
      split
      · rename_i hr; rw [if_pos hr] at h; exact ih m _ s (by omega) h
      · rename_i hr; rw [if_neg hr] at h; exact h
  unfold normalize at hs ⊢
  cases hr : raise fl p n r with
  | none => rw [hr] at hs; simp at hs
  | some t =>
    rw [hr] at hs
    rw [h1 n m r t h hr]
    exact h2 n m t s h hs

/-- Rounding to binary64 between `2^56` and `2^57` in magnitude: the numbers are the multiples of 16. -/
noncomputable def fl57 (x : ℝ) : ℝ := 16 * round (x / 16)

/-- C52 is violated with binary64 arithmetic: for `-2^57` the sum with `2π` is rounded to `-2^57`, and the
first loop does not end. -/
theorem normalize_diverges_violated (n : ℕ) : normalize fl57 π n (-2 ^ 57) = none := by
  have hfix : fl57 (-2 ^ 57 + 2 * π) = -2 ^ 57 := by
    unfold fl57
    have h1 := Real.pi_pos
    have h2 := Real.pi_lt_d2
    have : round ((-2 ^ 57 + 2 * π) / 16) = (-2 ^ 53 : ℤ) := by
      rw [round_eq, Int.floor_eq_iff]
      push_cast
      constructor
      · norm_num; linarith
      · norm_num; linarith
    rw [this]
    norm_num
  have : ∀ n, raise fl57 π n (-2 ^ 57) = none := by
    intro n
    induction n with
    | zero => rfl
    | succ n ih =>
      have h2 := Real.pi_lt_d2
      rw [raise, if_pos (by linarith), hfix, ih]
  unfold normalize
  rw [this]; rfl

/-! ## C53: angle between vectors -/

/-- C53 (partial): without rounding the function gives, for vectors that are not zero, the angle between
them, in `[0, π]`, whichever is first and however they are scaled.  Missing: rounding of the cosine below
`-1` (`angle_between_violated`). -/
theorem angle_between_partial {n : ℕ} (v w : EuclideanSpace ℝ (Fin n)) (hv : v ≠ 0) (hw : w ≠ 0) :
    angleBetween id v w = some (InnerProductGeometry.angle v w) ∧
    InnerProductGeometry.angle v w ∈ Set.Icc 0 π ∧
    angleBetween id w v = angleBetween id v w ∧
    ∀ k l : ℝ, 0 < k → 0 < l → angleBetween id (k • v) (l • w) = angleBetween id v w := by
  have key : ∀ v w : EuclideanSpace ℝ (Fin n), v ≠ 0 → w ≠ 0 →
      angleBetween id v w = some (InnerProductGeometry.angle v w) := by
    intro v w hv hw
    have hne : ‖v‖ * ‖w‖ ≠ 0 := mul_ne_zero (norm_ne_zero_iff.2 hv) (norm_ne_zero_iff.2 hw)
    have hin : (∑ i, v i * w i) = inner ℝ v w := by
      rw [PiLp.inner_apply]
      exact Finset.sum_congr rfl (fun i _ => by simp [mul_comm])
    have habs := abs_real_inner_div_norm_mul_norm_le_one v w
    rw [abs_le] at habs
    unfold angleBetween npArccos
    rw [if_neg hne]
    simp only [hin, id]
    rw [if_neg (not_lt.2 habs.2), if_pos habs]
    rfl
  have h0 := key v w hv hw
  refine ⟨h0, ⟨InnerProductGeometry.angle_nonneg v w, InnerProductGeometry.angle_le_pi v w⟩, ?_, ?_⟩
  · rw [key w v hw hv, h0, InnerProductGeometry.angle_comm]
  · intro k l hk hl
    rw [key _ _ (smul_ne_zero hk.ne' hv) (smul_ne_zero hl.ne' hw), h0,
      InnerProductGeometry.angle_smul_left_of_pos _ _ hk, InnerProductGeometry.angle_smul_right_of_pos _ _ hl]

/-- C53: with any rounding that does not give a cosine below `-1`, in particular above `1`, the result is an
angle in `[0, π]`. -/
theorem angle_between_rounded_partial {n : ℕ} (fl : ℝ → ℝ) (v w : EuclideanSpace ℝ (Fin n)) (hv : v ≠ 0)
    (hw : w ≠ 0) (h : -1 ≤ fl ((∑ i, v i * w i) / (‖v‖ * ‖w‖))) :
    ∃ r, angleBetween fl v w = some r ∧ 0 ≤ r ∧ r ≤ π := by
  have hne : ‖v‖ * ‖w‖ ≠ 0 := mul_ne_zero (norm_ne_zero_iff.2 hv) (norm_ne_zero_iff.2 hw)
  unfold angleBetween npArccos
  rw [if_neg hne]
  simp only
  split
  · exact ⟨_, by rw [if_pos (by norm_num)], arccos_nonneg _, arccos_le_pi _⟩
  · rename_i hle
    exact ⟨_, by rw [if_pos ⟨h, not_lt.1 hle⟩], arccos_nonneg _, arccos_le_pi _⟩

/-- C53 is violated: only cosines above `1` are corrected.  If the quotient for opposite vectors is rounded
to something below `-1`, the result is not a number. -/
theorem angle_between_violated (fl : ℝ → ℝ) (h : fl (-1) < -1) :
    ∃ v w : EuclideanSpace ℝ (Fin 3), v ≠ 0 ∧ w ≠ 0 ∧ angleBetween fl v w = none := by
  have hu : ‖(EuclideanSpace.single 0 1 : EuclideanSpace ℝ (Fin 3))‖ = 1 := by simp
  have hne : (EuclideanSpace.single 0 1 : EuclideanSpace ℝ (Fin 3)) ≠ 0 := by
    intro h; rw [h] at hu; simp at hu
  refine ⟨EuclideanSpace.single 0 1, -EuclideanSpace.single 0 1, hne, neg_ne_zero.2 hne, ?_⟩
  unfold angleBetween npArccos
  rw [norm_neg, hu]
  have : (∑ i, (EuclideanSpace.single 0 1 : EuclideanSpace ℝ (Fin 3)) i *
      (-EuclideanSpace.single 0 1 : EuclideanSpace ℝ (Fin 3)) i) = -1 := by
    simp [Fin.sum_univ_three]
  rw [this]
  norm_num
  have h2 : ¬ 1 < fl (-1) := by linarith
  rw [if_neg h2]
  intro h3
  linarith

/-- Zero vectors have no angle. -/
theorem angle_between_zero {n : ℕ} (fl : ℝ → ℝ) (w : EuclideanSpace ℝ (Fin n)) : angleBetween fl 0 w = none := by
  simp [angleBetween]

/-- Such roundings exist, with an error of one unit in the last place. -/
example : ∃ fl : ℝ → ℝ, (∀ x, |fl x - x| ≤ 2 ^ (-52 : ℤ) * |x|) ∧ fl (-1) < -1 := by
  refine ⟨fun x => x * (1 + 2 ^ (-52 : ℤ)), fun x => ?_, by norm_num⟩
  show |x * (1 + 2 ^ (-52 : ℤ)) - x| ≤ _
  rw [mul_add, mul_one, add_sub_cancel_left, abs_mul, mul_comm]
  norm_num

end Dedop.Geo
