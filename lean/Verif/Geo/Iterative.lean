import Verif.Geo.Props

/-!
# The iterative conversion to geodetic coordinates (C136)

Models `ecef2lla_iterative` (`/repo/dedop/proc/geo/ecef2lla.py:100-184`), the conversion of the module that
iterates until the coordinates no longer change, over the real numbers.  `cst.pi` is `π`.  Quotients by
zero, which numpy turns into an infinity, do not occur where a theorem says what is returned.
-/
namespace Dedop.Geo.Iterative

open Real Dedop.Geo

/-- What the conversion raises: `GeolocationError` for the centre of the Earth and `RuntimeWarning` if the
iterations do not suffice (`ecef2lla.py:127`, `:173`). -/
inductive Failure where
  | geolocationError
  | runtimeWarning
  deriving DecidableEq

/-- `COORD_ITERS` (`ecef2lla.py:13`). -/
def coordIters : ℕ := 10

/-- `GEODETIC_ERR` (`ecef2lla.py:14`). -/
noncomputable def geodeticErr : ℝ := 1e-9

/-- `ecc_sqr` (`ecef2lla.py:132`). -/
noncomputable def eccSqr (c : Cst) : ℝ := c.f * (2 - c.f)

/-- `xn`, from the estimate of the latitude (`ecef2lla.py:149-150`). -/
noncomputable def curvature (c : Cst) (lat : ℝ) : ℝ := c.a / √(1 - eccSqr c * (sin lat * sin lat))

/-- `arctan(z / (rad_xy * tmp))` with `tmp` from a radius of curvature and an altitude
(`ecef2lla.py:140-142`, `:153-155`). -/
noncomputable def latitude (c : Cst) (p z xn alt : ℝ) : ℝ :=
  arctan (z / (p * (1 - eccSqr c * xn / (xn + alt))))

open Classical in
/-- The loop (`ecef2lla.py:148-173`) with the given number of iterations left: latitude and altitude, or
`none` if the bound on the number of iterations is reached. -/
noncomputable def loop (c : Cst) (p z : ℝ) : ℕ → (x0 latEst altEst : ℝ) → Option (ℝ × ℝ)
  | 0, _, _, _ => none
  | n + 1, x0, latEst, altEst =>
    let xn := curvature c latEst
    let alt := p / cos latEst - x0
    let lat := latitude c p z xn alt
    if |lat - latEst| < geodeticErr ∧ |alt - altEst| / c.a < geodeticErr then some (lat, alt)
    else loop c p z n xn lat alt

open Classical in
/-- The longitude (`ecef2lla.py:175-183`). -/
noncomputable def longitude (x y : ℝ) : ℝ :=
  if x = 0 then
    if y = 0 then 0 else if y > 0 then π / 2 else if y < 0 then -π / 2 else 0
  else arctan2 y x

/-- `alt_est` before the loop (`ecef2lla.py:139`). -/
noncomputable def firstAltitude (c : Cst) (x y z : ℝ) : ℝ := √(x ^ 2 + y ^ 2 + z ^ 2) - c.a * √(1 - c.f)

open Classical in
/-- `ecef2lla_iterative` (`ecef2lla.py:100-184`). -/
noncomputable def convert (c : Cst) (x y z : ℝ) : Except Failure (ℝ × ℝ × ℝ) :=
  if x = 0 ∧ y = 0 then
    if z > 0 then .ok (π / 2, 0, |z| - c.a * (1 - c.f))
    else if z < 0 then .ok (-π / 2, 0, |z| - c.a * (1 - c.f))
    else .error .geolocationError
  else
    let p := √(x ^ 2 + y ^ 2)
    let altEst := firstAltitude c x y z
    match loop c p z coordIters c.a (latitude c p z c.a altEst) altEst with
    | none => .error .runtimeWarning
    | some (lat, alt) => .ok (lat, longitude x y, alt)

/-! ## Specification -/

/-- The geodetic coordinates are those of the point: converting them gives it back. -/
def Coordinates (c : Cst) (x y z : ℝ) (r : ℝ × ℝ × ℝ) : Prop :=
  lla2ecef c false r.1 r.2.1 r.2.2 = (x, y, z)

/-! ## Facts -/

theorem longitude_eq (x y : ℝ) (h : ¬(x = 0 ∧ y = 0)) : longitude x y = arctan2 y x := by
  unfold longitude
  split
  · rename_i hx
    subst hx
    have hy : y ≠ 0 := fun hy => h ⟨rfl, hy⟩
    rw [if_neg hy]
    rcases lt_or_gt_of_ne hy with h' | h'
    · rw [if_neg (not_lt.2 h'.le), if_pos h']
      unfold arctan2
      have e : (⟨0, y⟩ : ℂ) = ((-y : ℝ) : ℂ) * -Complex.I := by apply Complex.ext <;> simp
      rw [e, Complex.arg_real_mul _ (by linarith), Complex.arg_neg_I]
      ring
    · rw [if_pos h']
      unfold arctan2
      have e : (⟨0, y⟩ : ℂ) = ((y : ℝ) : ℂ) * Complex.I := by apply Complex.ext <;> simp
      rw [e, Complex.arg_real_mul _ h', Complex.arg_I]
  · rfl

theorem latitude_neg (c : Cst) (p z xn alt : ℝ) : latitude c p (-z) xn alt = -latitude c p z xn alt := by
  unfold latitude
  rw [neg_div, arctan_neg]

theorem curvature_neg (c : Cst) (lat : ℝ) : curvature c (-lat) = curvature c lat := by
  unfold curvature
  rw [sin_neg, neg_mul_neg]

theorem loop_neg (c : Cst) (p z : ℝ) : ∀ (n : ℕ) (x0 l a : ℝ),
    loop c p (-z) n x0 (-l) a = (loop c p z n x0 l a).map (fun r => (-r.1, r.2))
  | 0, _, _, _ => rfl
  | n + 1, x0, l, a => by
    have hd : ∀ u v : ℝ, |-u - -v| = |u - v| := fun u v => by rw [← abs_neg]; ring_nf
    unfold loop
    simp only [cos_neg, curvature_neg, latitude_neg, hd]
    split
    · rfl
    · exact loop_neg c p z n _ _ _

/-- C136: the two hemispheres are treated alike: the mirrored point has the opposite latitude and the same
longitude and altitude, or both fail. -/
theorem iterative_mirror (c : Cst) (x y z : ℝ) :
    convert c x y (-z) = (convert c x y z).map (fun r => (-r.1, r.2)) := by
  unfold convert
  split
  · rcases lt_trichotomy z 0 with h | h | h
    · rw [if_pos (by linarith), if_neg (by linarith), if_pos h, abs_neg]
      simp [Except.map, neg_div]
    · subst h; simp [Except.map]
    · rw [if_neg (by linarith), if_pos (by linarith), if_pos h, abs_neg]
      simp [Except.map, neg_div]
  · have e : firstAltitude c x y (-z) = firstAltitude c x y z := by unfold firstAltitude; rw [neg_sq]
    simp only [e, latitude_neg, loop_neg]
    cases loop c (√(x ^ 2 + y ^ 2)) z coordIters c.a
      (latitude c (√(x ^ 2 + y ^ 2)) z c.a (firstAltitude c x y z)) (firstAltitude c x y z) <;> rfl

/-- C136: latitude and altitude do not depend on the meridian. -/
theorem iterative_turn (c : Cst) (x y x' y' z : ℝ) (h : x ^ 2 + y ^ 2 = x' ^ 2 + y' ^ 2) :
    (convert c x y z).map (fun r => (r.1, r.2.2)) = (convert c x' y' z).map (fun r => (r.1, r.2.2)) := by
  have hz : (x = 0 ∧ y = 0) ↔ (x' = 0 ∧ y' = 0) := by
    have key : ∀ u v : ℝ, (u = 0 ∧ v = 0) ↔ u ^ 2 + v ^ 2 = 0 := by
      intro u v
      constructor
      · rintro ⟨rfl, rfl⟩; norm_num
      · intro h; constructor <;> nlinarith [sq_nonneg u, sq_nonneg v]
    rw [key, key, h]
  have e : firstAltitude c x y z = firstAltitude c x' y' z := by unfold firstAltitude; rw [h]
  unfold convert
  by_cases h0 : x = 0 ∧ y = 0
  · rw [if_pos h0, if_pos (hz.1 h0)]
  · rw [if_neg h0, if_neg (fun h' => h0 (hz.2 h'))]
    simp only [e, h]
    cases loop c (√(x' ^ 2 + y' ^ 2)) z coordIters c.a
      (latitude c (√(x' ^ 2 + y' ^ 2)) z c.a (firstAltitude c x' y' z)) (firstAltitude c x' y' z) <;> rfl

theorem loop_range (c : Cst) (p z : ℝ) : ∀ (n : ℕ) (x0 l a : ℝ) (r : ℝ × ℝ),
    loop c p z n x0 l a = some r → -(π / 2) < r.1 ∧ r.1 < π / 2
  | 0, _, _, _, _, h => by simp [loop] at h
  | n + 1, x0, l, a, r, h => by
    unfold loop at h
    simp only at h
    split at h
    · cases h
      exact ⟨neg_pi_div_two_lt_arctan _, arctan_lt_pi_div_two _⟩
    · exact loop_range c p z n _ _ _ r h

/-- C136: whatever is returned, the latitude lies between the poles and the longitude in `(-π, π]`, and the
longitude is the one of the point. -/
theorem iterative_longitude (c : Cst) (x y z : ℝ) (r : ℝ × ℝ × ℝ) (h : convert c x y z = .ok r) :
    -(π / 2) ≤ r.1 ∧ r.1 ≤ π / 2 ∧ -π < r.2.1 ∧ r.2.1 ≤ π ∧
      x = √(x ^ 2 + y ^ 2) * cos r.2.1 ∧ y = √(x ^ 2 + y ^ 2) * sin r.2.1 := by
  have hp := pi_pos
  unfold convert at h
  split at h
  · rename_i h0
    obtain ⟨rfl, rfl⟩ := h0
    split at h
    · cases h
      refine ⟨by simp only; linarith, le_rfl, by simp only; linarith, by simp only; linarith, by simp, by simp⟩
    · split at h
      · cases h
        refine ⟨by simp only; linarith, by simp only; linarith, by simp only; linarith,
          by simp only; linarith, by simp, by simp⟩
      · cases h
  · rename_i h0
    simp only at h
    split at h
    · cases h
    · rename_i lat alt hl
      cases h
      have hr := loop_range _ _ _ _ _ _ _ _ hl
      rw [longitude_eq x y h0]
      have hne : (⟨x, y⟩ : ℂ) ≠ 0 := by
        intro e
        exact h0 ⟨congrArg Complex.re e, congrArg Complex.im e⟩
      have hn : ‖(⟨x, y⟩ : ℂ)‖ = √(x ^ 2 + y ^ 2) := Complex.norm_eq_sqrt_sq_add_sq _
      refine ⟨hr.1.le, hr.2.le, Complex.neg_pi_lt_arg _, Complex.arg_le_pi _, ?_, ?_⟩
      · have := Complex.norm_mul_cos_arg (⟨x, y⟩ : ℂ)
        rw [hn] at this
        exact this.symm
      · have := Complex.norm_mul_sin_arg (⟨x, y⟩ : ℂ)
        rw [hn] at this
        exact this.symm

section
variable {c : Cst} (hv : c.Valid) (hc : c.Consistent)
include hv hc

theorem eccSqr_eq : eccSqr c = ecc2 c := by
  have ha := a_pos hv
  unfold eccSqr ecc2
  rw [hc]
  field_simp
  ring

theorem curvature_eq (lat : ℝ) : curvature c lat = nrad c lat := by
  unfold curvature nrad
  rw [eccSqr_eq hv hc, sq]

/-- C136: points on the axis, north and south, have the coordinates that are returned. -/
theorem iterative_axis (z : ℝ) (hz : z ≠ 0) :
    ∃ r, convert c 0 0 z = .ok r ∧ Coordinates c 0 0 z r := by
  have hb := hv.b_pos
  have ha := a_pos hv
  have hk : c.a * (1 - c.f) = c.b := by rw [hc]; ring
  have hr : √(c.b ^ 2 / c.a ^ 2) = c.b / c.a := by
    rw [← div_pow]; exact Real.sqrt_sq (by positivity)
  have hN : nrad c (π / 2) * (c.b ^ 2 / c.a ^ 2) = c.b := by
    unfold nrad ecc2
    rw [sin_pi_div_two]
    have : 1 - (1 - c.b ^ 2 / c.a ^ 2) * 1 ^ 2 = c.b ^ 2 / c.a ^ 2 := by ring
    rw [this, hr]
    field_simp
  have hN' : nrad c (-π / 2) * (c.b ^ 2 / c.a ^ 2) = c.b := by
    have : nrad c (-π / 2) = nrad c (π / 2) := by
      unfold nrad; rw [neg_div, sin_neg, neg_sq]
    rw [this, hN]
  unfold convert
  rw [if_pos ⟨rfl, rfl⟩]
  rcases lt_or_gt_of_ne hz with h | h
  · rw [if_neg (by linarith), if_pos h]
    refine ⟨_, rfl, ?_⟩
    unfold Coordinates
    rw [lla2ecef_eq hv]
    simp only
    rw [hN', hk, abs_of_neg h, neg_div, cos_neg, sin_neg, cos_pi_div_two, sin_pi_div_two]
    ext <;> simp
  · rw [if_pos h]
    refine ⟨_, rfl, ?_⟩
    unfold Coordinates
    rw [lla2ecef_eq hv]
    simp only
    rw [hN, hk, abs_of_pos h, cos_pi_div_two, sin_pi_div_two]
    ext <;> simp

omit hv hc in
/-- C136: the centre of the Earth has no coordinates and is refused. -/
theorem iterative_centre (c : Cst) : convert c 0 0 0 = .error .geolocationError := by
  unfold convert
  simp

/-- C136: a step of the iteration that leaves the latitude as it is, with the radius of curvature of this
latitude, gives coordinates of the point. -/
theorem iterative_stationary (x y z lat : ℝ) (h0 : ¬(x = 0 ∧ y = 0))
    (hlat : latitude c (√(x ^ 2 + y ^ 2)) z (curvature c lat) (√(x ^ 2 + y ^ 2) / cos lat - curvature c lat) = lat)
    (hz : nrad c lat * (c.b ^ 2 / c.a ^ 2) + (√(x ^ 2 + y ^ 2) / cos lat - nrad c lat) ≠ 0) :
    Coordinates c x y z (lat, longitude x y, √(x ^ 2 + y ^ 2) / cos lat - curvature c lat) := by
  have hN := nrad_pos hv lat
  rw [curvature_eq hv hc] at *
  set p := √(x ^ 2 + y ^ 2) with hp
  have hpp : 0 < p := by
    apply Real.sqrt_pos.2
    by_contra hcon
    exact h0 ⟨by nlinarith [sq_nonneg x, sq_nonneg y], by nlinarith [sq_nonneg x, sq_nonneg y]⟩
  have hcos : 0 < cos lat := by
    rw [← hlat]
    exact cos_arctan_pos _
  have hsum : nrad c lat + (p / cos lat - nrad c lat) = p / cos lat := by ring
  have ht : tan lat = z / (p * (1 - ecc2 c * nrad c lat / (p / cos lat))) := by
    conv_lhs => rw [← hlat]
    unfold latitude
    rw [tan_arctan, eccSqr_eq hv hc, hsum]
  have hE : ecc2 c = 1 - c.b ^ 2 / c.a ^ 2 := rfl
  have hk : p * (1 - ecc2 c * nrad c lat / (p / cos lat)) =
      cos lat * (nrad c lat * (c.b ^ 2 / c.a ^ 2) + (p / cos lat - nrad c lat)) := by
    rw [hE]
    field_simp
    ring
  rw [hk, tan_eq_sin_div_cos] at ht
  have hzz : z = (nrad c lat * (c.b ^ 2 / c.a ^ 2) + (p / cos lat - nrad c lat)) * sin lat := by
    have hne : cos lat * (nrad c lat * (c.b ^ 2 / c.a ^ 2) + (p / cos lat - nrad c lat)) ≠ 0 :=
      mul_ne_zero hcos.ne' hz
    rw [div_eq_div_iff hcos.ne' hne] at ht
    have := mul_left_cancel₀ hcos.ne' (a := cos lat)
      (b := z) (c := (nrad c lat * (c.b ^ 2 / c.a ^ 2) + (p / cos lat - nrad c lat)) * sin lat)
      (by linear_combination -ht)
    exact this
  have hne : (⟨x, y⟩ : ℂ) ≠ 0 := fun e => h0 ⟨congrArg Complex.re e, congrArg Complex.im e⟩
  have hn : ‖(⟨x, y⟩ : ℂ)‖ = p := Complex.norm_eq_sqrt_sq_add_sq _
  have hx := Complex.norm_mul_cos_arg (⟨x, y⟩ : ℂ)
  have hy := Complex.norm_mul_sin_arg (⟨x, y⟩ : ℂ)
  rw [hn] at hx hy
  unfold Coordinates
  rw [lla2ecef_eq hv]
  simp only
  rw [longitude_eq x y h0, hsum, ← hzz, div_mul_cancel₀ _ hcos.ne']
  unfold arctan2
  rw [hx, hy]

/-- C136: points above or below the equator are converted exactly. -/
theorem iterative_equator (lon alt : ℝ) (h1 : -π < lon) (h2 : lon ≤ π) (halt : 0 < c.a + alt) :
    let q := lla2ecef c false 0 lon alt
    convert c q.1 q.2.1 q.2.2 = .ok (0, lon, alt) := by
  have hN : nrad c 0 = c.a := by unfold nrad; simp
  intro q
  have hq : q = ((c.a + alt) * cos lon, (c.a + alt) * sin lon, 0) := by
    simp only [q]
    rw [lla2ecef_eq hv, hN]
    ext <;> simp
  have hp : √(((c.a + alt) * cos lon) ^ 2 + ((c.a + alt) * sin lon) ^ 2) = c.a + alt :=
    horizontal _ _ halt.le
  rw [hq]
  simp only
  have h0 : ¬((c.a + alt) * cos lon = 0 ∧ (c.a + alt) * sin lon = 0) := by
    rintro ⟨u, v⟩
    have hu := (mul_eq_zero.1 u).resolve_left halt.ne'
    have hw := (mul_eq_zero.1 v).resolve_left halt.ne'
    have := Real.cos_sq_add_sin_sq lon
    rw [hu, hw] at this
    norm_num at this
  have hl : ∀ p xn al, latitude c p 0 xn al = 0 := by intro p xn al; unfold latitude; simp
  have hcv : curvature c 0 = c.a := by rw [curvature_eq hv hc, hN]
  have hloop : ∀ n al, loop c (c.a + alt) 0 (n + 2) c.a 0 al = some (0, alt) := by
    intro n al
    have ha := a_pos hv
    unfold loop
    simp only [hcv, hl, cos_zero, div_one, add_sub_cancel_left]
    split
    · rfl
    · unfold loop
      simp only [hcv, hl, cos_zero, div_one, add_sub_cancel_left]
      rw [if_pos]
      unfold geodeticErr
      norm_num
  unfold convert
  rw [if_neg h0]
  simp only [hp, hl]
  rw [show coordIters = 8 + 2 from rfl, hloop]
  simp only
  rw [longitude_eq _ _ h0, arctan2_polar halt ⟨h1, h2⟩]

/-- C136: on a sphere every point off the axis is converted exactly. -/
theorem iterative_sphere (hs : c.f = 0) (lat lon alt : ℝ) (h1 : -(π / 2) < lat) (h2 : lat < π / 2)
    (h3 : -π < lon) (h4 : lon ≤ π) (halt : 0 < c.a + alt) :
    let q := lla2ecef c false lat lon alt
    convert c q.1 q.2.1 q.2.2 = .ok (lat, lon, alt) := by
  have ha := a_pos hv
  have hba : c.b = c.a := by rw [hc, hs]; ring
  have hE : ecc2 c = 0 := by unfold ecc2; rw [hba]; field_simp; ring
  have hN : ∀ l, nrad c l = c.a := by intro l; unfold nrad; rw [hE]; simp
  have hcos : 0 < cos lat := cos_pos_of_mem_Ioo ⟨h1, h2⟩
  have hk : 0 < (c.a + alt) * cos lat := mul_pos halt hcos
  intro q
  have hq : q = ((c.a + alt) * cos lat * cos lon, (c.a + alt) * cos lat * sin lon,
      (c.a + alt) * sin lat) := by
    simp only [q]
    rw [lla2ecef_eq hv, hN, hba]
    have : c.a ^ 2 / c.a ^ 2 = 1 := by field_simp
    rw [this, mul_one]
  have hp := horizontal ((c.a + alt) * cos lat) lon hk.le
  rw [hq]
  simp only
  have h0 : ¬((c.a + alt) * cos lat * cos lon = 0 ∧ (c.a + alt) * cos lat * sin lon = 0) := by
    rintro ⟨u, v⟩
    have hu := (mul_eq_zero.1 u).resolve_left hk.ne'
    have hw := (mul_eq_zero.1 v).resolve_left hk.ne'
    have := Real.cos_sq_add_sin_sq lon
    rw [hu, hw] at this
    norm_num at this
  have hl : ∀ xn al, latitude c ((c.a + alt) * cos lat) ((c.a + alt) * sin lat) xn al = lat := by
    intro xn al
    unfold latitude
    rw [eccSqr_eq hv hc, hE]
    have : (c.a + alt) * sin lat / ((c.a + alt) * cos lat * (1 - 0 * xn / (xn + al))) = tan lat := by
      rw [tan_eq_sin_div_cos]
      simp only [zero_mul, zero_div, sub_zero, mul_one]
      field_simp
    rw [this, arctan_tan h1 h2]
  have hcv : ∀ l, curvature c l = c.a := by intro l; rw [curvature_eq hv hc, hN]
  have hf : firstAltitude c ((c.a + alt) * cos lat * cos lon) ((c.a + alt) * cos lat * sin lon)
      ((c.a + alt) * sin lat) = alt := by
    unfold firstAltitude
    have e : ((c.a + alt) * cos lat * cos lon) ^ 2 + ((c.a + alt) * cos lat * sin lon) ^ 2 +
        ((c.a + alt) * sin lat) ^ 2 = (c.a + alt) ^ 2 := by
      have u := Real.cos_sq_add_sin_sq lon
      have v := Real.cos_sq_add_sin_sq lat
      linear_combination (c.a + alt) ^ 2 * cos lat ^ 2 * u + (c.a + alt) ^ 2 * v
    rw [e, Real.sqrt_sq halt.le, hs]
    simp
  unfold convert
  rw [if_neg h0]
  simp only [hp, hl, hf]
  have hloop : loop c ((c.a + alt) * cos lat) ((c.a + alt) * sin lat) coordIters c.a lat alt =
      some (lat, alt) := by
    unfold coordIters loop
    have e : (c.a + alt) * cos lat / cos lat - c.a = alt := by field_simp; ring
    simp only [e, hl]
    rw [if_pos]
    unfold geodeticErr
    norm_num
  rw [hloop]
  simp only
  rw [longitude_eq _ _ h0, arctan2_polar hk ⟨h3, h4⟩]

end

/-! ## A point whose first estimate looks converged -/

/-- `sin` of the latitude at which the first estimate of the altitude is taken for the altitude. -/
noncomputable def trapSin (q : ℝ) : ℝ := √(1 / (1 + q + q ^ 2 + q ^ 3))

/-- C136 is false for every flattened ellipsoid: there is a point, inside the ellipsoid near 30 degrees of
latitude, for which the first estimate of the altitude, made with another radius, is what the first step
gives, so that the iteration ends there: the function returns altitude 0, but the coordinates it returns are
those of another point, further out by the factor `√((1 + q²) / (q + q²))` with `q = 1 - f`. -/
theorem iterative_converges_wrongly {c : Cst} (hv : c.Valid) (hc : c.Consistent) (hf : 0 < c.f) :
    ∃ (x z lat : ℝ), 0 < x ∧ 0 < z ∧ √(x ^ 2 + z ^ 2) = c.a * √(1 - c.f) ∧
      convert c x 0 z = .ok (lat, 0, 0) ∧
      let k := √((1 + (1 - c.f) ^ 2) / ((1 - c.f) + (1 - c.f) ^ 2))
      1 < k ∧ lla2ecef c false lat 0 0 = (k * x, 0, k * z) := by
  have ha := a_pos hv
  have hb := hv.b_pos
  obtain ⟨q, hq⟩ : ∃ q, q = 1 - c.f := ⟨_, rfl⟩
  have hq0 : 0 < q := by
    by_contra h
    have : c.b ≤ 0 := by
      rw [hc, ← hq]; exact mul_nonpos_of_nonpos_of_nonneg (not_lt.1 h) ha.le
    linarith
  have hq1 : q < 1 := by linarith
  have hbq : c.b ^ 2 / c.a ^ 2 = q ^ 2 := by rw [hc, ← hq]; field_simp
  have hE : ecc2 c = 1 - q ^ 2 := by unfold ecc2; rw [hbq]
  have hden : 0 < 1 + q + q ^ 2 + q ^ 3 := by positivity
  set s := trapSin q with hsdef
  have hs2 : s ^ 2 = 1 / (1 + q + q ^ 2 + q ^ 3) := by
    rw [hsdef]; unfold trapSin; exact Real.sq_sqrt (by positivity)
  have hs0 : 0 < s := by rw [hsdef]; unfold trapSin; positivity
  have hs1 : s < 1 := by
    have : s ^ 2 < 1 := by
      rw [hs2, div_lt_one hden]
      have : 0 < q + q ^ 2 + q ^ 3 := by positivity
      linarith
    nlinarith
  set L := arcsin s with hL
  have hsin : sin L = s := sin_arcsin (by linarith) hs1.le
  have hL1 : -(π / 2) < L := by
    rw [hL]; exact neg_pi_div_two_lt_arcsin.2 (by linarith)
  have hL2 : L < π / 2 := arcsin_lt_pi_div_two.2 hs1
  have hcos : 0 < cos L := cos_pos_of_mem_Ioo ⟨hL1, hL2⟩
  have hcos2 : cos L ^ 2 = 1 - s ^ 2 := by rw [Real.cos_sq', hsin]
  refine ⟨c.a * cos L, c.a * q ^ 2 * sin L, L, by positivity, by rw [hsin]; positivity, ?_, ?_, ?_⟩
  · rw [← hq]
    have : (c.a * cos L) ^ 2 + (c.a * q ^ 2 * sin L) ^ 2 = c.a ^ 2 * q := by
      have : cos L ^ 2 + q ^ 4 * s ^ 2 = q := by
        rw [hcos2, hs2]
        field_simp
        ring
      rw [hsin]
      linear_combination c.a ^ 2 * this
    rw [this, Real.sqrt_mul (by positivity), Real.sqrt_sq ha.le]
  · have hp : √((c.a * cos L) ^ 2 + 0 ^ 2) = c.a * cos L := by
      rw [zero_pow (by norm_num), add_zero]; exact Real.sqrt_sq (by positivity)
    have hfa : firstAltitude c (c.a * cos L) 0 (c.a * q ^ 2 * sin L) = 0 := by
      unfold firstAltitude
      have : (c.a * cos L) ^ 2 + 0 ^ 2 + (c.a * q ^ 2 * sin L) ^ 2 = c.a ^ 2 * q := by
        have : cos L ^ 2 + q ^ 4 * s ^ 2 = q := by
          rw [hcos2, hs2]
          field_simp
          ring
        rw [hsin]
        linear_combination c.a ^ 2 * this
      rw [this, Real.sqrt_mul (by positivity), Real.sqrt_sq ha.le, ← hq, sub_self]
    have hl : ∀ xn, 0 < xn → latitude c (c.a * cos L) (c.a * q ^ 2 * sin L) xn 0 = L := by
      intro xn hx
      unfold latitude
      rw [eccSqr_eq hv hc, hE]
      have : c.a * q ^ 2 * sin L / (c.a * cos L * (1 - (1 - q ^ 2) * xn / (xn + 0))) = tan L := by
        rw [tan_eq_sin_div_cos]
        have : 1 - (1 - q ^ 2) * xn / (xn + 0) = q ^ 2 := by
          rw [add_zero, mul_div_assoc, div_self hx.ne']; ring
        rw [this]
        field_simp
      rw [this, arctan_tan hL1 hL2]
    have h0 : ¬(c.a * cos L = 0 ∧ (0 : ℝ) = 0) := fun h => (by positivity : c.a * cos L ≠ 0) h.1
    unfold convert
    rw [if_neg h0]
    simp only [hp, hfa, hl c.a ha]
    have hloop : loop c (c.a * cos L) (c.a * q ^ 2 * sin L) coordIters c.a L 0 = some (L, 0) := by
      unfold coordIters loop
      have e : c.a * cos L / cos L - c.a = 0 := by field_simp; ring
      have hx : 0 < curvature c L := by rw [curvature_eq hv hc]; exact nrad_pos hv L
      simp only [e, hl _ hx]
      rw [if_pos]
      unfold geodeticErr
      norm_num
    rw [hloop]
    simp only
    rw [longitude_eq _ _ h0]
    have := arctan2_polar (r := c.a * cos L) (φ := 0) (by positivity) ⟨by linarith [pi_pos], pi_pos.le⟩
    simp only [sin_zero, cos_zero, mul_zero, mul_one] at this
    rw [this]
  · intro k
    have hk : nrad c L = k * c.a := by
      unfold nrad
      rw [hE, hsin, hs2]
      have hm : 1 - (1 - q ^ 2) * (1 / (1 + q + q ^ 2 + q ^ 3)) = (q + q ^ 2) / (1 + q ^ 2) := by
        field_simp
        ring
      have hkq : k = √((1 + q ^ 2) / (q + q ^ 2)) := by simp only [k]; rw [← hq]
      rw [hm, hkq, Real.sqrt_div (by positivity), Real.sqrt_div (by positivity)]
      have h1 : 0 < √(q + q ^ 2) := Real.sqrt_pos.2 (by positivity)
      have h2 : 0 < √(1 + q ^ 2) := Real.sqrt_pos.2 (by positivity)
      field_simp
    refine ⟨?_, ?_⟩
    · simp only [k]
      rw [← hq]
      apply Real.lt_sqrt_of_sq_lt
      rw [one_pow, one_lt_div (by positivity)]
      linarith
    · rw [lla2ecef_eq hv, hbq, hk]
      simp only [add_zero, cos_zero, sin_zero, mul_one, mul_zero]
      ext
      · simp only; ring
      · rfl
      · simp only; ring

/-- The ellipsoid with the half axis and the flattening delivered with the program
(`ui/data/config/CST.json`). -/
noncomputable def delivered : Cst := ⟨6378137, (1 - 0.00335281067183084) * 6378137, 0.00335281067183084⟩

theorem delivered_valid : delivered.Valid ∧ delivered.Consistent := by
  refine ⟨⟨?_, ?_⟩, rfl⟩ <;> unfold delivered <;> norm_num

/-- C136 is false with the delivered constants: coordinates are returned without complaint that are those of
a point more than five kilometres away. -/
theorem iterative_violated : ∃ (x z : ℝ) (r : ℝ × ℝ × ℝ), convert delivered x 0 z = .ok r ∧
    ¬Coordinates delivered x 0 z r ∧
    let q := lla2ecef delivered false r.1 r.2.1 r.2.2
    5000 < √((q.1 - x) ^ 2 + (q.2.1 - 0) ^ 2 + (q.2.2 - z) ^ 2) := by
  obtain ⟨x, z, lat, hx, hz, hr, h, hk, he⟩ := iterative_converges_wrongly delivered_valid.1
    delivered_valid.2 (by unfold delivered; norm_num)
  refine ⟨x, z, _, h, ?_, ?_⟩
  · unfold Coordinates
    simp only
    rw [he]
    intro e
    have := congrArg Prod.fst e
    simp only at this
    nlinarith
  · simp only
    rw [he]
    simp only
    set k := √((1 + (1 - delivered.f) ^ 2) / ((1 - delivered.f) + (1 - delivered.f) ^ 2)) with hkd
    have hk2 : 1.0008 < k := by
      rw [hkd]
      apply Real.lt_sqrt_of_sq_lt
      unfold delivered
      rw [lt_div_iff₀ (by norm_num)]
      norm_num
    have e : (k * x - x) ^ 2 + (0 - 0) ^ 2 + (k * z - z) ^ 2 = (k - 1) ^ 2 * (x ^ 2 + z ^ 2) := by ring
    rw [e, Real.sqrt_mul (sq_nonneg _), Real.sqrt_sq (by linarith), hr]
    have hq : 0.998 < √(1 - delivered.f) := by
      apply Real.lt_sqrt_of_sq_lt
      unfold delivered
      norm_num
    have ha : delivered.a = 6378137 := rfl
    rw [ha]
    have : (0.0008 : ℝ) * (6378137 * 0.998) < (k - 1) * (6378137 * √(1 - delivered.f)) := by
      apply mul_lt_mul'' (by linarith) (by linarith) (by norm_num) (by norm_num)
    norm_num at this
    linarith

/-- The assumptions of `iterative_stationary` are met above the equator. -/
example : latitude delivered (√((7000000 : ℝ) ^ 2 + 0 ^ 2)) 0 (curvature delivered 0)
      (√((7000000 : ℝ) ^ 2 + 0 ^ 2) / cos 0 - curvature delivered 0) = 0 ∧
    nrad delivered 0 * (delivered.b ^ 2 / delivered.a ^ 2) +
      (√((7000000 : ℝ) ^ 2 + 0 ^ 2) / cos 0 - nrad delivered 0) ≠ 0 := by
  refine ⟨by unfold latitude; simp, ?_⟩
  have h : √((7000000 : ℝ) ^ 2 + 0 ^ 2) = 7000000 := by
    rw [zero_pow (by norm_num), add_zero]; exact Real.sqrt_sq (by norm_num)
  have hN : nrad delivered 0 = 6378137 := by unfold nrad delivered; simp
  rw [h, hN, cos_zero]
  unfold delivered
  norm_num

/-- The assumptions of `iterative_sphere` and `iterative_equator` are met. -/
example : (⟨6371000, 6371000, 0⟩ : Cst).Valid ∧ (⟨6371000, 6371000, 0⟩ : Cst).Consistent ∧
    (0 : ℝ) < (⟨6371000, 6371000, 0⟩ : Cst).a + 800000 :=
  ⟨⟨by norm_num, by norm_num⟩, by unfold Cst.Consistent; norm_num, by norm_num⟩

end Dedop.Geo.Iterative
