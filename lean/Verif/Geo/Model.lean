import Mathlib.Analysis.SpecialFunctions.Complex.Arg
import Mathlib.Analysis.SpecialFunctions.Trigonometric.Inverse
import Mathlib.Analysis.InnerProductSpace.PiL2

/-!
# Coordinates and angles (model)

Models `/repo/dedop/proc/geo/` and `angle_between` of `/repo/dedop/proc/functions/vectors.py` over the
real numbers.  `sqrt`, `sin`, `cos` are the exact functions; where rounding decides what the functions do
(`normalize`, `angle_between`) it appears as a parameter.
-/
namespace Dedop.Geo

open Real

/-- The constants used (`conf/constants.py`): `semi_major_axis`, `semi_minor_axis` and `flat_coeff`
are independent entries of the file.  Lines 11-37. -/
structure Cst where
  a : ℝ
  b : ℝ
  f : ℝ

/-- `lla2ecef` (`proc/geo/lla2ecef.py:7-32`). -/
noncomputable def lla2ecef (c : Cst) (asDegrees : Bool) (lat lon alt : ℝ) : ℝ × ℝ × ℝ :=
  let lat := if asDegrees then lat * π / 180 else lat
  let lon := if asDegrees then lon * π / 180 else lon
  let f := (c.a - c.b) / c.a
  let e := √(f * (2 - f))
  let N := c.a / √(1 - (e * sin lat) ^ 2)
  ((N + alt) * cos lat * cos lon, (N + alt) * cos lat * sin lon, (N * (1 - e ^ 2) + alt) * sin lat)

/-- `arctan2`, without signed zeros. -/
noncomputable def arctan2 (y x : ℝ) : ℝ := Complex.arg ⟨x, y⟩

/-- `numpy.mod`.  Used in `ecef2lla.py:83`. -/
noncomputable def pyMod (x m : ℝ) : ℝ := x - m * ⌊x / m⌋

/-- The eccentricity in `ecef2lla` (`proc/geo/ecef2lla.py:70-73`). -/
noncomputable def ecc (c : Cst) : ℝ := √(1 - ((1 - c.f) * c.a) ^ 2 / c.a ^ 2)

/-- `b` in `ecef2lla` (`proc/geo/ecef2lla.py:75`). -/
noncomputable def polar (c : Cst) : ℝ := √(c.a ^ 2 * (1 - ecc c ^ 2))

/-- The body of `ecef2lla` up to the correction at the poles (`proc/geo/ecef2lla.py:68-86`). -/
noncomputable def bowring (c : Cst) (x y z : ℝ) : ℝ × ℝ × ℝ :=
  let e := ecc c
  let b := polar c
  let ep := √((c.a ^ 2 - b ^ 2) / b ^ 2)
  let p := √(x ^ 2 + y ^ 2)
  let th := arctan2 (c.a * z) (b * p)
  let lon := arctan2 y x
  let lat := arctan2 (z + ep ^ 2 * b * sin th ^ 3) (p - e ^ 2 * c.a * cos th ^ 3)
  let N := c.a / √(1 - e ^ 2 * sin lat ^ 2)
  let alt := p / cos lat - N
  (lat, pyMod lon (2 * π), alt)

open Classical in
/-- `ecef2lla` for numbers (`proc/geo/ecef2lla.py:15-98`); a division by a cosine that is zero is
irrelevant, the altitude being replaced. -/
noncomputable def ecef2lla (c : Cst) (x y z : ℝ) : ℝ × ℝ × ℝ :=
  let r := bowring c x y z
  if |x| < 1 ∧ |y| < 1 then (r.1, r.2.1, z - polar c) else r

open Classical in
/-- `ecef2lla` for arrays, element by element (`proc/geo/ecef2lla.py:93-95`). -/
noncomputable def ecef2llaArray (c : Cst) (x y z : ℝ) : ℝ × ℝ × ℝ :=
  let r := bowring c x y z
  if |x| < 1 ∧ |y| < 1 then (r.1, r.2.1, |z| - polar c) else r

open Classical in
/-- First loop of `normalize` (`proc/geo/normalize.py:8-9`) with at most the given number of iterations;
`fl` is the rounding of the sum, `p` is `cst.pi`. -/
noncomputable def raise (fl : ℝ → ℝ) (p : ℝ) : ℕ → ℝ → Option ℝ
  | 0, _ => none
  | n + 1, r => if r < -p then raise fl p n (fl (r + 2 * p)) else some r

open Classical in
/-- Second loop of `normalize` (`proc/geo/normalize.py:10-11`). -/
noncomputable def lower (fl : ℝ → ℝ) (p : ℝ) : ℕ → ℝ → Option ℝ
  | 0, _ => none
  | n + 1, r => if r > p then lower fl p n (fl (r - 2 * p)) else some r

/-- `normalize` (`proc/geo/normalize.py:3-12`). -/
noncomputable def normalize (fl : ℝ → ℝ) (p : ℝ) (n : ℕ) (r : ℝ) : Option ℝ :=
  (raise fl p n r).bind (lower fl p n)

open Classical in
/-- `numpy.arccos`: NaN, here `none`, outside `[-1, 1]`. -/
noncomputable def npArccos (x : ℝ) : Option ℝ := if -1 ≤ x ∧ x ≤ 1 then some (arccos x) else none

open Classical in
/-- `angle_between` (`proc/functions/vectors.py:5-15`) for vectors of any length; `fl` is the rounding of
the quotient.  The quotient is NaN, and so is the result, if a vector is zero. -/
noncomputable def angleBetween {n : ℕ} (fl : ℝ → ℝ) (v w : EuclideanSpace ℝ (Fin n)) : Option ℝ :=
  if ‖v‖ * ‖w‖ = 0 then none
  else
    let arg := fl ((∑ i, v i * w i) / (‖v‖ * ‖w‖))
    npArccos (if arg > 1 then 1 else arg)

end Dedop.Geo
