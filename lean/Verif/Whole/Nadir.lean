import Verif.Whole.Demo
import Verif.Geo.Props

/-!
# The surface under a burst is where the measured range says (C155)
-/
namespace Dedop.Whole

open Real

/-! ## Specification -/

/-- The direction of the vertical at a geodetic position in radians. -/
noncomputable def vertical (lat lon : ℝ) : Surface.V := !₂[cos lat * cos lon, cos lat * sin lon, sin lat]

/-- The measured range, referred to the centre of gravity of the satellite. -/
noncomputable def Raw.distance (r : Raw) : ℝ := r.range + cos r.pitchSat * r.cogCor

/-! ## C155 -/

theorem vertical_unit (lat lon : ℝ) : ‖vertical lat lon‖ = 1 := by
  rw [EuclideanSpace.norm_eq, Fin.sum_univ_three]
  have h1 := sin_sq_add_cos_sq lat
  have h2 := sin_sq_add_cos_sq lon
  rw [Real.sqrt_eq_one]
  simp only [vertical, Real.norm_eq_abs, sq_abs]
  show (cos lat * cos lon) ^ 2 + (cos lat * sin lon) ^ 2 + sin lat ^ 2 = 1
  nlinarith

/-- **C155.**  The point of the surface attributed to a burst lies vertically below the satellite, at the measured range: above it if the
range is negative.  Latitude and longitude of the record are in degrees. -/
theorem surface_below (c : Conf) (hv : c.surface.cst.Valid) (hc : c.c ≠ 0) (r : Raw) :
    (burst c r).sat = Surface.ecef c.surface (r.lat * (π / 180)) (r.lon * (π / 180)) r.alt ∧
    (burst c r).sat - (burst c r).surf = r.distance • vertical (r.lat * (π / 180)) (r.lon * (π / 180)) ∧
    dist (burst c r).sat (burst c r).surf = |r.distance| := by
  have hr : ∀ x, radians x = x * (π / 180) := fun x => by unfold radians; ring
  have hd : delay c r * c.c / 2 = r.distance := by
    unfold delay Calib.winDelay Raw.distance
    field_simp
  have h2 : (burst c r).sat - (burst c r).surf = r.distance • vertical (r.lat * (π / 180)) (r.lon * (π / 180)) := by
    show Surface.ecef c.surface (radians r.lat) (radians r.lon) r.alt -
      Surface.ecef c.surface (radians r.lat) (radians r.lon) (r.alt - delay c r * c.c / 2) = _
    rw [hd, hr, hr]
    unfold Surface.ecef
    rw [Geo.lla2ecef_eq hv, Geo.lla2ecef_eq hv]
    ext i
    fin_cases i <;> simp [vertical] <;> ring
  refine ⟨?_, h2, ?_⟩
  · show Surface.ecef c.surface (radians r.lat) (radians r.lon) r.alt = _
    rw [hr, hr]
  · rw [dist_eq_norm, h2, norm_smul, vertical_unit, mul_one, Real.norm_eq_abs]

/-- The hypotheses are met by the example: the satellite is at height 5, the surface 2 below. -/
example : demoConf.surface.cst.Valid ∧ demoConf.c ≠ 0 ∧ dist (burst demoConf (demoFile 0)).sat (burst demoConf (demoFile 0)).surf = 2 := by
  have hv : demoConf.surface.cst.Valid := by
    constructor <;> norm_num [demoConf, Conf.surface]
  have hc : demoConf.c ≠ 0 := by norm_num [demoConf]
  refine ⟨hv, hc, ?_⟩
  rw [(surface_below demoConf hv hc (demoFile 0)).2.2]
  norm_num [Raw.distance, demoFile]

end Dedop.Whole
