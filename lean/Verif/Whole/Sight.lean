import Verif.Whole.Target
import Verif.Whole.Nadir
import Verif.Calib.Doppler

/-!
# The looks of a record are unambiguous (C157)
-/
namespace Dedop.Whole

open Real

/-! ## Specification -/

/-- The direction of the vertical at the position of a record, given in degrees. -/
noncomputable def Raw.up (r : Raw) : Surface.V := vertical (r.lat * (π / 180)) (r.lon * (π / 180))

/-- The angle between the velocity and the horizontal plane, without sign. -/
noncomputable def Raw.slope (r : Raw) : ℝ := arcsin (|inner ℝ r.up r.vel| / ‖r.vel‖)

/-- The Doppler shift of a place at rest, for a radar of frequency `freq` which moves with the velocity `vel` at `sat`. -/
noncomputable def dopplerShift (freq light : ℝ) (sat vel place : Surface.V) : ℝ :=
  2 * freq * (inner ℝ vel (place - sat) / ‖place - sat‖) / light

/-- In record `r` the place is seen at the angle `a` from the velocity, and within the band which `1 / c.pri` pulses per second
resolve, centred below the satellite. -/
structure InBand (c : Conf) (r : Raw) (place : Surface.V) (a : ℝ) : Prop where
  away : place ≠ (burst c r).sat
  fast : c.c / (4 * c.pri * c.freq) ≤ ‖r.vel‖
  flies : |inner ℝ r.up r.vel| < ‖r.vel‖
  angle : a = InnerProductGeometry.angle (place - (burst c r).sat) r.vel
  band : |a + r.slope - π / 2| ≤ arcsin (c.c / (4 * c.pri * c.freq * ‖r.vel‖))

/-! ## C157 -/

theorem qMin_ok {c : Conf} {v q : ℝ} (hv : 0 ≤ v) (h : qMin c v = .ok q) :
    v ≠ 0 ∧ |c.c / (4 * c.pri * c.freq * v)| ≤ 1 ∧ q = π / 2 - arcsin (c.c / (4 * c.pri * c.freq * v)) := by
  have e : c.c / c.pri / 4 / c.freq / v = c.c / (4 * c.pri * c.freq * v) := by
    rw [div_div, div_div, div_div]; ring_nf
  unfold qMin at h
  rw [e] at h
  split at h
  · cases h
  · split at h
    · cases h
    · split at h
      · cases h
        refine ⟨by assumption, abs_le.2 (by assumption), rfl⟩
      · cases h

theorem beamAngle_eq (place sat vel : Surface.V) (a : ℝ) (h : Surface.beamAngle place sat vel = some a) :
    place ≠ sat ∧ vel ≠ 0 ∧ a = InnerProductGeometry.angle (place - sat) vel := by
  unfold Surface.beamAngle at h
  split at h
  · cases h
  · rename_i hne
    have h1 : ‖place - sat‖ ≠ 0 := fun h => hne (by rw [h, zero_mul])
    have h2 : ‖vel‖ ≠ 0 := fun h => hne (by rw [h, mul_zero])
    refine ⟨fun h => h1 (by rw [h, sub_self, norm_zero]), norm_ne_zero_iff.1 h2, ?_⟩
    unfold Geo.npArccos at h
    split at h
    · cases h
      unfold InnerProductGeometry.angle
      congr 2
      rw [PiLp.inner_apply]
      refine Finset.sum_congr rfl (fun i _ => ?_)
      simp [mul_comm]
    · cases h

theorem doppler_value (c : Conf) (hv : c.surface.cst.Valid) (hm : c.meanAlt ≠ 0) (r : Raw) (d : ℝ) (h : doppler c r = some d) :
    d = - r.slope ∧ |inner ℝ r.up r.vel| < ‖r.vel‖ := by
  have hr : ∀ x, radians x = x * (π / 180) := fun x => by unfold radians; ring
  have hn : Surface.ecef c.surface (radians r.lat) (radians r.lon) (r.alt - c.meanAlt) - (burst c r).sat = (-c.meanAlt) • r.up := by
    show Surface.ecef c.surface (radians r.lat) (radians r.lon) (r.alt - c.meanAlt) -
      Surface.ecef c.surface (radians r.lat) (radians r.lon) r.alt = _
    rw [hr, hr]
    unfold Surface.ecef
    rw [Geo.lla2ecef_eq hv, Geo.lla2ecef_eq hv]
    ext i
    fin_cases i <;> simp [vertical, Raw.up] <;> ring
  have hup : ‖r.up‖ = 1 := vertical_unit _ _
  unfold doppler at h
  rw [hn] at h
  have hn0 : (-c.meanAlt) • r.up ≠ 0 := by
    rw [← norm_ne_zero_iff, norm_smul, hup]
    simpa using hm
  by_cases hx : Calib.cross (Calib.cross ((-c.meanAlt) • r.up) r.vel) ((-c.meanAlt) • r.up) = 0
  · rw [Calib.doppler_vertical _ _ _ hx] at h; cases h
  · rw [Calib.doppler_eq _ _ hn0 hx] at h
    cases h
    have hvel : r.vel ≠ 0 := by
      intro h0
      apply hx
      rw [Calib.cross_cross, h0]
      simp
    have hpos : 0 < ‖r.vel‖ := norm_pos_iff.2 hvel
    have he : |Calib.descent ((-c.meanAlt) • r.up) r.vel| = |inner ℝ r.up r.vel| / ‖r.vel‖ := by
      unfold Calib.descent
      rw [inner_smul_left, norm_smul, hup, abs_div, abs_mul, mul_one, abs_mul, abs_norm]
      simp only [conj_trivial, Real.norm_eq_abs, abs_neg]
      rw [mul_div_mul_left _ _ (abs_ne_zero.2 hm), abs_norm]
    have hlt := (sq_lt_one_iff_abs_lt_one _).1 (Calib.descent_sq_lt _ _ hn0 hx)
    rw [he, div_lt_one hpos] at hlt
    refine ⟨?_, hlt⟩
    unfold Raw.slope
    rw [he]

theorem inView_band (c : Conf) (hv : c.surface.cst.Valid) (hm : c.meanAlt ≠ 0) (h0 : 0 < c.pri) (h1 : 0 < c.freq)
    (file : ℕ → Raw) (place : Surface.V) (id : ℕ) (a : ℝ) (h : InView c file place id a) : InBand c (file id) place a := by
  obtain ⟨h2, q, d, h3, h4, h5, h6⟩ := h
  obtain ⟨b1, b2, b3⟩ := beamAngle_eq _ _ _ _ h2
  obtain ⟨q1, q2, q3⟩ := qMin_ok (norm_nonneg _) h3
  obtain ⟨d1, d2⟩ := doppler_value c hv hm _ _ h4
  have hpos : 0 < ‖(file id).vel‖ := norm_pos_iff.2 b2
  refine ⟨b1, ?_, d2, b3, ?_⟩
  · have := (abs_le.1 q2).2
    rw [div_le_one (by positivity)] at this
    rw [div_le_iff₀ (by positivity)]
    linarith
  · rw [abs_le]
    subst q3 d1
    constructor <;> linarith

/-- **C157.**  Each look of a record in either product is taken from a burst in which the place of the record was seen within the
unambiguous band: its angle from the velocity differs from a right angle, less the slope of the flight, by at most the arc sine
of c / (4 PRI f v).  Bursts which are too slow or fly straight up or down give no look. -/
theorem looks_in_band (c : Conf) (hv : c.surface.cst.Valid) (hm : c.meanAlt ≠ 0) (h0 : 0 < c.pri) (h1 : 0 < c.freq) (o : World)
    (alg : Surface.Alg) (file : ℕ → Raw) (n : ℕ) (hf : c.focusing = false) (rec : Record)
    (hrec : rec ∈ (process c o alg file n).state.l1b ∨ rec ∈ (process c o alg file n).state.l1bs) :
    ∀ row ∈ rec.result.gathered.rows, InBand c (file row.burst) rec.loc.surf row.beamAngle :=
  fun row hrow => inView_band c hv hm h0 h1 file _ _ _ ((looks_aimed c o alg file n).2.2 hf rec hrec row hrow)

/-- **C157** in level flight: the Doppler shift of the place is at most half the pulse repetition frequency. -/
theorem looks_unambiguous (c : Conf) (hv : c.surface.cst.Valid) (hm : c.meanAlt ≠ 0) (h0 : 0 < c.pri) (h1 : 0 < c.freq)
    (h2 : 0 < c.c) (o : World) (alg : Surface.Alg) (file : ℕ → Raw) (n : ℕ) (hf : c.focusing = false) (rec : Record)
    (hrec : rec ∈ (process c o alg file n).state.l1b ∨ rec ∈ (process c o alg file n).state.l1bs) :
    ∀ row ∈ rec.result.gathered.rows, inner ℝ (file row.burst).up (file row.burst).vel = 0 →
      |dopplerShift c.freq c.c (burst c (file row.burst)).sat (file row.burst).vel rec.loc.surf| ≤ 1 / c.pri / 2 := by
  intro row hrow hlevel
  obtain ⟨b1, b2, b3, b4, b5⟩ := looks_in_band c hv hm h0 h1 o alg file n hf rec hrec row hrow
  set r := file row.burst
  have hpos : 0 < ‖r.vel‖ := (abs_nonneg _).trans_lt b3
  have hs : r.slope = 0 := by unfold Raw.slope; rw [hlevel]; simp
  rw [hs, add_zero] at b5
  set L := c.c / (4 * c.pri * c.freq * ‖r.vel‖) with hL
  have hL0 : 0 < L := by positivity
  have hL1 : L ≤ 1 := by
    rw [hL, div_le_one (by positivity)]
    rw [div_le_iff₀ (by positivity)] at b2
    linarith
  have hcos : |cos row.beamAngle| ≤ L := by
    have e : cos row.beamAngle = sin (π / 2 - row.beamAngle) := (sin_pi_div_two_sub _).symm
    have b5' := abs_le.1 b5
    have hmL := arcsin_le_pi_div_two L
    rw [e, abs_le]
    constructor
    · have := sin_le_sin_of_le_of_le_pi_div_two (x := -arcsin L) (y := π / 2 - row.beamAngle) (by linarith) (by linarith) (by linarith)
      rwa [sin_neg, sin_arcsin (by linarith) hL1] at this
    · have := sin_le_sin_of_le_of_le_pi_div_two (x := π / 2 - row.beamAngle) (y := arcsin L) (by linarith) (by linarith) (by linarith)
      rwa [sin_arcsin (by linarith) hL1] at this
  have hd : 0 < ‖rec.loc.surf - (burst c r).sat‖ := norm_pos_iff.2 (sub_ne_zero.2 b1)
  have he : inner ℝ r.vel (rec.loc.surf - (burst c r).sat) / ‖rec.loc.surf - (burst c r).sat‖ = ‖r.vel‖ * cos row.beamAngle := by
    rw [b4, InnerProductGeometry.cos_angle, real_inner_comm]
    field_simp
  unfold dopplerShift
  rw [he, abs_div, abs_mul (2 * c.freq), abs_mul ‖r.vel‖, abs_norm, abs_of_pos h2, abs_of_pos (by positivity : 0 < 2 * c.freq), div_le_iff₀ h2]
  calc 2 * c.freq * (‖r.vel‖ * |cos row.beamAngle|) ≤ 2 * c.freq * (‖r.vel‖ * L) := by gcongr
    _ = 1 / c.pri / 2 * c.c := by rw [hL]; field_simp; norm_num

/-- The run of the example writes a record with a look from a burst in level flight. -/
example (alg : Surface.Alg) : ∃ s rec, process demoConf (demoWorld realArg) alg demoFile 2 = .finished s ∧ rec ∈ s.l1b ∧
    demoConf.surface.cst.Valid ∧ demoConf.meanAlt ≠ 0 ∧ 0 < demoConf.pri ∧ 0 < demoConf.freq ∧ 0 < demoConf.c ∧
    demoConf.focusing = false ∧ ∃ row ∈ rec.result.gathered.rows, row.burst = 0 ∧
      inner ℝ (demoFile row.burst).up (demoFile row.burst).vel = 0 := by
  obtain ⟨s, rec, h1, h2, _, _, _, h3, _⟩ := demo_run realArg realArg_isArgsort alg
  refine ⟨s, rec, h1, by rw [h2]; simp, ?_, by norm_num [demoConf], by norm_num [demoConf], by norm_num [demoConf],
    by norm_num [demoConf], rfl, ?_⟩
  · constructor <;> norm_num [demoConf, Conf.surface]
  · have h4 : rec.result.gathered.rows.map (·.burst) = [0] := h3
    obtain ⟨row, hrow, e⟩ := List.mem_map.1 (by rw [h4]; simp : (0 : ℕ) ∈ rec.result.gathered.rows.map (·.burst))
    refine ⟨row, hrow, e, ?_⟩
    rw [e, Calib.inner_eq]
    simp [Raw.up, vertical, demoFile]

end Dedop.Whole
