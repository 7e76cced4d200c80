import Verif.Chain.Props
import Mathlib.Analysis.Real.Pi.Bounds

/-! # A case which meets the hypotheses of C107 -/
namespace Dedop.Chain

open Finset Signal Stack

/-- Two pulses of eight samples, padding factor 2, two looks, both corrections, masking.  Used in the
examples only. -/
noncomputable def demoConf (exact : Bool) : Conf :=
  { pulses := 2, samples := 8, zp := 2, looks := 2, window := fun _ => 1, exactMethod := exact
    dopplerOn := true, slantOn := true, maskOn := true, avoidZeros := true, c := 3, wavelength := 1
    pulseLength := 1, bandwidth := 1, angleMin := some (-1), angleMax := some 1 }

/-- The surface of the examples. -/
def demoSurf : Surf := ⟨fun _ => 0, 5⟩

/-- The angles of the two beams of each burst: nadir and 60 degrees to the velocity. -/
noncomputable def demoAngle (j : ℕ) : ℝ := if j = 0 then Real.pi / 2 else Real.pi / 3

/-- Burst `id`, at distance 10 + `id`, sees the point in its beam `id` at position `id` of the window,
with amplitude `A`. -/
noncomputable def demoBurst (A : ℂ) (id : ℕ) : L1A :=
  let sat : Fin 3 → ℝ := ![0, 0, 10 + id]
  let d : ℝ := dist (WithLp.toLp 2 sat : EuclideanSpace ℝ (Fin 3)) (WithLp.toLp 2 demoSurf.pos)
  { wfm := fun p i => A *
      Complex.exp (-(Complex.I *
        (2 * Real.pi * (2 * (d - 1 * Real.cos (demoAngle id) * ((1 / 2) * p)) / 1) : ℝ))) *
      Complex.exp (Complex.I * (2 * Real.pi * ((id : ℝ) * i / 8) : ℝ))
    angles := [Real.pi / 2, Real.pi / 3], trend := 0, velocity := 1, pri := 1 / 2
    doppler := 0, pitch := 0, t0 := 1, seqCount := id, rmc := false
    winDelay := 2 * d / 3 + 2 * (1 * Real.cos (demoAngle id)) - id, sat := sat }

theorem demo_sees (exact : Bool) (A : ℂ) (id : ℕ) (h : id < 2) :
    Sees (demoConf exact) demoSurf (demoBurst A id) id A := by
  have hpos : position (demoConf exact) demoSurf (demoBurst A id) (demoAngle id) = id := by
    unfold position delay dopplerFreq distance
    simp only [demoBurst, demoConf]
    ring
  have hpi := Real.pi_pos
  have h3 := Real.pi_gt_three
  have h4 := Real.pi_lt_four
  have hid : id = 0 ∨ id = 1 := by omega
  refine ⟨h, by simp [demoBurst], demoAngle id, ?_, ?_, ?_, ?_, ?_, ?_, ?_⟩
  · rcases hid with rfl | rfl <;> simp [demoBurst, demoAngle]
  · rcases hid with rfl | rfl <;> simp [demoAngle] <;> linarith
  · rcases hid with rfl | rfl <;> simp [demoAngle] <;> linarith
  · intro p i _ _
    rw [hpos]
    rfl
  · right
    refine ⟨by simp [Azimuth.TrendOk, azBurst, demoBurst, demoConf], ?_⟩
    intro a ha
    have : a = Real.pi / 3 := by
      simpa [Azimuth.nadirAngle, Azimuth.nadirIndex, Azimuth.pyIndex, demoBurst, demoConf] using ha.symm
    subst this
    rcases hid with rfl | rfl
    · simp only [azBurst, demoBurst, demoConf, demoAngle, if_true, Real.cos_pi_div_two, Real.cos_pi_div_three,
        Beams.absIndex]
      norm_num
      ring
    · simp [azBurst, demoBurst, demoConf, demoAngle, Real.cos_pi_div_three, Beams.absIndex]
  · rw [hpos]
    rcases hid with rfl | rfl <;> simp [demoConf] <;> norm_num
  · intro lo hi hlo hhi
    simp only [maskConf, demoConf, Option.some.injEq] at hlo hhi
    subst hlo; subst hhi
    rcases hid with rfl | rfl <;> simp [demoBurst, demoAngle] <;> constructor <;> linarith

/-- The surface seen by both bursts, with either azimuth method: the centre (sample 8 of 16) has 8 times
the power of the echoes, two coherent pulses times eight coherent samples over the padding, and no
sample is as large.  Rounding to the nearest integer is `Int.floor (x + 1/2)` here. -/
theorem demo_surface (exact : Bool) (argsort : List ℝ → List ℕ) (ha : IsArgsort argsort) (A : ℂ)
    (hA : A ≠ 0) :
    ∃ r, surface argsort (fun x => ⌊x + 1 / 2⌋) (fun _ => 0) (demoConf exact) (demoBurst A) demoSurf 0
        [(0, 0, 0), (1, 1, 1)] = .ok (some r) ∧
      r.out.waveform[8]? = some (some (‖A‖ ^ 2 * 8)) ∧
      ∀ k y, r.out.waveform[k]? = some (some y) → k ≠ 8 → y < ‖A‖ ^ 2 * 8 := by
  have hg : gain (demoConf exact) = 8 := by
    unfold gain
    simp [demoConf]
    norm_num
  have := point_peak_exact argsort ha (fun x => ⌊x + 1 / 2⌋)
    (by
      intro x
      have h1 := Int.floor_le (x + 1 / 2)
      have h2 := Int.lt_floor_add_one (x + 1 / 2)
      rw [abs_le]; constructor <;> linarith)
    (fun _ => 0) (demoConf exact) (demoBurst A) demoSurf 0 [(0, 0, 0), (1, 1, 1)] (fun _ => A)
    (by simp [demoConf]) (by simp [demoConf]) (by simp [demoConf]) (by simp [demoConf]) (by simp [demoConf])
    rfl rfl (by simp) (by simp [demoConf])
    (by
      intro l hl
      simp only [List.mem_cons, List.not_mem_nil, or_false] at hl
      rcases hl with rfl | rfl
      · exact demo_sees exact A 0 (by norm_num)
      · exact demo_sees exact A 1 (by norm_num))
    (‖A‖ ^ 2) (by positivity) (by simp) (by simp [demoConf])
  have hc : (demoConf exact).zp * (demoConf exact).samples / 2 = 8 := by simp [demoConf]
  rw [hg, hc] at this
  exact this

end Dedop.Chain
