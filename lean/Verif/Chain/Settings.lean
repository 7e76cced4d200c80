import Verif.Chain.Single
import Verif.Chain.Steering

/-! # Settings which change the waveform (C103) -/
namespace Dedop.Chain

open Finset Signal Stack

/-! ## Specification -/

/-- The options of the configuration file used from the azimuth processing to the multilooking, and the two
bounds of the look angle of the characterisation file.  Specification only. -/
inductive Setting where
  | azimuthMethod
  | azimuthWindow
  | azimuthWidth
  | doppler
  | slant
  | masking
  | avoidZeros
  | padding
  | looks
  | angleMin
  | angleMax
  deriving DecidableEq, Repr

/-- The window of the configuration `c` is the one constructed for a shape and a width. -/
def HasWindow (c : Conf) (shape : Azimuth.Windowing) (width : ℕ) : Prop :=
  Azimuth.azimuthWindow c.pulses shape width = .ok ((List.range c.pulses).map (fun p => some (c.window p)))

/-- `c2` is `c1` with another value of the setting and nothing else changed. -/
def Changed : Setting → Conf → Conf → Prop
  | .azimuthMethod, c1, c2 => c2 = { c1 with exactMethod := c2.exactMethod }
  | .azimuthWindow, c1, c2 => c2 = { c1 with window := c2.window } ∧
      ∃ width shape1 shape2, HasWindow c1 shape1 width ∧ HasWindow c2 shape2 width
  | .azimuthWidth, c1, c2 => c2 = { c1 with window := c2.window } ∧
      ∃ shape width1 width2, HasWindow c1 shape width1 ∧ HasWindow c2 shape width2
  | .doppler, c1, c2 => c2 = { c1 with dopplerOn := c2.dopplerOn }
  | .slant, c1, c2 => c2 = { c1 with slantOn := c2.slantOn }
  | .masking, c1, c2 => c2 = { c1 with maskOn := c2.maskOn }
  | .avoidZeros, c1, c2 => c2 = { c1 with avoidZeros := c2.avoidZeros }
  | .padding, c1, c2 => c2 = { c1 with zp := c2.zp }
  | .looks, c1, c2 => c2 = { c1 with looks := c2.looks }
  | .angleMin, c1, c2 => c2 = { c1 with angleMin := c2.angleMin }
  | .angleMax, c1, c2 => c2 = { c1 with angleMax := c2.angleMax }

/-- The waveform written for the surface, if there is a record. -/
def waveformOf : Except PyErr (Option Result) → Option (List (Option ℝ))
  | .ok (some r) => some r.out.waveform
  | _ => none

/-! ## Lemmas -/

/-- Rounding to the nearest integer. -/
noncomputable def nearest (x : ℝ) : ℤ := ⌊x + 1 / 2⌋

/-- The constants of the examples. -/
def Plain (c : Conf) : Prop :=
  c.pulses = 2 ∧ c.samples = 8 ∧ c.c = 3 ∧ c.wavelength = 1 ∧ c.pulseLength = 1 ∧ c.bandwidth = 1 ∧
    c.exactMethod = true ∧ 0 < c.zp

theorem plain_position (c : Conf) (h : Plain c) :
    position c demoSurf (demoBurst 1 1) (Real.pi / 3) = 1 := by
  obtain ⟨_, _, h3, h4, h5, h6, _⟩ := h
  unfold position delay dopplerFreq distance
  simp only [demoBurst, demoAngle, h3, h4, h5, h6, Real.cos_pi_div_three]
  norm_num

theorem plain_echo (c : Conf) (h : Plain c) : PointEcho c demoSurf (demoBurst 1 1) (Real.pi / 3) 1 := by
  intro p i _ _
  rw [plain_position c h]
  obtain ⟨_, h2, h3, h4, h5, h6, _⟩ := h
  simp only [demoBurst, demoAngle, h2, h4, distance, one_ne_zero, if_false, Real.cos_pi_div_three]
  norm_num

theorem plain_distance : distance demoSurf (demoBurst 1 1) = 11 := by
  unfold distance
  rw [EuclideanSpace.dist_eq]
  simp [demoBurst, demoSurf, Fin.sum_univ_three]
  norm_num
  rw [show (121 : ℝ) = 11 ^ 2 by norm_num, Real.sqrt_sq (by norm_num)]

/-- The shift of the look of the examples. -/
theorem plain_shift (c : Conf) (h : Plain c) (row : Row ℝ (ℕ → ℂ)) (ha : row.beamAngle = Real.pi / 3)
    (ht : row.t0 = (demoBurst 1 1).t0) :
    totalShift (geo c demoSurf (demoBurst 1 1) row) =
      -1 + (if c.dopplerOn then 0 else 1) + (if c.slantOn then 0 else 7 / 3) := by
  obtain ⟨_, _, h3, h4, h5, h6, _⟩ := h
  have hr : rangeSatSurf (geo c demoSurf (demoBurst 1 1) row) = 11 := by
    rw [slant_range_is_distance, ← plain_distance]; rfl
  have hw : (demoBurst 1 1).winDelay = 22 / 3 := by
    have : (demoBurst 1 1).winDelay = 2 * distance demoSurf (demoBurst 1 1) / 3 +
        2 * (1 * Real.cos (demoAngle 1)) - ((1 : ℕ) : ℝ) := rfl
    rw [this, plain_distance]
    simp [demoAngle, Real.cos_pi_div_three]
    norm_num
  unfold totalShift dopplerCorrection slantCorrection winDelayCorrection
  rw [hr]
  simp only [geo, h3, h4, h5, h6, ha, ht, hw, Real.cos_pi_div_three]
  simp only [demoBurst, demoSurf]
  cases c.dopplerOn <;> cases c.slantOn <;> norm_num

/-- What is written for the look of the examples. -/
theorem plain_run (argsort : List ℝ → List ℕ) (ha : IsArgsort argsort) (c : Conf) (h : Plain c)
    (hl : 1 ≤ c.looks) :
    (1 < c.looks / 2 → waveformOf (surface argsort nearest (fun _ => 0) c (fun _ => demoBurst 1 1) demoSurf 0
      [(1, 1, 0)]) = none) ∧
    (c.looks / 2 ≤ 1 → ∃ w beam, waveformOf (surface argsort nearest (fun _ => 0) c (fun _ => demoBurst 1 1)
        demoSurf 0 [(1, 1, 0)]) = some w ∧
      FocussedAt c demoSurf (demoBurst 1 1) (Real.pi / 3) (focusAmp c demoSurf (demoBurst 1 1) 1) beam ∧
      w.length ≤ 8 * c.zp ∧
      ∀ col < 8 * c.zp,
        let shift : ℝ := -1 + (if c.dopplerOn then 0 else 1) + (if c.slantOn then 0 else 7 / 3)
        let kept := Kept nearest c shift (Real.pi / 6)
        (kept col → w[col]? = some (some (compress c.zp 8 (applyShift 8 shift beam) col))) ∧
        (¬ kept col → c.avoidZeros = true → w[col]? = some none) ∧
        (¬ kept col → (∃ other < 8 * c.zp, kept other) → c.avoidZeros = false → w[col]? = some (some 0)) ∧
        ((∀ other < 8 * c.zp, ¬ kept other) → w[col]? = some none)) := by
  have hpi := Real.pi_pos
  have hh := h
  obtain ⟨h1, h2, _, _, _, _, h7, h8⟩ := h
  obtain ⟨row, r1, r2, r3, r4, r5, r6⟩ := single_look argsort ha nearest (fun _ => 0) c (demoBurst 1 1) demoSurf 0
    (Real.pi / 3) 1 h7 (by omega) hl (by rw [h2]; omega) (by simp [demoBurst]) (by linarith) (by linarith)
    (plain_echo c hh)
  have hsh := plain_shift c hh row r1 r2
  have hlook : Real.pi / 2 + (demoBurst 1 1).doppler - Real.pi / 3 = Real.pi / 6 := by
    simp only [demoBurst]; ring
  rw [hsh, hlook, h2] at r6
  refine ⟨fun hlt => by rw [r5 hlt]; rfl, ?_⟩
  intro hle
  obtain ⟨r, w1, w2, w3⟩ := r6 hle
  exact ⟨r.out.waveform, row.beam, by rw [w1]; rfl, r4, w2, w3⟩

/-- The centre of the look of the examples: the gain, or less if a correction is off. -/
theorem plain_centre (argsort : List ℝ → List ℕ) (ha : IsArgsort argsort) (c : Conf) (h : Plain c)
    (hl : 1 ≤ c.looks) (hl' : c.looks / 2 ≤ 1) (hav : c.avoidZeros = true)
    (hacc : AngleAccepts (maskConf c) (Real.pi / 6))
    (hw : ∑ p ∈ range c.pulses, c.window p ≠ 0) :
    ∃ w, waveformOf (surface argsort nearest (fun _ => 0) c (fun _ => demoBurst 1 1) demoSurf 0
        [(1, 1, 0)]) = some w ∧
      (c.dopplerOn = true → c.slantOn = true → w[c.zp * 4]? = some (some (gain c))) ∧
      (c.dopplerOn = false ∨ c.slantOn = false → w[c.zp * 4]? ≠ some (some (gain c))) := by
  obtain ⟨w, beam, w1, w2, _, w4⟩ := (plain_run argsort ha c h hl).2 hl'
  refine ⟨w, w1, ?_⟩
  have hpos := plain_position c h
  obtain ⟨h1, h2, _, _, _, _, h7, h8⟩ := h
  obtain ⟨k1, k2, _, _⟩ := w4 (c.zp * 4) (by omega)
  have hg : gain c = ‖focusAmp c demoSurf (demoBurst 1 1) 1‖ ^ 2 * ((8 : ℕ) / c.zp) := by
    rw [focusAmp_sq, gain, h2]; simp
  have hB : focusAmp c demoSurf (demoBurst 1 1) 1 ≠ 0 := by
    intro h0
    have := focusAmp_sq c demoSurf (demoBurst 1 1) 1
    rw [h0, h1] at this
    have hw' := sq_pos_of_ne_zero (h1 ▸ hw)
    simp only [norm_zero, norm_one, one_pow, one_mul, Nat.cast_ofNat] at this
    norm_num at this
    exact (pow_ne_zero 2 (h1 ▸ hw)) (by simpa using this.symm)
  have hbeam : ∀ shift : ℝ, ∀ i < 8, applyShift 8 shift beam i = focusAmp c demoSurf (demoBurst 1 1) 1 *
      Complex.exp (Complex.I * ((2 * Real.pi * ((shift + 1) * i / (8 : ℕ)) : ℝ) : ℂ)) := by
    intro shift i hi
    unfold applyShift
    rw [w2 i (by omega), hpos, h2, mul_left_comm, ← Complex.exp_add]
    congr 2
    push_cast
    ring
  have hcen : c.zp * 4 = c.zp * 8 / 2 := by omega
  constructor
  · intro hd hs
    have hk : Kept nearest c (-1 + (if c.dopplerOn then 0 else 1) + (if c.slantOn then 0 else 7 / 3))
        (Real.pi / 6) (c.zp * 4) := by
      intro _
      refine ⟨?_, hacc⟩
      have : nearest (-1 + (if c.dopplerOn then 0 else 1) + (if c.slantOn then 0 else 7 / 3)) = -1 := by
        unfold nearest
        rw [hd, hs, Int.floor_eq_iff]
        norm_num
      rw [this]
      unfold GeomAccepts
      simp only [maskConf, h2]
      constructor <;> push_cast <;> omega
    rw [k1 hk, hg, hcen]
    congr 2
    refine compress_centre c.zp 8 h8 (by norm_num) _ _ ?_
    intro i hi
    rw [hbeam _ i hi, hd, hs]
    simp
  · intro hoff
    by_cases hk : Kept nearest c (-1 + (if c.dopplerOn then 0 else 1) + (if c.slantOn then 0 else 7 / 3))
        (Real.pi / 6) (c.zp * 4)
    · rw [k1 hk, hcen, hg]
      have := compress_misplaced c.zp 8 h8 (by norm_num)
        (applyShift 8 (-1 + (if c.dopplerOn then 0 else 1) + (if c.slantOn then 0 else 7 / 3)) beam)
        _ _ (hbeam _) hB
        (by
          intro h0
          rw [Complex.exp_eq_one_iff] at h0
          obtain ⟨n, hn⟩ := h0
          have hpi : (2 * Real.pi * Complex.I : ℂ) ≠ 0 := Complex.two_pi_I_ne_zero
          have e : ((((-1 + (if c.dopplerOn then 0 else 1) + (if c.slantOn then 0 else 7 / 3) + 1) / (8 : ℕ) : ℝ)) : ℂ) =
              (n : ℂ) := by
            apply mul_left_cancel₀ hpi
            rw [mul_comm _ (n : ℂ), ← hn]
            push_cast
            ring
          have e' : ((-1 + (if c.dopplerOn then 0 else 1) + (if c.slantOn then 0 else 7 / 3) + 1) / (8 : ℕ) : ℝ) = n := by
            exact_mod_cast e
          have lo : (0 : ℝ) < n := by
            rw [← e']
            rcases hoff with h | h <;> rw [h] <;> simp <;> split_ifs <;> norm_num
          have hi : (n : ℝ) < 1 := by
            rw [← e']
            split_ifs <;> norm_num
          have lo' : 0 < n := by exact_mod_cast lo
          have hi' : n < 1 := by exact_mod_cast hi
          omega)
      intro h0
      simp only [Option.some.injEq] at h0
      linarith
    · rw [k2 hk hav]
      simp

/-! ## C103 -/

/-- **C103, what has an effect.**  For each of these settings there are two configurations which differ in it
only, and bursts and looks of a surface, for which the waveform written (or whether one is written)
differs. -/
theorem setting_changes_waveform (st : Setting) (argsort : List ℝ → List ℕ) (ha : IsArgsort argsort) :
    ∃ (c1 c2 : Conf) (bursts : ℕ → L1A) (s : Surf) (looks : Looks), Changed st c1 c2 ∧
      waveformOf (surface argsort nearest (fun _ => 0) c1 bursts s 0 looks) ≠
        waveformOf (surface argsort nearest (fun _ => 0) c2 bursts s 0 looks) := by
  have hpi := Real.pi_pos
  have h4 := Real.pi_lt_four
  have acc : ∀ c : Conf, c.angleMin = some (-1) → c.angleMax = some 1 → AngleAccepts (maskConf c) (Real.pi / 6) := by
    intro c e1 e2 lo hi hlo hhi
    simp only [maskConf, e1, e2, Option.some.injEq] at hlo hhi
    subst hlo; subst hhi
    constructor <;> linarith
  have base := plain_centre argsort ha (demoConf true) (by simp [Plain, demoConf]) (by simp [demoConf])
    (by simp [demoConf]) rfl (acc _ rfl rfl) (by simp [demoConf])
  obtain ⟨w, w1, w2, _⟩ := base
  have hg : gain (demoConf true) = 8 := by
    unfold gain
    simp [demoConf]
    norm_num
  have hw8 : w[8]? = some (some 8) := by
    have := w2 rfl rfl
    rw [hg] at this
    exact this
  have sb0 : Reader.sliceBound 2 0 = 0 := by decide
  have sb1 : Reader.sliceBound 2 1 = 1 := by decide
  have sb2 : Reader.sliceBound 2 2 = 2 := by decide
  have near : nearest (-1) = -1 := by
    unfold nearest
    rw [Int.floor_eq_iff]
    norm_num
  cases st with
  | azimuthMethod =>
    refine ⟨demoConf true, demoConf false, fun _ => slowBurst 1, demoSurf, [(0, 0, 0)], rfl, ?_⟩
    obtain ⟨r1, a1, a2⟩ := approximate_loses true argsort ha 1
    obtain ⟨r2, b1, b2⟩ := approximate_loses false argsort ha 1
    unfold nearest
    rw [a1, b1]
    intro h
    have : r1.out.waveform = r2.out.waveform := Option.some.inj h
    rw [this, b2] at a2
    norm_num at a2
  | azimuthWindow =>
    refine ⟨demoConf true, { demoConf true with window := fun p => if p = 0 then 0 else 1 },
      fun _ => demoBurst 1 1, demoSurf, [(1, 1, 0)], ⟨rfl, 1, .disabled, .boxcar, ?_, ?_⟩, ?_⟩
    · simp [HasWindow, Azimuth.azimuthWindow, demoConf, List.range_succ]
    · simp [HasWindow, Azimuth.azimuthWindow, Azimuth.assignSlice, demoConf, List.range_succ, sb0, sb1, sb2]
    · obtain ⟨v, v1, v2, _⟩ := plain_centre argsort ha
        { demoConf true with window := fun p => if p = 0 then 0 else 1 } (by simp [Plain, demoConf])
        (by simp [demoConf]) (by simp [demoConf]) rfl (acc _ rfl rfl) (by simp [demoConf, sum_range_succ])
      rw [w1, v1]
      intro h
      have h' := Option.some.inj h
      have := v2 rfl rfl
      rw [← h'] at this
      have e : (w[8]? : Option (Option ℝ)) = some (some (gain
        { demoConf true with window := fun p => if p = 0 then 0 else 1 })) := this
      rw [hw8] at e
      simp [gain, demoConf, sum_range_succ] at e
      norm_num at e
  | azimuthWidth =>
    refine ⟨demoConf true, { demoConf true with window := fun p => if p = 0 then 0 else 1 },
      fun _ => demoBurst 1 1, demoSurf, [(1, 1, 0)], ⟨rfl, .boxcar, 2, 1, ?_, ?_⟩, ?_⟩
    · simp [HasWindow, Azimuth.azimuthWindow, Azimuth.assignSlice, demoConf, List.range_succ, sb0, sb1, sb2]
    · simp [HasWindow, Azimuth.azimuthWindow, Azimuth.assignSlice, demoConf, List.range_succ, sb0, sb1, sb2]
    · obtain ⟨v, v1, v2, _⟩ := plain_centre argsort ha
        { demoConf true with window := fun p => if p = 0 then 0 else 1 } (by simp [Plain, demoConf])
        (by simp [demoConf]) (by simp [demoConf]) rfl (acc _ rfl rfl) (by simp [demoConf, sum_range_succ])
      rw [w1, v1]
      intro h
      have h' := Option.some.inj h
      have := v2 rfl rfl
      rw [← h'] at this
      have e : (w[8]? : Option (Option ℝ)) = some (some (gain
        { demoConf true with window := fun p => if p = 0 then 0 else 1 })) := this
      rw [hw8] at e
      simp [gain, demoConf, sum_range_succ] at e
      norm_num at e
  | doppler =>
    refine ⟨demoConf true, { demoConf true with dopplerOn := false },
      fun _ => demoBurst 1 1, demoSurf, [(1, 1, 0)], rfl, ?_⟩
    obtain ⟨v, v1, _, v2⟩ := plain_centre argsort ha { demoConf true with dopplerOn := false }
      (by simp [Plain, demoConf]) (by simp [demoConf]) (by simp [demoConf]) rfl (acc _ rfl rfl) (by simp [demoConf])
    rw [w1, v1]
    intro h
    have h' := Option.some.inj h
    apply v2 (Or.inl rfl)
    rw [← h']
    exact w2 rfl rfl
  | slant =>
    refine ⟨demoConf true, { demoConf true with slantOn := false },
      fun _ => demoBurst 1 1, demoSurf, [(1, 1, 0)], rfl, ?_⟩
    obtain ⟨v, v1, _, v2⟩ := plain_centre argsort ha { demoConf true with slantOn := false }
      (by simp [Plain, demoConf]) (by simp [demoConf]) (by simp [demoConf]) rfl (acc _ rfl rfl) (by simp [demoConf])
    rw [w1, v1]
    intro h
    have h' := Option.some.inj h
    apply v2 (Or.inr rfl)
    rw [← h']
    exact w2 rfl rfl
  | masking =>
    refine ⟨demoConf true, { demoConf true with maskOn := false },
      fun _ => demoBurst 1 1, demoSurf, [(1, 1, 0)], rfl, ?_⟩
    obtain ⟨v1, _, a1, _, _, a2⟩ := (plain_run argsort ha (demoConf true) (by simp [Plain, demoConf])
      (by simp [demoConf])).2 (by simp [demoConf])
    obtain ⟨v2, _, b1, _, _, b2⟩ := (plain_run argsort ha { demoConf true with maskOn := false }
      (by simp [Plain, demoConf]) (by simp [demoConf])).2 (by simp [demoConf])
    rw [a1, b1]
    intro h
    have h' := Option.some.inj h
    have x1 := (a2 15 (by simp [demoConf])).2.1 (by
      intro hk
      have := (hk rfl).1
      simp only [demoConf, if_true, add_zero] at this
      rw [near] at this
      simp [GeomAccepts, maskConf, demoConf] at this) rfl
    have x2 := (b2 15 (by simp [demoConf])).1 (fun h => by cases h)
    rw [h', x2] at x1
    cases x1
  | avoidZeros =>
    refine ⟨demoConf true, { demoConf true with avoidZeros := false },
      fun _ => demoBurst 1 1, demoSurf, [(1, 1, 0)], rfl, ?_⟩
    obtain ⟨v1, _, a1, _, _, a2⟩ := (plain_run argsort ha (demoConf true) (by simp [Plain, demoConf])
      (by simp [demoConf])).2 (by simp [demoConf])
    obtain ⟨v2, _, b1, _, _, b2⟩ := (plain_run argsort ha { demoConf true with avoidZeros := false }
      (by simp [Plain, demoConf]) (by simp [demoConf])).2 (by simp [demoConf])
    rw [a1, b1]
    intro h
    have h' := Option.some.inj h
    have x1 := (a2 15 (by simp [demoConf])).2.1 (by
      intro hk
      have := (hk rfl).1
      simp only [demoConf, if_true, add_zero] at this
      rw [near] at this
      simp [GeomAccepts, maskConf, demoConf] at this) rfl
    have x2 := (b2 15 (by simp [demoConf])).2.2.1 (by
      intro hk
      have := (hk rfl).1
      simp only [demoConf, if_true, add_zero] at this
      rw [near] at this
      simp [GeomAccepts, maskConf] at this)
      ⟨8, by simp [demoConf], by
        intro _
        refine ⟨?_, acc _ rfl rfl⟩
        simp only [demoConf, if_true, add_zero]
        rw [near]
        simp [GeomAccepts, maskConf]⟩ rfl
    rw [h', x2] at x1
    cases x1
  | padding =>
    refine ⟨demoConf true, { demoConf true with zp := 1 },
      fun _ => demoBurst 1 1, demoSurf, [(1, 1, 0)], rfl, ?_⟩
    obtain ⟨v2, _, b1, _, b3, _⟩ := (plain_run argsort ha { demoConf true with zp := 1 }
      (by simp [Plain, demoConf]) (by simp [demoConf])).2 (by simp [demoConf])
    rw [w1, b1]
    intro h
    have h' := Option.some.inj h
    rw [h', List.getElem?_eq_none (by simpa using b3)] at hw8
    cases hw8
  | looks =>
    refine ⟨demoConf true, { demoConf true with looks := 4 },
      fun _ => demoBurst 1 1, demoSurf, [(1, 1, 0)], rfl, ?_⟩
    rw [w1, (plain_run argsort ha { demoConf true with looks := 4 } (by simp [Plain, demoConf])
      (by simp)).1 (by simp)]
    simp
  | angleMin =>
    refine ⟨demoConf true, { demoConf true with angleMin := some (2 / 3) },
      fun _ => demoBurst 1 1, demoSurf, [(1, 1, 0)], rfl, ?_⟩
    obtain ⟨v2, _, b1, _, _, b2⟩ := (plain_run argsort ha { demoConf true with angleMin := some (2 / 3) }
      (by simp [Plain, demoConf]) (by simp [demoConf])).2 (by simp [demoConf])
    rw [w1, b1]
    intro h
    have h' := Option.some.inj h
    have x2 := (b2 8 (by simp [demoConf])).2.2.2 (by
      intro other _ hk
      have := ((hk rfl).2 (2 / 3) 1 rfl rfl).1
      linarith)
    rw [h', x2] at hw8
    cases hw8
  | angleMax =>
    refine ⟨demoConf true, { demoConf true with angleMax := some (1 / 2) },
      fun _ => demoBurst 1 1, demoSurf, [(1, 1, 0)], rfl, ?_⟩
    obtain ⟨v2, _, b1, _, _, b2⟩ := (plain_run argsort ha { demoConf true with angleMax := some (1 / 2) }
      (by simp [Plain, demoConf]) (by simp [demoConf])).2 (by simp [demoConf])
    rw [w1, b1]
    intro h
    have h' := Option.some.inj h
    have x2 := (b2 8 (by simp [demoConf])).2.2.2 (by
      intro other _ hk
      have := ((hk rfl).2 (-1) (1 / 2) rfl rfl).2
      linarith [Real.pi_gt_three])
    rw [h', x2] at hw8
    cases hw8

end Dedop.Chain
