import Verif.Writer.Readback
import Mathlib.Analysis.SpecialFunctions.Log.Base
/-!
# The same quantity in the two products of a record (C115)

The L1B and the L1BS file of a run get their records from the same surfaces.  A variable with the same name in both (apart from the name
of the product) should have the same value.
-/
namespace Dedop.Writer

/-- What a `write_record` method reads: the surface, its closest burst, the constants and its local variables
(l1b_writer.py 840-856, 1562-1579, l1bs_writer.py 627-649).  Arrays are considered entry by entry. -/
structure Env where
  surf : String → ℝ
  burst : String → ℝ
  cst : String → ℝ
  loc : String → ℝ

/-- The value of an expression of a `write_record` method (l1b_writer.py 862-934, 1581-1643, l1bs_writer.py 651-704); `none` is `None`. -/
noncomputable def Src.eval (v : Env) : Src → Option ℝ
  | .missing => none
  | .surf a => some (v.surf a)
  | .burst a => some (v.burst a)
  | .cst a => some (v.cst a)
  | .loc a => some (v.loc a)
  | .const x => some x
  | .neg e => (e.eval v).map (fun x => -x)
  | .degrees e => (e.eval v).map (fun x => x * 180 / Real.pi)
  | .sub e f => (e.eval v).bind fun x => (f.eval v).map fun y => x - y
  | .mul e f => (e.eval v).bind fun x => (f.eval v).map fun y => x * y
  | .div e f => (e.eval v).bind fun x => (f.eval v).map fun y => x / y

/-- The value a writer gives to a variable of a record. -/
noncomputable def written (sources : List (String × Src)) (v : Env) (name : String) : Option ℝ :=
  (sources.lookup name).bind fun e => e.eval v

/-- The variables which the L1BS file shares with an L1B file, by name without the name of the product. -/
def sharedNames : List String :=
  ["time", "UTC_day", "UTC_sec", "lat", "lon", "surf_type", "alt", "orb_alt_rate", "x_pos", "y_pos", "z_pos", "x_vel", "y_vel", "z_vel",
   "roll_sat_pointing", "pitch_sat_pointing", "yaw_sat_pointing", "range_ku", "int_path_cor_ku", "uso_cor", "agccode_ku", "agc_ku",
   "scale_factor_ku", "sig0_cal_ku", "i2q2_meas_ku", "nb_stack", "max_stack", "stdev_stack", "skew_stack", "kurt_stack", "beam_ang",
   "beam_form", "start_look_angle_stack", "stop_look_angle_stack", "start_beam_ang_stack", "stop_beam_ang_stack"]

/-- The remaining variables of the L1BS file. -/
def onlyL1bs : List String :=
  ["records_count", "meas_x_pos", "meas_y_pos", "meas_z_pos", "roll_sral_mispointing", "pitch_sral_mispointing", "yaw_sral_mispointing",
   "cog_cor", "snr_ku", "max_loc_stack", "burst_start_ind", "burst_stop_ind", "iq_scale_factor", "i_echoes_ku", "q_echoes_ku"]

/-- The lists are complete: the L1BS file has these variables and one that is never written, the extended L1B file has all of the first and none of the
second list. -/
theorem shared_complete :
    (∀ n ∈ l1bsDefs.map VarDef.name, n ∈ (sharedNames ++ onlyL1bs).map (· ++ "_l1bs_echo_sar_ku") ∨
      n = "power_var_stack_l1bs_echo_sar_ku") ∧
    (∀ b ∈ sharedNames, (b ++ "_l1b_echo_sar_ku") ∈ extendedDefs.map VarDef.name ∧ (b ++ "_l1bs_echo_sar_ku") ∈ l1bsDefs.map VarDef.name) ∧
    (∀ b ∈ onlyL1bs, (b ++ "_l1b_echo_sar_ku") ∉ (extendedDefs ++ s3Defs).map VarDef.name) := by
  decide +kernel

/-- The names which the extended L1B and the L1BS file fill from different sources. -/
def differing : List String :=
  ["surf_type", "roll_sat_pointing", "pitch_sat_pointing", "yaw_sat_pointing", "i2q2_meas_ku", "nb_stack", "beam_ang"]

/-- The names which the Sentinel-3 L1B and the L1BS file fill from different sources, or which only the L1BS file of the two has. -/
def differingS3 : List String :=
  ["surf_type", "roll_sat_pointing", "pitch_sat_pointing", "yaw_sat_pointing", "i2q2_meas_ku", "beam_ang",
   "start_look_angle_stack", "stop_look_angle_stack", "start_beam_ang_stack", "stop_beam_ang_stack"]

/-- The two methods run for the same surface: they see the same surface, burst and constants, and compute the day and second of the day in
the same way (the model `utc` of C55). -/
def SameRecord (v w : Env) : Prop :=
  v.surf = w.surf ∧ v.burst = w.burst ∧ v.cst = w.cst ∧ v.loc "utc_days" = w.loc "utc_days" ∧ v.loc "utc_secs" = w.loc "utc_secs"

/-- The local variables of an expression other than day and second of the day. -/
def Src.otherLocals : Src → Bool
  | .loc a => decide (a ≠ "utc_days" ∧ a ≠ "utc_secs")
  | .neg e => e.otherLocals
  | .degrees e => e.otherLocals
  | .sub e f => e.otherLocals || f.otherLocals
  | .mul e f => e.otherLocals || f.otherLocals
  | .div e f => e.otherLocals || f.otherLocals
  | _ => false

theorem eval_same (v w : Env) (h : SameRecord v w) (e : Src) (he : e.otherLocals = false) : e.eval v = e.eval w := by
  obtain ⟨h1, h2, h3, h4, h5⟩ := h
  induction e with
  | missing => rfl
  | surf a => simp [Src.eval, h1]
  | burst a => simp [Src.eval, h2]
  | cst a => simp [Src.eval, h3]
  | loc a =>
    simp only [Src.otherLocals, decide_eq_false_iff_not, not_and_or, not_not] at he
    rcases he with rfl | rfl
    · simp [Src.eval, h4]
    · simp [Src.eval, h5]
  | const x => rfl
  | neg e ih => simp [Src.eval, ih he]
  | degrees e ih => simp [Src.eval, ih he]
  | sub e f ih ih' =>
    simp only [Src.otherLocals, Bool.or_eq_false_iff] at he
    simp [Src.eval, ih he.1, ih' he.2]
  | mul e f ih ih' =>
    simp only [Src.otherLocals, Bool.or_eq_false_iff] at he
    simp [Src.eval, ih he.1, ih' he.2]
  | div e f ih ih' =>
    simp only [Src.otherLocals, Bool.or_eq_false_iff] at he
    simp [Src.eval, ih he.1, ih' he.2]

theorem written_same (a b : List (String × Src)) (v w : Env) (h : SameRecord v w) (m n : String)
    (hl : a.lookup m = b.lookup n) (ho : ((b.lookup n).map Src.otherLocals).getD false = false) :
    written a v m = written b w n := by
  unfold written
  rw [hl]
  cases he : b.lookup n with
  | none => rfl
  | some e =>
    rw [he] at ho
    exact eval_same v w h e ho

/-- **C115**, the part that holds: for the same record, the extended L1B and the L1BS file get the same value for all shared names but
seven, the Sentinel-3 L1B and the L1BS file for all but six of the shared names they both have. -/
theorem shared_values_partial (v w : Env) (h : SameRecord v w) (b : String) (hb : b ∈ sharedNames) :
    (b ∉ differing → written extendedSources v (b ++ "_l1b_echo_sar_ku") = written l1bsSources w (b ++ "_l1bs_echo_sar_ku")) ∧
    (b ∉ differingS3 → written s3Sources v (b ++ "_l1b_echo_sar_ku") = written l1bsSources w (b ++ "_l1bs_echo_sar_ku")) := by
  have h1 : ∀ b ∈ sharedNames, b ∉ differing →
      extendedSources.lookup (b ++ "_l1b_echo_sar_ku") = l1bsSources.lookup (b ++ "_l1bs_echo_sar_ku") ∧
      ((l1bsSources.lookup (b ++ "_l1bs_echo_sar_ku")).map Src.otherLocals).getD false = false := by decide +kernel
  have h2 : ∀ b ∈ sharedNames, b ∉ differingS3 →
      s3Sources.lookup (b ++ "_l1b_echo_sar_ku") = l1bsSources.lookup (b ++ "_l1bs_echo_sar_ku") ∧
      ((l1bsSources.lookup (b ++ "_l1bs_echo_sar_ku")).map Src.otherLocals).getD false = false := by decide +kernel
  exact ⟨fun hn => written_same _ _ v w h _ _ (h1 b hb hn).1 (h1 b hb hn).2,
    fun hn => written_same _ _ v w h _ _ (h2 b hb hn).1 (h2 b hb hn).2⟩

/-! ## The differing names -/

theorem lookups :
    extendedSources.lookup "surf_type_l1b_echo_sar_ku" = some (.burst "surf_type") ∧
    s3Sources.lookup "surf_type_l1b_echo_sar_ku" = some (.burst "surf_type") ∧
    l1bsSources.lookup "surf_type_l1bs_echo_sar_ku" = some (.surf "surface_type.value") ∧
    extendedSources.lookup "i2q2_meas_ku_l1b_echo_sar_ku" = some (.div (.surf "waveform_multilooked") (.loc "scale_factor")) ∧
    extendedSources.lookup "i2q2_scale_factor_l1b_echo_sar_ku" = some (.loc "scale_factor") ∧
    s3Sources.lookup "i2q2_meas_ku_l1b_echo_sar_ku" = some (.surf "waveform_multilooked") ∧
    l1bsSources.lookup "i2q2_meas_ku_l1bs_echo_sar_ku" = some (.mul (.surf "waveform_multilooked") (.loc "scale_factor")) ∧
    extendedSources.lookup "nb_stack_l1b_echo_sar_ku" = some (.surf "n_beams_start_stop") ∧
    s3Sources.lookup "nb_stack_l1b_echo_sar_ku" = some (.surf "data_stack_size") ∧
    l1bsSources.lookup "nb_stack_l1bs_echo_sar_ku" = some (.surf "data_stack_size") ∧
    extendedSources.lookup "beam_ang_l1b_echo_sar_ku" = some (.surf "beam_angles_surf") ∧
    s3Sources.lookup "beam_ang_l1b_echo_sar_ku" = some (.neg (.surf "look_angles_surf")) ∧
    l1bsSources.lookup "beam_ang_l1bs_echo_sar_ku" = some (.surf "beam_angles_start_stop") := by decide +kernel

/-- The meaning which a file gives to a value of a flag variable: the entry of `flag_meanings` at the place of the value in
`flag_values`. -/
def meaning (d : VarDef) (x : ℤ) : Option String :=
  match d.attrs.lookup "flag_values", d.attrs.lookup "flag_meanings" with
  | some (.ints l), some (.strs m) => (m.drop (l.takeWhile (· ≠ x)).length).head?
  | _, _ => none

/-- The value of `SurfaceType.surface_null`.  Every surface starts with this type (surface_data.py 12-15, 1079) and nothing assigns the
attribute of a surface afterwards: `StackGatheringAlgorithm` sets its own attribute (stack_gathering.py 143-146), which
`L1BProcessor.stack_gathering` does not copy to the surface (processor.py 446-475). -/
def surfaceNull : ℝ := 0

/-- **C115 is violated for the surface type**: whatever surface the closest burst has seen, the L1BS file says "open ocean or
semi-enclosed seas"; for a record over land the L1B files say "land". -/
theorem surface_type_violated (v w : Env) (hv : SameRecord v w) (h : v.surf "surface_type.value" = surfaceNull) :
    written l1bsSources w "surf_type_l1bs_echo_sar_ku" = some 0 ∧
    written extendedSources v "surf_type_l1b_echo_sar_ku" = some (v.burst "surf_type") ∧
    written s3Sources v "surf_type_l1b_echo_sar_ku" = some (v.burst "surf_type") ∧
    (∀ d ∈ allDefs, d.name ∈ inProducts "surf_type" → meaning d 0 = some "open_ocean_or_semi-enclosed_seas" ∧
      meaning d 3 = some "land") := by
  obtain ⟨l1, l2, l3, _⟩ := lookups
  refine ⟨?_, ?_, ?_, by decide +kernel⟩
  · simp only [written, l3, Option.bind_some, Src.eval]
    rw [← hv.1, h, surfaceNull]
  · simp [written, l1, Src.eval]
  · simp [written, l2, Src.eval]

/-- **C115 is violated for the waveform**: after multiplying with the scale factor in the file, the extended L1B file has the power of a
sample; so has the Sentinel-3 L1B file; the L1BS file, without a scale factor, has it only if the gain is 0 dB or the power is 0.  `m` is
the largest sample. -/
theorem waveform_violated (v w : Env) (hv : SameRecord v w) (m : ℝ) (hm : m ≠ 0) (h1 : v.loc "scale_factor" = m)
    (h2 : w.loc "scale_factor" = (10 : ℝ) ^ (-w.burst "agc_ku" / 10)) :
    (written extendedSources v "i2q2_meas_ku_l1b_echo_sar_ku").bind (fun x =>
      (written extendedSources v "i2q2_scale_factor_l1b_echo_sar_ku").map (x * ·)) = some (v.surf "waveform_multilooked") ∧
    written s3Sources v "i2q2_meas_ku_l1b_echo_sar_ku" = some (v.surf "waveform_multilooked") ∧
    (written l1bsSources w "i2q2_meas_ku_l1bs_echo_sar_ku" = some (v.surf "waveform_multilooked") ↔
      v.surf "waveform_multilooked" = 0 ∨ v.burst "agc_ku" = 0) := by
  obtain ⟨_, _, _, l4, l5, l6, l7, _⟩ := lookups
  refine ⟨?_, ?_, ?_⟩
  · simp only [written, l4, l5, Option.bind_some, Src.eval, Option.map_some, h1]
    rw [div_mul_cancel₀ _ hm]
  · simp [written, l6, Src.eval]
  · simp only [written, l7, Option.bind_some, Src.eval, Option.map_some, h2, Option.some.injEq]
    rw [← hv.1, ← hv.2.1]
    rw [mul_right_eq_self₀]
    constructor
    · rintro (h | h)
      · right
        have : Real.logb 10 ((10 : ℝ) ^ (-v.burst "agc_ku" / 10)) = 0 := by rw [h]; simp
        rw [Real.logb_rpow (by norm_num) (by norm_num)] at this
        linarith
      · exact .inl h
    · rintro (h | h)
      · exact .inr h
      · left; rw [h]; simp

/-- **C115 is violated for the pointing angles** (see also C67): unless it is 0, an angle differs between the extended L1B and the L1BS
file. -/
theorem shared_pointing_violated (v w : Env) (hv : SameRecord v w) :
    (v.surf "roll_sat" ≠ 0 → written extendedSources v "roll_sat_pointing_l1b_echo_sar_ku" ≠
      written l1bsSources w "roll_sat_pointing_l1bs_echo_sar_ku") ∧
    (v.surf "pitch_sat" ≠ 0 → written extendedSources v "pitch_sat_pointing_l1b_echo_sar_ku" ≠
      written l1bsSources w "pitch_sat_pointing_l1bs_echo_sar_ku") ∧
    (v.surf "yaw_sat" ≠ 0 → written extendedSources v "yaw_sat_pointing_l1b_echo_sar_ku" ≠
      written l1bsSources w "yaw_sat_pointing_l1bs_echo_sar_ku") := by
  have e : extendedSources.lookup "roll_sat_pointing_l1b_echo_sar_ku" = some (.degrees (.surf "roll_sat")) ∧
    extendedSources.lookup "pitch_sat_pointing_l1b_echo_sar_ku" = some (.degrees (.surf "pitch_sat")) ∧
    extendedSources.lookup "yaw_sat_pointing_l1b_echo_sar_ku" = some (.degrees (.surf "yaw_sat")) ∧
    l1bsSources.lookup "roll_sat_pointing_l1bs_echo_sar_ku" = some (.surf "roll_sat") ∧
    l1bsSources.lookup "pitch_sat_pointing_l1bs_echo_sar_ku" = some (.surf "pitch_sat") ∧
    l1bsSources.lookup "yaw_sat_pointing_l1bs_echo_sar_ku" = some (.surf "yaw_sat") := by decide +kernel
  obtain ⟨e1, e2, e3, e4, e5, e6⟩ := e
  have key : ∀ x : ℝ, x ≠ 0 → x * 180 / Real.pi ≠ x := by
    intro x hx h
    have hp := Real.pi_pos
    have h4 := Real.pi_le_four
    rw [div_eq_iff hp.ne'] at h
    have := mul_left_cancel₀ hx h
    linarith
  refine ⟨fun h => ?_, fun h => ?_, fun h => ?_⟩
  · simp only [written, e1, e4, Option.bind_some, Src.eval, Option.map_some, ← hv.1, ne_eq, Option.some.injEq]
    exact key _ h
  · simp only [written, e2, e5, Option.bind_some, Src.eval, Option.map_some, ← hv.1, ne_eq, Option.some.injEq]
    exact key _ h
  · simp only [written, e3, e6, Option.bind_some, Src.eval, Option.map_some, ← hv.1, ne_eq, Option.some.injEq]
    exact key _ h

/-- **C115 is violated for the number of looks**: the extended L1B file has the number of beams from the first to the last unmasked one,
the other two files the size of the stack. -/
theorem looks_violated (v w : Env) (hv : SameRecord v w) :
    written extendedSources v "nb_stack_l1b_echo_sar_ku" = some (v.surf "n_beams_start_stop") ∧
    written s3Sources v "nb_stack_l1b_echo_sar_ku" = some (v.surf "data_stack_size") ∧
    written l1bsSources w "nb_stack_l1bs_echo_sar_ku" = some (v.surf "data_stack_size") := by
  obtain ⟨_, _, _, _, _, _, _, l8, l9, l10, _⟩ := lookups
  refine ⟨?_, ?_, ?_⟩
  · simp [written, l8, Src.eval]
  · simp [written, l9, Src.eval]
  · simp [written, l10, Src.eval, hv.1]

/-- A record over land with a gain of 30 dB, two of whose three beams are between the first and the last unmasked one. -/
noncomputable def landRecord : Env where
  surf a := if a = "waveform_multilooked" then 2 else if a = "roll_sat" then 1 else if a = "n_beams_start_stop" then 2
    else if a = "data_stack_size" then 3 else 0
  burst a := if a = "surf_type" then 3 else if a = "agc_ku" then 30 else 0
  cst _ := 299792458
  loc a := if a = "scale_factor" then 5 else 0

/-- The same record as the L1BS writer sees it. -/
noncomputable def landRecordL1bs : Env := { landRecord with loc := fun a => if a = "scale_factor" then (10 : ℝ) ^ (-30 / 10 : ℝ) else 0 }

/-- The hypotheses are met, and all four violations occur in this record. -/
example : SameRecord landRecord landRecordL1bs ∧ landRecord.surf "surface_type.value" = surfaceNull ∧
    landRecord.burst "surf_type" = 3 ∧ landRecord.loc "scale_factor" = 5 ∧
    landRecordL1bs.loc "scale_factor" = (10 : ℝ) ^ (-landRecordL1bs.burst "agc_ku" / 10) ∧
    landRecord.surf "roll_sat" ≠ 0 ∧ landRecord.surf "n_beams_start_stop" ≠ landRecord.surf "data_stack_size" := by
  refine ⟨⟨rfl, rfl, rfl, ?_, ?_⟩, ?_, ?_, ?_, ?_, ?_, ?_⟩ <;> simp (decide := true) [landRecord, landRecordL1bs, surfaceNull]

end Dedop.Writer
