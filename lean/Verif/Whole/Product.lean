import Verif.Whole.Target
import Verif.Writer.Sources
import Verif.Writer.RecordProps
import Verif.Writer.Readback

/-!
# What is read from the L1B product of a run (C158)

Joins the model of whole files with that of the extended L1B writer (`dedop/data/output/l1b_writer.py`).
-/
namespace Dedop.Whole

open Real Writer

/-! ## Model -/

/-- What a record of the product holds besides the results modelled in `Record`: other attributes of the surface, the attributes of the
burst objects by their number in the file, and the per-beam tables (`l1b_writer.py:862-934`). -/
structure Telemetry where
  surf : Record → String → ℝ
  burst : ℕ → String → ℝ
  tables : Record → String → List ℝ

/-- The attributes of a surface which are written as numbers (`l1b_writer.py:863-933`). -/
noncomputable def surfAttr (t : Telemetry) (rec : Record) : String → ℝ
  | "time_surf" => rec.loc.time
  | "lat_surf" => rec.loc.lat
  | "lon_surf" => rec.loc.lon
  | "alt_sat" => rec.loc.altSat
  | "alt_rate_sat" => rec.loc.altRate
  | "x_sat" => rec.loc.sat 0
  | "y_sat" => rec.loc.sat 1
  | "z_sat" => rec.loc.sat 2
  | "x_vel_sat" => rec.loc.vel 0
  | "y_vel_sat" => rec.loc.vel 1
  | "z_vel_sat" => rec.loc.vel 2
  | "roll_sat" => rec.loc.roll
  | "pitch_sat" => rec.loc.pitch
  | "yaw_sat" => rec.loc.yaw
  | "win_delay_surf" => rec.loc.win
  | "sigma0_scaling_factor" => rec.sigma0.2
  | "n_beams_start_stop" => rec.result.out.nStartStop
  | "start_look_angle" => rec.result.out.startLook
  | "stop_look_angle" => rec.result.out.stopLook
  | a => t.surf rec a

/-- All samples as numbers, if none is NaN. -/
def numbers (w : List (Option ℝ)) : Option (List ℝ) := w.mapM id

/-- `waveform_multilooked.max()` (`l1b_writer.py:857`): NaN, `none`, if a sample is NaN.  An array without samples raises; it is not
considered here. -/
noncomputable def waveformMax (w : List (Option ℝ)) : Option ℝ := (numbers w).bind npMax

/-- `waveform_multilooked/scale_factor` (`l1b_writer.py:926`); `none` is NaN. -/
noncomputable def scaledWaveform (w : List (Option ℝ)) : List (Option ℝ) :=
  w.map fun x => x.bind fun x => (waveformMax w).bind fun m => npDiv x m

/-- The local variables of `write_record` for the time (`l1b_writer.py:847-854`). -/
noncomputable def utcOf (l : Surface.Loc) : ℝ × ℝ :=
  let secs := l.prevSecs + (l.time - l.prevTai)
  if secs > l.dayLength then (l.prevDays + 1, secs - l.dayLength) else (l.prevDays, secs)

/-- What `write_record` reads (`l1b_writer.py:840-862`). -/
noncomputable def writerEnv (c : Conf) (t : Telemetry) (rec : Record) : Writer.Env where
  surf := surfAttr t rec
  burst := t.burst (((rec.result.gathered.rows[rec.result.gathered.closest]?).map (·.burst)).getD 0)
  cst _ := c.c
  loc
    | "utc_days" => (utcOf rec.loc).1
    | "utc_secs" => (utcOf rec.loc).2
    | _ => 0

/-- The value of one variable (`l1b_writer.py:862-934`); in a cell `none` is NaN. -/
noncomputable def valueOf (c : Conf) (t : Telemetry) (rec : Record) (name : String) : Shape → Value (Option ℝ)
  | .missing => .missing
  | .scalar =>
    if name = "i2q2_scale_factor_l1b_echo_sar_ku" then .scalar (waveformMax rec.result.out.waveform)
    else .scalar (written extendedSources (writerEnv c t rec) name)
  | .vector _ =>
    if name = "i2q2_meas_ku_l1b_echo_sar_ku" then .vector (scaledWaveform rec.result.out.waveform)
    else .vector ((t.tables rec name).map some)
  | .matrix _ _ => .missing

/-- The keywords and values of `write_record` of the extended L1B writer (`l1b_writer.py:862-934`). -/
noncomputable def l1bValues (c : Conf) (t : Telemetry) (rec : Record) : List (String × Value (Option ℝ)) :=
  extendedRecord.map fun p => (p.1, valueOf c t rec p.1 p.2)

/-- The sizes of the dimensions of the file (`l1b_writer.py:107-115`). -/
def l1bSize (c : Conf) : Dim → ℕ
  | .looks => c.looks
  | .samples => c.samples * c.zp

/-- The file after the records have been written, one call after the other (`processor.py:259-260`, `netcdf_writer.py:345-377`), and the
exceptions of the calls. -/
noncomputable def l1bFile (c : Conf) (t : Telemetry) (recs : List Record) : Writer (Option ℝ) × List (Option Writer.Err) :=
  writeAll (openWriter (l1bSize c) extendedSchema) (recs.map (l1bValues c t))

open Classical in
/-- What is read from a cell with a number: that of `VarDef.store` and `VarDef.load` for real numbers.  The code stored for NaN, or for a
number out of range, is arbitrary: nothing can be read from it.  A variable of type f64 without a declared fill value has that of the
library, `NC_FILL_DOUBLE`.  (The NetCDF library, for variables of `netcdf_writer.py:309-331`.) -/
noncomputable def readCell (rnd : ℝ → ℤ) (d : VarDef) (x : ℝ) : Option ℝ :=
  match d.type.range with
  | none => if (((declaredFill d).getD (15 * 2 ^ 119) : ℚ) : ℝ) = x then none else some x
  | some (lo, hi) =>
    match d.numAttr "scale_factor", d.numAttr "add_offset" with
    | some s, some o =>
      (pack rnd (s : ℝ) (o : ℝ) lo hi x).bind fun k => if declaredFill d = some (k : ℚ) then none else some (unpack (s : ℝ) (o : ℝ) k)
    | _, _ => (castInt lo hi x).bind fun k => if declaredFill d = some (k : ℚ) then none else some (k : ℝ)

/-- Reading entry `j` of a variable for record `k` of the file. -/
noncomputable def readFile (rnd : ℝ → ℤ) (f : Writer (Option ℝ)) (name : String) (k j : ℕ) : Option ℝ :=
  (f.store name).bind fun v => (v.cells k 0 j).bind fun x => x.bind fun x =>
    (extendedDefs.find? (fun d => d.name == name)).bind fun d => readCell rnd d x

/-! ## Specification -/

/-- The number `y`, if there is one, is `x` to the accuracy `tol`. -/
def Near (y : Option ℝ) (x tol : ℝ) : Prop := ∃ z, y = some z ∧ |z - x| ≤ tol

/-- What a reader finds in the file for record `k` is the time, place, height, position, velocity and range of `rec`. -/
structure ShowsPlace (rnd : ℝ → ℤ) (c : Conf) (f : Writer (Option ℝ)) (k : ℕ) (rec : Record) : Prop where
  time : |rec.loc.time| < 10 ^ 18 → readFile rnd f "time_l1b_echo_sar_ku" k 0 = some rec.loc.time
  lat : |rec.loc.lat| ≤ π / 2 → Near (readFile rnd f "lat_l1b_echo_sar_ku" k 0) (rec.loc.lat / (2 * π) * 360) (1 / 2000000)
  lon : |rec.loc.lon| ≤ 2 * π → Near (readFile rnd f "lon_l1b_echo_sar_ku" k 0) (rec.loc.lon / (2 * π) * 360) (1 / 2000000)
  alt : 500000 ≤ rec.loc.altSat → rec.loc.altSat ≤ 900000 → Near (readFile rnd f "alt_l1b_echo_sar_ku" k 0) rec.loc.altSat (1 / 20000)
  range : 500000 ≤ rec.loc.win * c.c / 2 → rec.loc.win * c.c / 2 ≤ 900000 →
    Near (readFile rnd f "range_ku_l1b_echo_sar_ku" k 0) (rec.loc.win * c.c / 2) (1 / 20000)
  position : ∀ i : Fin 3, |rec.loc.sat i| < 10 ^ 18 → readFile rnd f (["x", "y", "z"][i] ++ "_pos_l1b_echo_sar_ku") k 0 = some (rec.loc.sat i)
  velocity : ∀ i : Fin 3, |rec.loc.vel i| < 10 ^ 18 → readFile rnd f (["x", "y", "z"][i] ++ "_vel_l1b_echo_sar_ku") k 0 = some (rec.loc.vel i)
  sigma0 : |rec.sigma0.2| ≤ 1000 → Near (readFile rnd f "scale_factor_ku_l1b_echo_sar_ku" k 0) rec.sigma0.2 (1 / 200)

/-- The waveform of record `k` of the file, each number read times the scale factor read, is that of `rec` to `1 / 4294967294` of half of
its largest sample, which itself is exact. -/
def ShowsWaveform (rnd : ℝ → ℤ) (f : Writer (Option ℝ)) (k : ℕ) (rec : Record) : Prop :=
  ∃ m, readFile rnd f "i2q2_scale_factor_l1b_echo_sar_ku" k 0 = some m ∧ some m ∈ rec.result.out.waveform ∧
    ∀ j x, rec.result.out.waveform[j]? = some (some x) → x ≤ m ∧
      ∃ y, readFile rnd f "i2q2_meas_ku_l1b_echo_sar_ku" k j = some y ∧ 0 ≤ y ∧ y ≤ 1 ∧ |y * m - x| ≤ m / (2 * 4294967294) ∧
        (x = m → y * m = x)

/-! ## Lemmas -/

theorem l1bValues_shaped (c : Conf) (t : Telemetry) (rec : Record) (hw : rec.result.out.waveform.length ≤ c.samples * c.zp)
    (ht : ∀ name, (t.tables rec name).length ≤ c.looks) : Shaped (l1bSize c) (l1bValues c t rec) extendedRecord := by
  have hv : ∀ p ∈ extendedRecord, ∀ d, p.2 = .vector d → (p.1 = "i2q2_meas_ku_l1b_echo_sar_ku" ∧ d = .samples) ∨
      (p.1 ≠ "i2q2_meas_ku_l1b_echo_sar_ku" ∧ d = .looks) := by
    have : extendedRecord.all (fun p => match p.2 with
        | .vector d => decide ((p.1 = "i2q2_meas_ku_l1b_echo_sar_ku" ∧ d = .samples) ∨ (p.1 ≠ "i2q2_meas_ku_l1b_echo_sar_ku" ∧ d = .looks))
        | _ => true) = true := by decide +kernel
    intro p hp d hd
    have h := List.all_eq_true.1 this p hp
    rw [hd] at h
    simpa using h
  have hm : ∀ p ∈ extendedRecord, ∀ d e, p.2 ≠ .matrix d e := by
    have : extendedRecord.all (fun p => match p.2 with
        | .matrix _ _ => false
        | _ => true) = true := by decide +kernel
    intro p hp d e hd
    have h := List.all_eq_true.1 this p hp
    rw [hd] at h
    simp at h
  unfold Shaped l1bValues
  rw [List.forall₂_map_left_iff, List.forall₂_same]
  intro p hp
  refine ⟨rfl, ?_⟩
  dsimp only
  cases hsh : p.2 with
  | missing => trivial
  | scalar =>
    by_cases h1 : p.1 = "i2q2_scale_factor_l1b_echo_sar_ku"
    · unfold valueOf
      rw [if_pos h1]
      trivial
    · unfold valueOf
      rw [if_neg h1]
      trivial
  | vector d =>
    rcases hv p hp d hsh with ⟨h1, rfl⟩ | ⟨h1, rfl⟩
    · unfold valueOf
      rw [if_pos h1]
      show (scaledWaveform _).length ≤ _
      unfold scaledWaveform
      rw [List.length_map]
      exact hw
    · unfold valueOf
      rw [if_neg h1]
      show (List.map some _).length ≤ _
      rw [List.length_map]
      exact ht p.1
  | matrix d e => exact absurd hsh (hm p hp d e)

theorem waveform_fits (c : Conf) (o : World) (alg : Surface.Alg) (file : ℕ → Raw) (n : ℕ) (hn : 0 < c.pulses) (rec : Record)
    (hr : rec ∈ (process c o alg file n).state.l1b) : rec.result.out.waveform.length ≤ c.samples * c.zp := by
  obtain ⟨its, h1, h2, h3, hp, _, _⟩ := process_products c o alg file n
  obtain ⟨s2, ho⟩ := hp.origin rec (Or.inl hr)
  obtain ⟨looks, f, e1, _⟩ := ho.parts hn
  unfold Chain.surfaceAw at e1
  split at e1
  · cases e1
  · cases e1
  · split at e1
    · cases e1
    · have : rec.result = _ := (Option.some.inj (Except.ok.inj e1)).symm
      rw [this]
      exact Chain.waveform_length_le _ _ _ _

/-- What is in the file. -/
theorem l1bFile_cells (c : Conf) (t : Telemetry) (recs : List Record)
    (hw : ∀ rec ∈ recs, rec.result.out.waveform.length ≤ c.samples * c.zp)
    (ht : ∀ rec name, (t.tables rec name).length ≤ c.looks) :
    (∀ e ∈ (l1bFile c t recs).2, e = none) ∧ (l1bFile c t recs).1.index = recs.length ∧
    ∀ name sh, extendedRecord.lookup name = some sh → ∃ v, (l1bFile c t recs).1.store name = some v ∧
      ∀ k rec, recs[k]? = some rec → ∀ j, v.cells k 0 j = shown (valueOf c t rec name sh) 0 j := by
  have hs : ∀ r ∈ recs.map (l1bValues c t), Shaped (l1bSize c) r extendedRecord := by
    intro r hr
    obtain ⟨rec, hrec, rfl⟩ := List.mem_map.1 hr
    exact l1bValues_shaped c t rec (hw rec hrec) (ht rec)
  obtain ⟨h1, h2, h3⟩ := writers_accept (l1bSize c) extendedSchema extendedRecord (Or.inl rfl) _ hs
  refine ⟨h1, by rw [l1bFile, h2, List.length_map], ?_⟩
  intro name sh hl
  have hk : SizesKept (l1bSize c) extendedSchema (l1bFile c t recs).1.store := by
    have hc : covers extendedSchema extendedRecord = true := by decide +kernel
    have : ∀ (l : List (List (String × Value (Option ℝ)))) (w : Writer (Option ℝ)), SizesKept (l1bSize c) extendedSchema w.store →
        (∀ r ∈ l, Shaped (l1bSize c) r extendedRecord) → SizesKept (l1bSize c) extendedSchema (writeAll w l).1.store := by
      intro l
      induction l with
      | nil => intro w h _; exact h
      | cons r rs ih =>
        intro w h hr
        obtain ⟨a1, a2⟩ := writeValues_ok (l1bSize c) extendedSchema w.index extendedRecord hc r w.store h (hr r (by simp))
        rw [writeAll]
        apply ih
        · unfold writeRecord
          rcases hq : writeValues w.index r w.store with ⟨s, o⟩
          rw [hq] at a2
          cases o <;> exact a2
        · exact fun q hq => hr q (by simp [hq])
    exact this _ _ (open_sizes _ _) hs
  have hsch : ∀ p ∈ extendedRecord, (extendedSchema.lookup p.1).isSome = true := by
    have : extendedRecord.all (fun p => (extendedSchema.lookup p.1).isSome) = true := by decide +kernel
    exact fun p hp => List.all_eq_true.1 this p hp
  have hmem : (name, sh) ∈ extendedRecord := by
    have := List.lookup_eq_some_iff.1 hl
    obtain ⟨l1, l2, e, _⟩ := this
    rw [e]; simp
  obtain ⟨ds, hds⟩ := Option.isSome_iff_exists.1 (hsch _ hmem)
  obtain ⟨v, hv, _⟩ := hk name ds hds
  refine ⟨v, hv, ?_⟩
  intro k rec hrec j
  rw [h3 name v hv k 0 j, List.getElem?_map, hrec]
  simp only [Option.map_some]
  congr 1
  unfold given l1bValues
  have : ∀ l : List (String × Shape), (l.map fun p => (p.1, valueOf c t rec p.1 p.2)).lookup name =
      (l.lookup name).map (fun sh => valueOf c t rec name sh) := by
    intro l
    induction l with
    | nil => rfl
    | cons p l ih =>
      rw [List.map_cons, List.lookup_cons, List.lookup_cons]
      by_cases h : name == p.1
      · rw [h]
        simp only [Option.map_some]
        rw [eq_of_beq h]
      · simp only [Bool.not_eq_true] at h
        rw [h]
        exact ih
  rw [this, hl]
  rfl

theorem readCell_near (rnd : ℝ → ℤ) (hr : Rounds rnd) (d : VarDef) (s o : ℚ) (hs : d.numAttr "scale_factor" = some s)
    (ho : d.numAttr "add_offset" = some o) (hpos : 0 < s) (hf : fillAtEnd d = true) (a b : ℤ) (hu : usable d = some (a, b)) (x : ℝ)
    (h1 : a * (s : ℝ) + o ≤ x) (h2 : x ≤ b * (s : ℝ) + o) : Near (readCell rnd d x) x ((s : ℝ) / 2) := by
  have hpos' : (0 : ℝ) < s := by exact_mod_cast hpos
  have hb := hr.mem (x := (x - o) / s) (a := a) (b := b) (by rw [le_div_iff₀ hpos']; linarith) (by rw [div_le_iff₀ hpos']; linarith)
  obtain ⟨lo, hi, hrange, hl, hh⟩ := usable_in_type d a b hu
  refine ⟨unpack (s : ℝ) (o : ℝ) (rnd ((x - o) / s)), ?_, ?_⟩
  · simp only [readCell, hrange, hs, ho, pack]
    rw [if_pos ⟨by omega, by omega⟩, Option.bind_some, if_neg (usable_not_fill d a b hu hf _ hb.1 hb.2)]
  · have := hr ((x - o) / s)
    have e : unpack (s : ℝ) (o : ℝ) (rnd ((x - o) / s)) - x = ((rnd ((x - o) / s) : ℝ) - (x - o) / s) * s := by
      unfold unpack
      field_simp
      ring
    rw [e, abs_mul, abs_of_pos hpos']
    nlinarith [abs_nonneg ((rnd ((x - o) / s) : ℝ) - (x - o) / s)]

theorem readCell_physical (rnd : ℝ → ℤ) (hr : Rounds rnd) (name : String) (lo hi tol : ℚ) (hp : (name, lo, hi, tol) ∈ physical)
    (d : VarDef) (hd : d ∈ allDefs) (hn : d.name ∈ inProducts name) (x : ℝ) (h1 : (lo : ℝ) ≤ x) (h2 : x ≤ hi) :
    Near (readCell rnd d x) x tol := by
  have hh := physical_holds _ hp d hd hn
  have hfree : ∀ p ∈ physical, ∀ n ∈ inProducts p.1, n ∉ ["agccode_ku_l1b_echo_sar_ku", "beam_form_l1bs_echo_sar_ku"] := by
    decide +kernel
  obtain ⟨_, d2, d3⟩ := declarations d hd
  unfold holds at hh
  cases hu : usable d with
  | none => rw [hu] at hh; cases hh
  | some ab =>
    obtain ⟨a, b⟩ := ab
    cases hs : d.numAttr "scale_factor" with
    | none => rw [hu, hs] at hh; cases hh
    | some s =>
      cases ho : d.numAttr "add_offset" with
      | none => rw [hu, hs, ho] at hh; cases hh
      | some o =>
        rw [hu, hs, ho] at hh
        simp only [decide_eq_true_eq] at hh
        obtain ⟨z1, z2, z3⟩ := hh
        have z1' : a * (s : ℝ) + o ≤ lo := by exact_mod_cast z1
        have z2' : (hi : ℝ) ≤ b * (s : ℝ) + o := by exact_mod_cast z2
        have z3' : (s : ℝ) / 2 ≤ tol := by exact_mod_cast z3
        obtain ⟨y, e1, e2⟩ := readCell_near rnd hr d s o hs ho (d2 s hs).1 (d3.resolve_right (hfree _ hp _ hn)) a b hu x
          (le_trans z1' h1) (le_trans h2 z2')
        exact ⟨y, e1, le_trans e2 z3'⟩

/-- Reading a number which is written once per record. -/
theorem read_scalar (rnd : ℝ → ℤ) (c : Conf) (t : Telemetry) (recs : List Record)
    (hw : ∀ rec ∈ recs, rec.result.out.waveform.length ≤ c.samples * c.zp)
    (ht : ∀ rec name, (t.tables rec name).length ≤ c.looks) (k : ℕ) (rec : Record) (hk : recs[k]? = some rec)
    (name : String) (hsh : extendedRecord.lookup name = some .scalar) (hn : name ≠ "i2q2_scale_factor_l1b_echo_sar_ku")
    (d : VarDef) (hd : extendedDefs.find? (fun d => d.name == name) = some d) (x : ℝ)
    (hx : written extendedSources (writerEnv c t rec) name = some x) :
    readFile rnd (l1bFile c t recs).1 name k 0 = readCell rnd d x := by
  obtain ⟨_, _, h3⟩ := l1bFile_cells c t recs hw ht
  obtain ⟨v, hv, hcells⟩ := h3 name .scalar hsh
  unfold readFile
  rw [hv, Option.bind_some, hcells k rec hk 0]
  unfold valueOf
  rw [if_neg hn, hx]
  show (some (some x)).bind _ = _
  rw [Option.bind_some, Option.bind_some, hd, Option.bind_some]

theorem readCell_exact (rnd : ℝ → ℤ) (d : VarDef) (x : ℝ) (hd : d.type.range = none)
    (hf : (10 : ℚ) ^ 18 ≤ (declaredFill d).getD (15 * 2 ^ 119)) (hx : |x| < 10 ^ 18) : readCell rnd d x = some x := by
  unfold readCell
  rw [hd]
  have hf' : (10 : ℝ) ^ 18 ≤ (((declaredFill d).getD (15 * 2 ^ 119) : ℚ) : ℝ) := by exact_mod_cast hf
  dsimp only
  rw [if_neg]
  intro h
  rw [h] at hf'
  exact absurd (le_trans hf' (le_abs_self x)) (not_le.2 hx)

/-- A surface that is processed has a look. -/
theorem surface_rows {argsort : List ℝ → List ℕ} {round : ℝ → ℤ} {junk : ℕ → ℂ} {c : Chain.Conf} {bursts : ℕ → Chain.L1A}
    {s : Chain.Surf} {prev : ℕ} {looks : Chain.Looks} {r : Chain.Result}
    (h : Chain.surface argsort round junk c bursts s prev looks = .ok (some r)) (hl : 2 ≤ c.looks) : 0 < r.gathered.rows.length := by
  unfold Chain.surface at h
  cases h1 : Chain.entries junk c bursts looks with
  | error => rw [h1] at h; cases h
  | ok es =>
    rw [h1] at h
    dsimp only at h
    cases h2 : Stack.gather argsort c.looks (π / 2) prev es with
    | error => rw [h2] at h; cases h
    | ok g =>
      rw [h2] at h
      dsimp only at h
      obtain ⟨z1, z2⟩ := Chain.gather_length argsort _ _ _ _ _ h2
      split at h
      · cases h
      · cases h3 : Stack.masking round (Chain.maskConf c) (Chain.maskInput c bursts s g.rows) with
        | error => rw [h3] at h; cases h
        | ok m =>
          rw [h3] at h
          dsimp only at h
          split at h
          · cases h
          · split at h
            · cases h
            · cases h
              dsimp only
              omega

/-- A sample which a look keeps is a number. -/
theorem kept_number (argsort : List ℝ → List ℕ) (round : ℝ → ℤ) (junk : ℕ → ℂ) (c : Chain.Conf) (bursts : ℕ → Chain.L1A)
    (s : Chain.Surf) (prev : ℕ) (looks : Chain.Looks) (hP : 2 ≤ c.samples * c.zp) (r : Chain.Result)
    (h : Chain.surface argsort round junk c bursts s prev looks = .ok (some r)) (k : ℕ) (hk : k < c.samples * c.zp)
    (hkeep : ∃ b row, r.gathered.rows[b]? = some row ∧
      Chain.Keeps round (Chain.maskConf c) (Chain.maskInput c bursts s r.gathered.rows) b k) :
    ∃ y, r.out.waveform[k]? = some (some y) := by
  unfold Chain.surface at h
  cases h1 : Chain.entries junk c bursts looks with
  | error => rw [h1] at h; cases h
  | ok es =>
    rw [h1] at h
    dsimp only at h
    cases h2 : Stack.gather argsort c.looks (π / 2) prev es with
    | error => rw [h2] at h; cases h
    | ok g =>
      rw [h2] at h
      dsimp only at h
      split at h
      · cases h
      · cases h3 : Stack.masking round (Chain.maskConf c) (Chain.maskInput c bursts s g.rows) with
        | error => rw [h3] at h; cases h
        | ok m =>
          rw [h3] at h
          dsimp only at h
          split at h
          · cases h
          · split at h
            · cases h
            · cases h
              dsimp only at hkeep ⊢
              obtain ⟨z1, z2⟩ := Chain.gather_length argsort _ _ _ _ _ h2
              obtain ⟨m', e1, e2, e3⟩ := Chain.waveform_of_rows round c bursts s g.rows hP (by omega)
              rw [h3] at e1
              cases e1
              obtain ⟨b, row, hb, hkp⟩ := hkeep
              obtain ⟨x, x1, _⟩ := Multilook.multilooked_is_mean c.avoidZeros (c.samples * c.zp) c.looks
                (Chain.lookBeams g.rows m) e2 k hk (List.ne_nil_of_mem ((e3 k hk).2 b row hb hkp))
              exact ⟨x, x1⟩

/-! ## C158 -/

theorem shows_place (rnd : ℝ → ℤ) (hr : Rounds rnd) (c : Conf) (t : Telemetry) (recs : List Record)
    (hw : ∀ rec ∈ recs, rec.result.out.waveform.length ≤ c.samples * c.zp)
    (ht : ∀ rec name, (t.tables rec name).length ≤ c.looks) (k : ℕ) (rec : Record) (hk : recs[k]? = some rec) :
    ShowsPlace rnd c (l1bFile c t recs).1 k rec := by
  have hfind : ∀ name ∈ ["time_l1b_echo_sar_ku", "lat_l1b_echo_sar_ku", "lon_l1b_echo_sar_ku", "alt_l1b_echo_sar_ku",
      "range_ku_l1b_echo_sar_ku", "scale_factor_ku_l1b_echo_sar_ku", "x_pos_l1b_echo_sar_ku", "y_pos_l1b_echo_sar_ku",
      "z_pos_l1b_echo_sar_ku", "x_vel_l1b_echo_sar_ku", "y_vel_l1b_echo_sar_ku", "z_vel_l1b_echo_sar_ku"],
      extendedRecord.lookup name = some .scalar ∧ name ≠ "i2q2_scale_factor_l1b_echo_sar_ku" ∧
      ∃ d ∈ allDefs, extendedDefs.find? (fun d => d.name == name) = some d ∧ d.name = name := by
    have : ∀ name ∈ ["time_l1b_echo_sar_ku", "lat_l1b_echo_sar_ku", "lon_l1b_echo_sar_ku", "alt_l1b_echo_sar_ku",
        "range_ku_l1b_echo_sar_ku", "scale_factor_ku_l1b_echo_sar_ku", "x_pos_l1b_echo_sar_ku", "y_pos_l1b_echo_sar_ku",
        "z_pos_l1b_echo_sar_ku", "x_vel_l1b_echo_sar_ku", "y_vel_l1b_echo_sar_ku", "z_vel_l1b_echo_sar_ku"],
        extendedRecord.lookup name = some .scalar ∧ name ≠ "i2q2_scale_factor_l1b_echo_sar_ku" ∧
        (extendedDefs.find? (fun d => d.name == name)).isSome = true := by decide +kernel
    intro name hn
    obtain ⟨a1, a2, a3⟩ := this name hn
    obtain ⟨d, hd⟩ := Option.isSome_iff_exists.1 a3
    refine ⟨a1, a2, d, ?_, hd, ?_⟩
    · unfold allDefs
      exact List.mem_append_left _ (List.mem_append_left _ (List.mem_of_find?_eq_some hd))
    · simpa using List.find?_some hd
  have hexact : ∀ name ∈ ["time_l1b_echo_sar_ku", "x_pos_l1b_echo_sar_ku", "y_pos_l1b_echo_sar_ku",
      "z_pos_l1b_echo_sar_ku", "x_vel_l1b_echo_sar_ku", "y_vel_l1b_echo_sar_ku", "z_vel_l1b_echo_sar_ku"],
      ∀ x, written extendedSources (writerEnv c t rec) name = some x → |x| < 10 ^ 18 →
        readFile rnd (l1bFile c t recs).1 name k 0 = some x := by
    have hty : ∀ name ∈ ["time_l1b_echo_sar_ku", "x_pos_l1b_echo_sar_ku", "y_pos_l1b_echo_sar_ku",
        "z_pos_l1b_echo_sar_ku", "x_vel_l1b_echo_sar_ku", "y_vel_l1b_echo_sar_ku", "z_vel_l1b_echo_sar_ku"],
        ∀ d ∈ extendedDefs, d.name = name → d.type.range = none ∧ (10 : ℚ) ^ 18 ≤ (declaredFill d).getD (15 * 2 ^ 119) := by
      decide +kernel
    intro name hn x hx hlt
    obtain ⟨a1, a2, d, _, a4, a5⟩ := hfind name (by simp only [List.mem_cons, List.not_mem_nil] at hn ⊢; tauto)
    rw [read_scalar rnd c t recs hw ht k rec hk name a1 a2 d a4 x hx]
    obtain ⟨b1, b2⟩ := hty name hn d (List.mem_of_find?_eq_some a4) a5
    exact readCell_exact rnd d x b1 b2 hlt
  have hnear : ∀ base lo hi tol, (base, lo, hi, tol) ∈ physical → base ∈ ["lat", "lon", "alt", "range_ku", "scale_factor_ku"] →
      ∀ x, written extendedSources (writerEnv c t rec) (base ++ "_l1b_echo_sar_ku") = some x → ((lo : ℚ) : ℝ) ≤ x → x ≤ ((hi : ℚ) : ℝ) →
        Near (readFile rnd (l1bFile c t recs).1 (base ++ "_l1b_echo_sar_ku") k 0) x ((tol : ℚ) : ℝ) := by
    intro base lo hi tol hp hb x hx h1 h2
    have hn : ∀ base ∈ ["lat", "lon", "alt", "range_ku", "scale_factor_ku"], (base ++ "_l1b_echo_sar_ku") ∈
      ["time_l1b_echo_sar_ku", "lat_l1b_echo_sar_ku", "lon_l1b_echo_sar_ku", "alt_l1b_echo_sar_ku",
      "range_ku_l1b_echo_sar_ku", "scale_factor_ku_l1b_echo_sar_ku", "x_pos_l1b_echo_sar_ku", "y_pos_l1b_echo_sar_ku",
      "z_pos_l1b_echo_sar_ku", "x_vel_l1b_echo_sar_ku", "y_vel_l1b_echo_sar_ku", "z_vel_l1b_echo_sar_ku"] := by decide +kernel
    obtain ⟨a1, a2, d, a3, a4, a5⟩ := hfind _ (hn base hb)
    rw [read_scalar rnd c t recs hw ht k rec hk _ a1 a2 d a4 x hx]
    exact readCell_physical rnd hr base lo hi tol hp d a3 (by rw [a5]; simp [inProducts]) x h1 h2
  have hdeg : ∀ x : ℝ, x * 180 / π = x / (2 * π) * 360 := by
    intro x
    field_simp
    ring
  have hlook : extendedSources.lookup "lat_l1b_echo_sar_ku" = some (.degrees (.surf "lat_surf")) ∧
      extendedSources.lookup "lon_l1b_echo_sar_ku" = some (.degrees (.surf "lon_surf")) ∧
      extendedSources.lookup "alt_l1b_echo_sar_ku" = some (.surf "alt_sat") ∧
      extendedSources.lookup "range_ku_l1b_echo_sar_ku" = some (.div (.mul (.surf "win_delay_surf") (.cst "c")) (.const 2)) ∧
      extendedSources.lookup "scale_factor_ku_l1b_echo_sar_ku" = some (.surf "sigma0_scaling_factor") ∧
      extendedSources.lookup "time_l1b_echo_sar_ku" = some (.surf "time_surf") ∧
      extendedSources.lookup "x_pos_l1b_echo_sar_ku" = some (.surf "x_sat") ∧
      extendedSources.lookup "y_pos_l1b_echo_sar_ku" = some (.surf "y_sat") ∧
      extendedSources.lookup "z_pos_l1b_echo_sar_ku" = some (.surf "z_sat") ∧
      extendedSources.lookup "x_vel_l1b_echo_sar_ku" = some (.surf "x_vel_sat") ∧
      extendedSources.lookup "y_vel_l1b_echo_sar_ku" = some (.surf "y_vel_sat") ∧
      extendedSources.lookup "z_vel_l1b_echo_sar_ku" = some (.surf "z_vel_sat") := by decide +kernel
  obtain ⟨l1, l2, l3, l4, l5, l6, l7, l8, l9, l10, l11, l12⟩ := hlook
  have hpi := Real.pi_pos
  constructor
  · exact fun h => hexact _ (by simp) _ (by rw [written, l6]; rfl) h
  · intro h
    have := abs_le.1 h
    have e := hnear "lat" (-90) 90 (1 / 2000000) (by decide +kernel) (by decide +kernel) (rec.loc.lat / (2 * π) * 360)
      (by rw [show "lat" ++ "_l1b_echo_sar_ku" = "lat_l1b_echo_sar_ku" by decide +kernel, written, l1, ← hdeg]; rfl)
      (by push_cast; rw [← hdeg, le_div_iff₀ hpi]; nlinarith) (by push_cast; rw [← hdeg, div_le_iff₀ hpi]; nlinarith)
    rw [show "lat" ++ "_l1b_echo_sar_ku" = "lat_l1b_echo_sar_ku" by decide +kernel] at e
    push_cast at e
    exact e
  · intro h
    have := abs_le.1 h
    have e := hnear "lon" (-360) 360 (1 / 2000000) (by decide +kernel) (by decide +kernel) (rec.loc.lon / (2 * π) * 360)
      (by rw [show "lon" ++ "_l1b_echo_sar_ku" = "lon_l1b_echo_sar_ku" by decide +kernel, written, l2, ← hdeg]; rfl)
      (by push_cast; rw [← hdeg, le_div_iff₀ hpi]; nlinarith) (by push_cast; rw [← hdeg, div_le_iff₀ hpi]; nlinarith)
    rw [show "lon" ++ "_l1b_echo_sar_ku" = "lon_l1b_echo_sar_ku" by decide +kernel] at e
    push_cast at e
    exact e
  · intro h1 h2
    have e := hnear "alt" 500000 900000 (1 / 20000) (by decide +kernel) (by decide +kernel) rec.loc.altSat
      (by rw [show "alt" ++ "_l1b_echo_sar_ku" = "alt_l1b_echo_sar_ku" by decide +kernel, written, l3]; rfl)
      (by exact_mod_cast h1) (by exact_mod_cast h2)
    rw [show "alt" ++ "_l1b_echo_sar_ku" = "alt_l1b_echo_sar_ku" by decide +kernel] at e
    push_cast at e
    exact e
  · intro h1 h2
    have e := hnear "range_ku" 500000 900000 (1 / 20000) (by decide +kernel) (by decide +kernel) (rec.loc.win * c.c / 2)
      (by rw [show "range_ku" ++ "_l1b_echo_sar_ku" = "range_ku_l1b_echo_sar_ku" by decide +kernel, written, l4]
          simp [Src.eval, writerEnv, surfAttr])
      (by exact_mod_cast h1) (by exact_mod_cast h2)
    rw [show "range_ku" ++ "_l1b_echo_sar_ku" = "range_ku_l1b_echo_sar_ku" by decide +kernel] at e
    push_cast at e
    exact e
  · intro i h
    fin_cases i
    · exact hexact "x_pos_l1b_echo_sar_ku" (by simp) _ (by rw [written, l7]; rfl) h
    · exact hexact "y_pos_l1b_echo_sar_ku" (by simp) _ (by rw [written, l8]; rfl) h
    · exact hexact "z_pos_l1b_echo_sar_ku" (by simp) _ (by rw [written, l9]; rfl) h
  · intro i h
    fin_cases i
    · exact hexact "x_vel_l1b_echo_sar_ku" (by simp) _ (by rw [written, l10]; rfl) h
    · exact hexact "y_vel_l1b_echo_sar_ku" (by simp) _ (by rw [written, l11]; rfl) h
    · exact hexact "z_vel_l1b_echo_sar_ku" (by simp) _ (by rw [written, l12]; rfl) h
  · intro h
    have := abs_le.1 h
    have e := hnear "scale_factor_ku" (-1000) 1000 (1 / 200) (by decide +kernel) (by decide +kernel) rec.sigma0.2
      (by rw [show "scale_factor_ku" ++ "_l1b_echo_sar_ku" = "scale_factor_ku_l1b_echo_sar_ku" by decide +kernel, written, l5]; rfl)
      (by push_cast; linarith) (by push_cast; linarith)
    rw [show "scale_factor_ku" ++ "_l1b_echo_sar_ku" = "scale_factor_ku_l1b_echo_sar_ku" by decide +kernel] at e
    push_cast at e
    exact e

theorem numbers_some {w : List (Option ℝ)} (h : ∀ x ∈ w, x ≠ none) : ∃ ws : List ℝ, numbers w = some ws ∧ w = ws.map some := by
  induction w with
  | nil => exact ⟨[], rfl, rfl⟩
  | cons x w ih =>
    obtain ⟨ws, h1, h2⟩ := ih (fun y hy => h y (by simp [hy]))
    obtain ⟨y, rfl⟩ := Option.ne_none_iff_exists'.1 (h x (by simp))
    refine ⟨y :: ws, ?_, by rw [List.map_cons, ← h2]⟩
    unfold numbers at h1 ⊢
    rw [List.mapM_cons, h1]
    rfl

theorem numbers_none {w : List (Option ℝ)} (h : none ∈ w) : numbers w = none := by
  induction w with
  | nil => cases h
  | cons x w ih =>
    unfold numbers at ih ⊢
    rw [List.mapM_cons]
    rcases List.mem_cons.1 h with h | h
    · rw [← h]; rfl
    · rw [ih h]
      cases x <;> rfl

/-- Reading the waveform of a record. -/
theorem read_waveform (rnd : ℝ → ℤ) (c : Conf) (t : Telemetry) (recs : List Record)
    (hw : ∀ rec ∈ recs, rec.result.out.waveform.length ≤ c.samples * c.zp)
    (ht : ∀ rec name, (t.tables rec name).length ≤ c.looks) (k : ℕ) (rec : Record) (hk : recs[k]? = some rec) :
    readFile rnd (l1bFile c t recs).1 "i2q2_scale_factor_l1b_echo_sar_ku" k 0 =
      ((waveformMax rec.result.out.waveform).bind fun x =>
        (extendedDefs.find? (fun d => d.name == "i2q2_scale_factor_l1b_echo_sar_ku")).bind fun d => readCell rnd d x) ∧
    ∀ j, readFile rnd (l1bFile c t recs).1 "i2q2_meas_ku_l1b_echo_sar_ku" k j =
      (((scaledWaveform rec.result.out.waveform)[j]?).bind id).bind fun x =>
        (extendedDefs.find? (fun d => d.name == "i2q2_meas_ku_l1b_echo_sar_ku")).bind fun d => readCell rnd d x := by
  obtain ⟨_, _, h3⟩ := l1bFile_cells c t recs hw ht
  constructor
  · obtain ⟨v, hv, hcells⟩ := h3 "i2q2_scale_factor_l1b_echo_sar_ku" .scalar (by decide +kernel)
    unfold readFile
    rw [hv, Option.bind_some, hcells k rec hk 0]
    unfold valueOf
    rw [if_pos rfl]
    rfl
  · intro j
    obtain ⟨v, hv, hcells⟩ := h3 "i2q2_meas_ku_l1b_echo_sar_ku" (.vector .samples) (by decide +kernel)
    unfold readFile
    rw [hv, Option.bind_some, hcells k rec hk j]
    unfold valueOf
    rw [if_pos rfl]
    show Option.bind ((scaledWaveform _)[j]?) _ = _
    cases (scaledWaveform rec.result.out.waveform)[j]? <;> rfl

theorem shows_waveform (rnd : ℝ → ℤ) (hr : Rounds rnd) (c : Conf) (t : Telemetry) (recs : List Record)
    (hw : ∀ rec ∈ recs, rec.result.out.waveform.length ≤ c.samples * c.zp)
    (ht : ∀ rec name, (t.tables rec name).length ≤ c.looks) (k : ℕ) (rec : Record) (hk : recs[k]? = some rec)
    (hnum : ∀ x ∈ rec.result.out.waveform, x ≠ none) (hnn : ∀ x, some x ∈ rec.result.out.waveform → 0 ≤ x ∧ x < 10 ^ 18)
    (hpos : ∃ x, some x ∈ rec.result.out.waveform ∧ 0 < x) : ShowsWaveform rnd (l1bFile c t recs).1 k rec := by
  obtain ⟨r1, r2⟩ := read_waveform rnd c t recs hw ht k rec hk
  obtain ⟨ws, n1, n2⟩ := numbers_some hnum
  have hmem : ∀ x, some x ∈ rec.result.out.waveform ↔ x ∈ ws := by
    intro x
    rw [n2]
    simp
  obtain ⟨s, m, s1, s2, s3⟩ := waveform_packed_partial rnd hr ws (fun x hx => (hnn x ((hmem x).2 hx)).1)
    (by obtain ⟨x, h1, h2⟩ := hpos; exact ⟨x, (hmem x).1 h1, h2⟩)
  have hmax : npMax ws = some m ∧ s.map some = ws.map fun x => npDiv x m := by
    unfold scaleWaveform at s1
    cases h : npMax ws with
    | none => rw [h] at s1; cases s1
    | some m' =>
      rw [h] at s1
      have := Option.some.inj s1
      have e : m' = m := congrArg Prod.snd this
      have e2 := congrArg Prod.fst this
      rw [e] at e2
      exact ⟨by rw [e], e2.symm⟩
  obtain ⟨hm1, hm2⟩ := hmax
  obtain ⟨hle, hmm⟩ := npMax_spec hm1
  have hwm : waveformMax rec.result.out.waveform = some m := by
    unfold waveformMax
    rw [n1, Option.bind_some, hm1]
  have hsc : scaledWaveform rec.result.out.waveform = s.map some := by
    unfold scaledWaveform
    rw [hwm, hm2]
    conv_lhs => rw [n2]
    rw [List.map_map]
    rfl
  have hd1 : ∀ d ∈ extendedDefs, d.name = "i2q2_scale_factor_l1b_echo_sar_ku" → d.type.range = none ∧
      (10 : ℚ) ^ 18 ≤ (declaredFill d).getD (15 * 2 ^ 119) := by decide +kernel
  have hd2 : ∀ d ∈ extendedDefs, d.name = "i2q2_meas_ku_l1b_echo_sar_ku" → d.type.range = some (0, 4294967295) ∧
      d.numAttr "scale_factor" = some (1 / 4294967294) ∧ d.numAttr "add_offset" = some 0 ∧ declaredFill d = some 4294967295 := by
    decide +kernel
  have hf : ∀ name ∈ ["i2q2_scale_factor_l1b_echo_sar_ku", "i2q2_meas_ku_l1b_echo_sar_ku"],
      (extendedDefs.find? (fun d => d.name == name)).isSome = true := by decide +kernel
  obtain ⟨d1, e1⟩ := Option.isSome_iff_exists.1 (hf "i2q2_scale_factor_l1b_echo_sar_ku" (by simp))
  obtain ⟨d2, e2⟩ := Option.isSome_iff_exists.1 (hf "i2q2_meas_ku_l1b_echo_sar_ku" (by simp))
  obtain ⟨t1, t2⟩ := hd1 d1 (List.mem_of_find?_eq_some e1) (by simpa using List.find?_some e1)
  obtain ⟨u1, u2, u3, u4⟩ := hd2 d2 (List.mem_of_find?_eq_some e2) (by simpa using List.find?_some e2)
  have hmb := hnn m ((hmem m).2 hmm)
  refine ⟨m, ?_, (hmem m).2 hmm, ?_⟩
  · rw [r1, hwm, Option.bind_some, e1, Option.bind_some]
    exact readCell_exact rnd d1 m t1 t2 (by rw [abs_of_nonneg hmb.1]; exact hmb.2)
  · intro j x hx
    have hjw : ws[j]? = some x := by
      rw [n2, List.getElem?_map] at hx
      cases h : ws[j]? with
      | none => rw [h] at hx; cases hx
      | some y =>
        rw [h] at hx
        exact congrArg some (Option.some.inj (Option.some.inj hx))
    obtain ⟨hlt, hjx⟩ := List.getElem?_eq_some_iff.1 hjw
    refine ⟨hle x (hjx ▸ List.getElem_mem hlt), ?_⟩
    obtain ⟨code, p1, p2, p3, p4⟩ := s3 j (by omega) hlt
    have hcode : (0 : ℤ) ≤ code ∧ code ≤ 4294967294 := by
      unfold pack at p1
      dsimp only at p1
      split at p1
      · rename_i hc
        cases p1
        omega
      · cases p1
    have hcode' : (0 : ℝ) ≤ code ∧ (code : ℝ) ≤ 4294967294 := ⟨by exact_mod_cast hcode.1, by exact_mod_cast hcode.2⟩
    refine ⟨unpack (1 / 4294967294) 0 code, ?_, by unfold unpack; linarith, by unfold unpack; linarith, by rw [← hjx]; exact p3,
      by rw [← hjx]; exact p4⟩
    rw [r2 j, hsc, List.getElem?_map, List.getElem?_eq_getElem (by omega : j < s.length)]
    show (some s[j]).bind _ = _
    rw [Option.bind_some, e2, Option.bind_some]
    unfold readCell
    rw [u1]
    dsimp only
    rw [u2, u3]
    dsimp only
    have q1 : (((1 / 4294967294 : ℚ)) : ℝ) = 1 / 4294967294 := by push_cast; rfl
    rw [q1, Rat.cast_zero, p1, Option.bind_some, u4, if_neg]
    intro h
    have h' : (4294967295 : ℚ) = code := Option.some.inj h
    exact p2 (by exact_mod_cast h'.symm)

/-- **C158.**  The extended L1B file of a run has one record for each surface processed, in their order; no record fails to be written; and
what is read from the file is the time, place, height, position, velocity and range of the surface and, where the waveform consists of
numbers of which none is negative and one is not 0, its waveform. -/
theorem product_shows_results (c : Conf) (o : World) (alg : Surface.Alg) (file : ℕ → Raw) (n : ℕ) (hn : 0 < c.pulses)
    (t : Telemetry) (ht : ∀ rec name, (t.tables rec name).length ≤ c.looks) (rnd : ℝ → ℤ) (hr : Rounds rnd) :
    (∀ e ∈ (l1bFile c t (process c o alg file n).state.l1b).2, e = none) ∧
    (l1bFile c t (process c o alg file n).state.l1b).1.index = (process c o alg file n).state.l1b.length ∧
    ∀ (k : ℕ) (rec : Record), (process c o alg file n).state.l1b[k]? = some rec →
      ShowsPlace rnd c (l1bFile c t (process c o alg file n).state.l1b).1 k rec ∧
      ((∀ x ∈ rec.result.out.waveform, ∃ y, x = some y ∧ 0 ≤ y ∧ y < 10 ^ 18) → (∃ x, some x ∈ rec.result.out.waveform ∧ x ≠ 0) →
        ShowsWaveform rnd (l1bFile c t (process c o alg file n).state.l1b).1 k rec) := by
  have hw : ∀ rec ∈ (process c o alg file n).state.l1b, rec.result.out.waveform.length ≤ c.samples * c.zp :=
    fun rec hrec => waveform_fits c o alg file n hn rec hrec
  obtain ⟨h1, h2, _⟩ := l1bFile_cells c t _ hw ht
  refine ⟨h1, h2, fun k rec hk => ⟨shows_place rnd hr c t _ hw ht k rec hk, fun hnum hne => ?_⟩⟩
  have hnn : ∀ x, some x ∈ rec.result.out.waveform → 0 ≤ x ∧ x < 10 ^ 18 := by
    intro x hx
    obtain ⟨y, h1, h2⟩ := hnum _ hx
    cases h1
    exact h2
  refine shows_waveform rnd hr c t _ hw ht k rec hk ?_ hnn ?_
  · intro x hx h
    obtain ⟨y, h1, _⟩ := hnum x hx
    rw [h1] at h
    cases h
  · obtain ⟨x, h1, h2⟩ := hne
    exact ⟨x, h1, lt_of_le_of_ne (hnn x h1).1 (Ne.symm h2)⟩

/-- With masking off all samples are numbers. -/
theorem waveform_all (c : Conf) (o : World) (alg : Surface.Alg) (file : ℕ → Raw) (n : ℕ) (hn : 0 < c.pulses)
    (hl : 2 ≤ c.looks) (hs : 2 ≤ c.samples * c.zp) (hmask : c.maskOn = false) (hoff : c.weighting = false) (rec : Record)
    (hmem : rec ∈ (process c o alg file n).state.l1b) : ∀ j < c.samples * c.zp, ∃ y, rec.result.out.waveform[j]? = some (some y) := by
  obtain ⟨its, h1, h2, h3, hp, _, _⟩ := process_products c o alg file n
  obtain ⟨s2, ho⟩ := hp.origin rec (Or.inl hmem)
  obtain ⟨looks, f, e1, _⟩ := ho.parts hn
  rw [hoff, Chain.weighting_off] at e1
  have hrows : 0 < rec.result.gathered.rows.length := surface_rows e1 hl
  intro j hj
  refine kept_number _ _ _ c.chain _ _ _ _ hs rec.result e1 j hj ⟨0, _, List.getElem?_eq_getElem hrows, ?_⟩
  intro h
  have : c.maskOn = true := h
  rw [hmask] at this
  cases this

/-- **C158, waveforms.**  With masking and antenna weighting off, and echoes of bounded energy, the waveform of every record is read from the
file, unless it is 0 throughout. -/
theorem waveforms_shown (c : Conf) (o : World) (alg : Surface.Alg) (file : ℕ → Raw) (n : ℕ) (hn : 0 < c.pulses)
    (hl : 2 ≤ c.looks) (hs : 2 ≤ c.samples * c.zp) (hmask : c.maskOn = false) (hoff : c.weighting = false)
    (E : ℝ) (hE0 : 0 ≤ E) (hE : EnergyBound c file n E) (hEz : E / c.zp < 10 ^ 18)
    (t : Telemetry) (ht : ∀ rec name, (t.tables rec name).length ≤ c.looks) (rnd : ℝ → ℤ) (hr : Rounds rnd)
    (k : ℕ) (rec : Record) (hk : (process c o alg file n).state.l1b[k]? = some rec)
    (hne : ∃ x, some x ∈ rec.result.out.waveform ∧ x ≠ 0) :
    rec.result.out.waveform.length = c.samples * c.zp ∧
    ShowsWaveform rnd (l1bFile c t (process c o alg file n).state.l1b).1 k rec := by
  have hmem := List.mem_of_getElem? hk
  have hfit := waveform_fits c o alg file n hn rec hmem
  have hnumber := waveform_all c o alg file n hn hl hs hmask hoff rec hmem
  have hlen : rec.result.out.waveform.length = c.samples * c.zp := by
    by_contra hne'
    obtain ⟨y, hy⟩ := hnumber rec.result.out.waveform.length (by omega)
    rw [List.getElem?_eq_none (le_refl _)] at hy
    cases hy
  refine ⟨hlen, ((product_shows_results c o alg file n hn t ht rnd hr).2.2 k rec hk).2 ?_ hne⟩
  intro x hx
  obtain ⟨j, hj⟩ := List.getElem?_of_mem hx
  obtain ⟨hlt, _⟩ := List.getElem?_eq_some_iff.1 hj
  obtain ⟨y, hy⟩ := hnumber j (by omega)
  rw [hj] at hy
  have hxy : x = some y := Option.some.inj hy
  rw [hxy] at hj
  obtain ⟨b1, b2⟩ := waveforms_bounded c o alg file n hn hoff E hE0 hE rec (Or.inl hmem) j y hj
  exact ⟨y, hxy, b1, lt_of_le_of_lt b2 hEz⟩

/-- **C158, NaN.**  A waveform with one sample that is not a number cannot be read from the file: neither its scale factor nor any other
sample. -/
theorem nan_waveform_unreadable (c : Conf) (o : World) (alg : Surface.Alg) (file : ℕ → Raw) (n : ℕ) (hn : 0 < c.pulses)
    (t : Telemetry) (ht : ∀ rec name, (t.tables rec name).length ≤ c.looks) (rnd : ℝ → ℤ) (k : ℕ) (rec : Record)
    (hk : (process c o alg file n).state.l1b[k]? = some rec) (hnan : none ∈ rec.result.out.waveform) :
    readFile rnd (l1bFile c t (process c o alg file n).state.l1b).1 "i2q2_scale_factor_l1b_echo_sar_ku" k 0 = none ∧
    ∀ j, readFile rnd (l1bFile c t (process c o alg file n).state.l1b).1 "i2q2_meas_ku_l1b_echo_sar_ku" k j = none := by
  have hw : ∀ rec ∈ (process c o alg file n).state.l1b, rec.result.out.waveform.length ≤ c.samples * c.zp :=
    fun rec hrec => waveform_fits c o alg file n hn rec hrec
  obtain ⟨r1, r2⟩ := read_waveform rnd c t _ hw ht k rec hk
  have hm : waveformMax rec.result.out.waveform = none := by
    unfold waveformMax
    rw [numbers_none hnan]
    rfl
  refine ⟨by rw [r1, hm]; rfl, fun j => ?_⟩
  rw [r2 j]
  unfold scaledWaveform
  rw [hm, List.getElem?_map]
  cases rec.result.out.waveform[j]? with
  | none => rfl
  | some x => cases x <;> rfl

/-- **C158, a point target.**  If a file holds the echoes of a point at a place, of power `p`, then, with the processing of C148 and masking
off, the waveform read from the L1B file for that place has the value 1 in the middle, and the scale factor is `p` times the gain of the
coherent sums; no other value is larger. -/
theorem target_read (c : Conf) (o : World) (ha : Stack.IsArgsort o.argsort) (hround : ∀ x, |(o.round x : ℝ) - x| ≤ 1 / 2)
    (alg : Surface.Alg) (file : ℕ → Raw) (n : ℕ) (h1 : c.cal1 = false) (h2 : c.cal2 = false) (he : c.exactMethod = true)
    (hd : c.dopplerOn = true) (hsl : c.slantOn = true) (hf : c.focusing = false) (hoff : c.weighting = false) (hmask : c.maskOn = false)
    (hp : 0 < c.pulses) (hs2 : 2 ≤ c.samples) (hz : 0 < c.zp) (hc : c.c ≠ 0) (ht0 : 0 < c.t0) (hlk : 2 ≤ c.looks)
    (E : ℝ) (hE0 : 0 ≤ E) (hE : EnergyBound c file n E) (hEz : E / c.zp < 10 ^ 18)
    (X : Surface.V) (p : ℝ) (hpos : 0 < p) (hg : Chain.gain c.chain ≠ 0) (hX : HoldsTarget c file n X p p)
    (t : Telemetry) (ht : ∀ rec name, (t.tables rec name).length ≤ c.looks) (rnd : ℝ → ℤ) (hr : Rounds rnd)
    (k : ℕ) (rec : Record) (hk : (process c o alg file n).state.l1b[k]? = some rec) (hloc : rec.loc.surf = X) :
    readFile rnd (l1bFile c t (process c o alg file n).state.l1b).1 "i2q2_scale_factor_l1b_echo_sar_ku" k 0 =
      some (p * Chain.gain c.chain) ∧
    readFile rnd (l1bFile c t (process c o alg file n).state.l1b).1 "i2q2_meas_ku_l1b_echo_sar_ku" k (c.zp * c.samples / 2) = some 1 ∧
    ∀ j < c.samples * c.zp, ∃ y,
      readFile rnd (l1bFile c t (process c o alg file n).state.l1b).1 "i2q2_meas_ku_l1b_echo_sar_ku" k j = some y ∧ 0 ≤ y ∧ y ≤ 1 := by
  obtain ⟨x, x1, x2, x3, x4⟩ := target_in_centre c o ha hround alg file n h1 h2 he hd hsl hf hoff hp hs2 hz hc ht0 hlk X p p hX rec
    (Or.inl (List.mem_of_getElem? hk)) hloc
  have hx : x = p * Chain.gain c.chain := le_antisymm x3 x2
  have hx0 : x ≠ 0 := by rw [hx]; exact mul_ne_zero hpos.ne' hg
  obtain ⟨hlen, m, m1, m2, m3⟩ := waveforms_shown c o alg file n hp hlk (le_trans hs2 (Nat.le_mul_of_pos_right _ hz)) hmask hoff E hE0 hE hEz
    t ht rnd hr k rec hk ⟨x, List.mem_of_getElem? x1, hx0⟩
  have hm : m = x := by
    apply le_antisymm
    · obtain ⟨j, hj⟩ := List.getElem?_of_mem m2
      by_cases hjc : j = c.zp * c.samples / 2
      · rw [hjc, x1] at hj
        exact (Option.some.inj (Option.some.inj hj)).symm.le
      · rw [hx]
        exact (x4 j m hj hjc).1
    · exact (m3 _ x x1).1
  refine ⟨by rw [m1, hm, hx], ?_, ?_⟩
  · obtain ⟨_, y, y1, _, _, _, y2⟩ := m3 _ x x1
    rw [y1]
    have := y2 hm.symm
    rw [hm] at this
    rw [mul_left_eq_self₀.1 this |>.resolve_right hx0]
  · intro j hj
    obtain ⟨hmem, hval⟩ : ∃ v, rec.result.out.waveform[j]? = some (some v) := waveform_all c o alg file n hp hlk
      (le_trans hs2 (Nat.le_mul_of_pos_right _ hz)) hmask hoff rec (List.mem_of_getElem? hk) j hj
    obtain ⟨_, y, y1, y2, y3, _⟩ := m3 j _ hval
    exact ⟨y, y1, y2, y3⟩

/-- The record of the example, whose samples are numbers, the one in the middle 8. -/
example (alg : Surface.Alg) : ∃ s rec, process demoConf (demoWorld realArg) alg demoFile 2 = .finished s ∧ s.l1b = [rec] ∧
    |rec.loc.time| < 10 ^ 18 ∧ 2 ≤ demoConf.looks ∧ 2 ≤ demoConf.samples * demoConf.zp ∧ demoConf.maskOn = false ∧
    demoConf.weighting = false ∧ EnergyBound demoConf demoFile 2 16 ∧ 16 / (demoConf.zp : ℝ) < 10 ^ 18 ∧
    (∃ x, some x ∈ rec.result.out.waveform ∧ x ≠ 0) ∧ Rounds (fun x : ℝ => ⌊x + 1 / 2⌋) := by
  obtain ⟨s, rec, h1, h2, _, _, h3, _, h4⟩ := demo_run realArg realArg_isArgsort alg
  refine ⟨s, rec, h1, h2, ?_, by decide, by decide, rfl, rfl, demo_energy 2, by norm_num [demoConf], ?_, ?_⟩
  · rw [h3]
    have : (demoSurf alg).loc.time = 0 := by
      show (demoFile 0).time = 0
      simp [demoFile]
    rw [this]
    norm_num
  · exact ⟨8, List.mem_of_getElem? h4, by norm_num⟩
  · intro x
    rw [abs_le]
    constructor
    · linarith [Int.lt_floor_add_one (x + 1 / 2)]
    · linarith [Int.floor_le (x + 1 / 2)]

/-- A sample which no look keeps (C47), as `multilook` makes it. -/
example : (Multilook.compute true 2 1 [(⟨2, [true, false], [3, 0], 0, 0, 0, 0, 0⟩ : Multilook.Beam ℝ)]).waveform = [some 3, none] := by
  simp [Multilook.compute, Multilook.loop, Multilook.turn, Multilook.increments, Multilook.divide]

end Dedop.Whole
