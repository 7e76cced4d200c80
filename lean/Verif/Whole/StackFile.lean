import Verif.Whole.Product
import Verif.Writer.ValueProps

/-!
# What is read from the L1B-S product of a run (C169)

Joins the model of whole files with that of the L1B-S writer (`dedop/data/output/l1bs_writer.py`).
-/
namespace Dedop.Whole

open Real Writer

/-! ## Model -/

/-- `beams_range_compr_iq` of a surface (`range_compression.py:20-44`): the corrected beams of the stack, zero-padded and transformed. -/
noncomputable def stackIq (c : Conf) (rec : Record) : List (List ℂ) :=
  List.zipWith (fun row shift => (List.range (c.samples * c.zp)).map
    (Signal.compressIq c.zp c.samples (Signal.applyShift c.samples shift row.beam))) rec.result.gathered.rows rec.result.shifts

/-- `max_iq` and `dynamic_scale` (`l1bs_writer.py:645-649`).  An empty stack raises; it is not considered here. -/
noncomputable def dynamicScale (c : Conf) (rec : Record) : ℝ :=
  let parts := (stackIq c rec).flatten.flatMap fun z => [|z.re|, |z.im|]
  (npMax parts).getD 0 / 127

/-- What `write_record` reads (`l1bs_writer.py:632-649`). -/
noncomputable def writerEnvS (c : Conf) (t : Telemetry) (rec : Record) : Writer.Env where
  surf a := if a = "data_stack_size" then rec.result.gathered.size else surfAttr t rec a
  burst := (writerEnv c t rec).burst
  cst _ := c.c
  loc
    | "utc_days" => (utcOf rec.loc).1
    | "utc_secs" => (utcOf rec.loc).2
    | "dynamic_scale" => dynamicScale c rec
    | _ => 0

/-- The value of one variable (`l1bs_writer.py:651-703`); in a cell `none` is NaN. -/
noncomputable def valueOfS (c : Conf) (t : Telemetry) (rec : Record) (name : String) : Shape → Value (Option ℝ)
  | .missing => .missing
  | .scalar => .scalar (written l1bsSources (writerEnvS c t rec) name)
  | .vector _ =>
    if name = "i2q2_meas_ku_l1bs_echo_sar_ku" then
      .vector (rec.result.out.waveform.map fun x => x.map fun x => x * 10 ^ (-((writerEnvS c t rec).burst "agc_ku") / 10))
    else .vector ((t.tables rec name).map some)
  | .matrix _ _ => .matrix (stackIq c rec).length (c.samples * c.zp) fun i j =>
    let z := ((stackIq c rec).getD i []).getD j 0
    npDiv (if name = "i_echoes_ku_l1bs_echo_sar_ku" then z.re else z.im) (dynamicScale c rec)

/-- The keywords and values of `write_record` of the L1B-S writer (`l1bs_writer.py:651-703`). -/
noncomputable def l1bsValues (c : Conf) (t : Telemetry) (rec : Record) : List (String × Value (Option ℝ)) :=
  l1bsRecord.map fun p => (p.1, valueOfS c t rec p.1 p.2)

/-- The file after the records have been written, one call after the other (`processor.py:261-263`, `netcdf_writer.py:345-377`), and the
exceptions of the calls.  The dimensions are those of the L1B file (`l1bs_writer.py:93-99`). -/
noncomputable def l1bsFile (c : Conf) (t : Telemetry) (recs : List Record) : Writer (Option ℝ) × List (Option Writer.Err) :=
  writeAll (openWriter (l1bSize c) l1bsSchema) (recs.map (l1bsValues c t))

/-- Reading entry `i`, `j` of a variable for record `k` of the L1B-S file.  (The NetCDF library, for variables of `netcdf_writer.py:309-331`.) -/
noncomputable def readFileS (rnd : ℝ → ℤ) (f : Writer (Option ℝ)) (name : String) (k i j : ℕ) : Option ℝ :=
  (f.store name).bind fun v => (v.cells k i j).bind fun x => x.bind fun x =>
    (l1bsDefs.find? (fun d => d.name == name)).bind fun d => readCell rnd d x

/-! ## Specification -/

/-- What a reader finds in the L1B-S file for record `k`: the number of looks; a scale factor `d`; for every look and sample of the stack numbers `a`
and `b` which, times `d`, are the parts of the complex sample with errors below `d`, while the largest part is `127 d`; and nothing for looks beyond the
stack.  The power made of them is that which went into the multilooking, unless the sample was masked. -/
def ShowsStack (rnd : ℝ → ℤ) (c : Conf) (f : Writer (Option ℝ)) (k : ℕ) (rec : Record) : Prop :=
  readFileS rnd f "nb_stack_l1bs_echo_sar_ku" k 0 0 = some (rec.result.gathered.rows.length : ℝ) ∧
  ∃ d, readFileS rnd f "iq_scale_factor_l1bs_echo_sar_ku" k 0 0 = some d ∧ 0 < d ∧
    (∃ (i : ℕ) (l : List ℂ) (z : ℂ), (stackIq c rec)[i]? = some l ∧ z ∈ l ∧ max |z.re| |z.im| = 127 * d) ∧
    (∀ i < rec.result.gathered.rows.length, ∀ j < c.samples * c.zp, ∃ (z : ℂ) (a b : ℝ) (p : ℝ),
      (stackIq c rec)[i]?.bind (·[j]?) = some z ∧
      readFileS rnd f "i_echoes_ku_l1bs_echo_sar_ku" k i j = some a ∧ readFileS rnd f "q_echoes_ku_l1bs_echo_sar_ku" k i j = some b ∧
      |a * d - z.re| < d ∧ |b * d - z.im| < d ∧
      rec.result.masked.beams[i]?.bind (·[j]?) = some p ∧ (p = 0 ∨ |(a ^ 2 + b ^ 2) * d ^ 2 - p| ≤ 508 * d ^ 2)) ∧
    ∀ i j, rec.result.gathered.rows.length ≤ i → readFileS rnd f "i_echoes_ku_l1bs_echo_sar_ku" k i j = none ∧
      readFileS rnd f "q_echoes_ku_l1bs_echo_sar_ku" k i j = none

/-! ## Lemmas -/

theorem stack_parts {argsort : List ℝ → List ℕ} {round : ℝ → ℤ} {junk : ℕ → ℂ} {c : Chain.Conf} {bursts : ℕ → Chain.L1A}
    {s : Chain.Surf} {prev : ℕ} {looks : Chain.Looks} {r : Chain.Result} (h : Chain.surface argsort round junk c bursts s prev looks = .ok (some r)) :
    r.shifts = r.gathered.rows.map (Chain.shiftOf c bursts s) ∧
    Stack.masking round (Chain.maskConf c) (Chain.maskInput c bursts s r.gathered.rows) = .ok r.masked ∧
    r.gathered.rows.length = r.gathered.size ∧ r.gathered.size ≤ c.looks ∧ c.looks / 2 ≤ r.gathered.size := by
  unfold Chain.surface at h
  cases h1 : Chain.entries junk c bursts looks with
  | error => rw [h1] at h; cases h
  | ok es =>
    rw [h1] at h
    dsimp only at h
    cases h2 : Stack.gather argsort c.looks (π / 2) prev es with
    | error => rw [h2] at h; cases h
    | ok g =>
      rw [h2] at h
      dsimp only at h
      obtain ⟨z1, z2⟩ := Chain.gather_length argsort _ _ _ _ _ h2
      split at h
      · cases h
      · rename_i hsz
        cases h3 : Stack.masking round (Chain.maskConf c) (Chain.maskInput c bursts s g.rows) with
        | error => rw [h3] at h; cases h
        | ok m =>
          rw [h3] at h
          dsimp only at h
          split at h
          · cases h
          · split at h
            · cases h
            · cases h
              exact ⟨rfl, h3, z1, z2, not_lt.1 hsz⟩

theorem surface_out {argsort : List ℝ → List ℕ} {round : ℝ → ℤ} {junk : ℕ → ℂ} {c : Chain.Conf} {bursts : ℕ → Chain.L1A}
    {s : Chain.Surf} {prev : ℕ} {looks : Chain.Looks} {r : Chain.Result} (h : Chain.surface argsort round junk c bursts s prev looks = .ok (some r)) :
    r.out = Multilook.compute c.avoidZeros (c.samples * c.zp) c.looks (Chain.lookBeams r.gathered.rows r.masked) := by
  unfold Chain.surface at h
  cases h1 : Chain.entries junk c bursts looks with
  | error => rw [h1] at h; cases h
  | ok es =>
    rw [h1] at h
    dsimp only at h
    cases h2 : Stack.gather argsort c.looks (π / 2) prev es with
    | error => rw [h2] at h; cases h
    | ok g =>
      rw [h2] at h
      dsimp only at h
      split at h
      · cases h
      · cases h3 : Stack.masking round (Chain.maskConf c) (Chain.maskInput c bursts s g.rows) with
        | error => rw [h3] at h; cases h
        | ok m =>
          rw [h3] at h
          dsimp only at h
          split at h
          · cases h
          · split at h
            · cases h
            · cases h
              rfl

/-- What is known of a record of the L1B-S product. -/
theorem recordS_parts (c : Conf) (o : World) (alg : Surface.Alg) (file : ℕ → Raw) (n : ℕ) (hn : 0 < c.pulses) (rec : Record)
    (hr : rec ∈ (process c o alg file n).state.l1bs) :
    rec.result.out.waveform.length ≤ c.samples * c.zp ∧ ∃ bursts s, rec.result.shifts = rec.result.gathered.rows.map (Chain.shiftOf c.chain bursts s) ∧
    Stack.masking o.round (Chain.maskConf c.chain) (Chain.maskInput c.chain bursts s rec.result.gathered.rows) = .ok rec.result.masked ∧
    rec.result.gathered.rows.length = rec.result.gathered.size ∧ rec.result.gathered.size ≤ c.looks ∧ c.looks / 2 ≤ rec.result.gathered.size := by
  obtain ⟨its, h1, h2, h3, hp, _, _⟩ := process_products c o alg file n
  obtain ⟨s2, ho⟩ := hp.origin rec (Or.inr hr)
  obtain ⟨looks, f, e1, _⟩ := ho.parts hn
  unfold Chain.surfaceAw at e1
  split at e1
  · cases e1
  · cases e1
  · rename_i r hr
    obtain ⟨p1, p2, p3, p4, p5⟩ := stack_parts hr
    split at e1
    · cases e1
    · have : rec.result = _ := (Option.some.inj (Except.ok.inj e1)).symm
      rw [this]
      exact ⟨Chain.waveform_length_le _ _ _ _, _, _, p1, p2, p3, p4, p5⟩

/-- The looks of the stack. -/
theorem stackIq_eq (c : Conf) (rec : Record) (f : Stack.Row ℝ (ℕ → ℂ) → ℝ) (h : rec.result.shifts = rec.result.gathered.rows.map f) :
    stackIq c rec = rec.result.gathered.rows.map fun row => (List.range (c.samples * c.zp)).map
      (Signal.compressIq c.zp c.samples (Signal.applyShift c.samples (f row) row.beam)) := by
  unfold stackIq
  rw [h]
  generalize rec.result.gathered.rows = rows
  induction rows with
  | nil => rfl
  | cons r rows ih => simp only [List.map_cons, List.zipWith_cons_cons, ih]

theorem l1bsValues_shaped (c : Conf) (t : Telemetry) (rec : Record) (hw : rec.result.out.waveform.length ≤ c.samples * c.zp)
    (hs : (stackIq c rec).length ≤ c.looks)
    (ht : ∀ name, (t.tables rec name).length ≤ c.looks) : Shaped (l1bSize c) (l1bsValues c t rec) l1bsRecord := by
  have hv : ∀ p ∈ l1bsRecord, ∀ d, p.2 = .vector d → (p.1 = "i2q2_meas_ku_l1bs_echo_sar_ku" ∧ d = .samples) ∨
      (p.1 ≠ "i2q2_meas_ku_l1bs_echo_sar_ku" ∧ d = .looks) := by
    have : l1bsRecord.all (fun p => match p.2 with
        | .vector d => decide ((p.1 = "i2q2_meas_ku_l1bs_echo_sar_ku" ∧ d = .samples) ∨ (p.1 ≠ "i2q2_meas_ku_l1bs_echo_sar_ku" ∧ d = .looks))
        | _ => true) = true := by decide +kernel
    intro p hp d hd
    have h := List.all_eq_true.1 this p hp
    rw [hd] at h
    simpa using h
  have hm : ∀ p ∈ l1bsRecord, ∀ d e, p.2 = .matrix d e → d = .looks ∧ e = .samples := by
    have : l1bsRecord.all (fun p => match p.2 with
        | .matrix d e => decide (d = .looks ∧ e = .samples)
        | _ => true) = true := by decide +kernel
    intro p hp d e hd
    have h := List.all_eq_true.1 this p hp
    rw [hd] at h
    simpa using h
  unfold Shaped l1bsValues
  rw [List.forall₂_map_left_iff, List.forall₂_same]
  intro p hp
  refine ⟨rfl, ?_⟩
  dsimp only
  cases hsh : p.2 with
  | missing => trivial
  | scalar => trivial
  | vector d =>
    rcases hv p hp d hsh with ⟨h1, rfl⟩ | ⟨h1, rfl⟩
    · unfold valueOfS
      rw [if_pos h1]
      show (List.map _ _).length ≤ _
      rw [List.length_map]
      exact hw
    · unfold valueOfS
      rw [if_neg h1]
      show (List.map some _).length ≤ _
      rw [List.length_map]
      exact ht p.1
  | matrix d e =>
    obtain ⟨rfl, rfl⟩ := hm p hp d e hsh
    exact ⟨hs, le_refl _⟩

/-- What is in the file. -/
theorem l1bsFile_cells (c : Conf) (t : Telemetry) (recs : List Record)
    (hw : ∀ rec ∈ recs, rec.result.out.waveform.length ≤ c.samples * c.zp) (hst : ∀ rec ∈ recs, (stackIq c rec).length ≤ c.looks)
    (ht : ∀ rec name, (t.tables rec name).length ≤ c.looks) :
    (∀ e ∈ (l1bsFile c t recs).2, e = none) ∧ (l1bsFile c t recs).1.index = recs.length ∧
    ∀ name sh, l1bsRecord.lookup name = some sh → ∃ v, (l1bsFile c t recs).1.store name = some v ∧
      ∀ k rec, recs[k]? = some rec → ∀ i j, v.cells k i j = shown (valueOfS c t rec name sh) i j := by
  have hs : ∀ r ∈ recs.map (l1bsValues c t), Shaped (l1bSize c) r l1bsRecord := by
    intro r hr
    obtain ⟨rec, hrec, rfl⟩ := List.mem_map.1 hr
    exact l1bsValues_shaped c t rec (hw rec hrec) (hst rec hrec) (ht rec)
  obtain ⟨h1, h2, h3⟩ := writers_accept (l1bSize c) l1bsSchema l1bsRecord (Or.inr (Or.inr rfl)) _ hs
  refine ⟨h1, by rw [l1bsFile, h2, List.length_map], ?_⟩
  intro name sh hl
  have hk : SizesKept (l1bSize c) l1bsSchema (l1bsFile c t recs).1.store := by
    have hc : covers l1bsSchema l1bsRecord = true := by decide +kernel
    have : ∀ (l : List (List (String × Value (Option ℝ)))) (w : Writer (Option ℝ)), SizesKept (l1bSize c) l1bsSchema w.store →
        (∀ r ∈ l, Shaped (l1bSize c) r l1bsRecord) → SizesKept (l1bSize c) l1bsSchema (writeAll w l).1.store := by
      intro l
      induction l with
      | nil => intro w h _; exact h
      | cons r rs ih =>
        intro w h hr
        obtain ⟨a1, a2⟩ := writeValues_ok (l1bSize c) l1bsSchema w.index l1bsRecord hc r w.store h (hr r (by simp))
        rw [writeAll]
        apply ih
        · unfold writeRecord
          rcases hq : writeValues w.index r w.store with ⟨s, o⟩
          rw [hq] at a2
          cases o <;> exact a2
        · exact fun q hq => hr q (by simp [hq])
    exact this _ _ (open_sizes _ _) hs
  have hsch : ∀ p ∈ l1bsRecord, (l1bsSchema.lookup p.1).isSome = true := by
    have : l1bsRecord.all (fun p => (l1bsSchema.lookup p.1).isSome) = true := by decide +kernel
    exact fun p hp => List.all_eq_true.1 this p hp
  have hmem : (name, sh) ∈ l1bsRecord := by
    have := List.lookup_eq_some_iff.1 hl
    obtain ⟨l1, l2, e, _⟩ := this
    rw [e]; simp
  obtain ⟨ds, hds⟩ := Option.isSome_iff_exists.1 (hsch _ hmem)
  obtain ⟨v, hv, _⟩ := hk name ds hds
  refine ⟨v, hv, ?_⟩
  intro k rec hrec i j
  rw [h3 name v hv k i j, List.getElem?_map, hrec]
  simp only [Option.map_some]
  congr 1
  unfold given l1bsValues
  have : ∀ l : List (String × Shape), (l.map fun p => (p.1, valueOfS c t rec p.1 p.2)).lookup name =
      (l.lookup name).map (fun sh => valueOfS c t rec name sh) := by
    intro l
    induction l with
    | nil => rfl
    | cons p l ih =>
      rw [List.map_cons, List.lookup_cons, List.lookup_cons]
      by_cases h : name == p.1
      · rw [h]
        simp only [Option.map_some]
        rw [eq_of_beq h]
      · simp only [Bool.not_eq_true] at h
        rw [h]
        exact ih
  rw [this, hl]
  rfl

/-- A byte of the I/Q variables: between -127 and 127, read as it was truncated. -/
theorem byte_read (rnd : ℝ → ℤ) (name : String) (hname : name = "i_echoes_ku_l1bs_echo_sar_ku" ∨ name = "q_echoes_ku_l1bs_echo_sar_ku")
    (x d : ℝ) (hd : 0 < d) (hx : |x| ≤ 127 * d) :
    ∃ a : ℝ, (l1bsDefs.find? (fun v => v.name == name)).bind (fun v => readCell rnd v (x / d)) = some a ∧ |a * d - x| < d ∧ |a| ≤ 127 := by
  have hdef : ((l1bsDefs.find? (fun v => v.name == name)).map fun v => (v.type.range, v.numAttr "scale_factor", declaredFill v)) =
      some (some (-128, 127), none, some (-128)) := by
    rcases hname with rfl | rfl <;> decide +kernel
  obtain ⟨v, hv, h⟩ := Option.map_eq_some_iff.1 hdef
  simp only [Prod.mk.injEq] at h
  obtain ⟨h1, h2, h3⟩ := h
  have hxd : |x / d| ≤ 127 := by
    rw [abs_div, abs_of_pos hd, div_le_iff₀ hd]; exact hx
  obtain ⟨q1, q2⟩ := abs_le.1 hxd
  set k : ℤ := if 0 ≤ x / d then ⌊x / d⌋ else ⌈x / d⌉ with hk
  have hb : -127 ≤ k ∧ k ≤ 127 ∧ |(k : ℝ) - x / d| < 1 := by
    rw [hk]
    split
    · rename_i h0
      refine ⟨?_, ?_, ?_⟩
      · exact le_trans (by norm_num) (Int.floor_nonneg.2 h0)
      · have : ((⌊x / d⌋ : ℤ) : ℝ) ≤ 127 := le_trans (Int.floor_le _) q2
        exact_mod_cast this
      · rw [abs_lt]
        constructor <;> linarith [Int.floor_le (x / d), Int.lt_floor_add_one (x / d)]
    · rename_i h0
      push Not at h0
      refine ⟨?_, ?_, ?_⟩
      · have : (-127 : ℝ) ≤ ((⌈x / d⌉ : ℤ) : ℝ) := le_trans q1 (Int.le_ceil _)
        exact_mod_cast this
      · exact le_trans (Int.ceil_le.2 (by push_cast; linarith : x / d ≤ ((0 : ℤ) : ℝ))) (by norm_num)
      · rw [abs_lt]
        constructor <;> linarith [Int.le_ceil (x / d), Int.ceil_lt_add_one (x / d)]
  refine ⟨k, ?_, ?_, ?_⟩
  · rw [hv, Option.bind_some]
    unfold readCell
    rw [h1, h2]
    dsimp only
    unfold castInt
    dsimp only
    rw [← hk, if_pos ⟨by omega, by omega⟩, Option.bind_some, h3, if_neg]
    intro h
    have h' : (-128 : ℚ) = k := Option.some.inj h
    have : (-128 : ℤ) = k := by exact_mod_cast h'
    omega
  · have e : (k : ℝ) * d - x = ((k : ℝ) - x / d) * d := by field_simp
    rw [e, abs_mul, abs_of_pos hd]
    nlinarith [hb.2.2]
  · rw [abs_le]
    constructor
    · exact_mod_cast hb.1
    · exact_mod_cast hb.2.1

theorem square_near (a x d : ℝ) (hd : 0 < d) (h : |a * d - x| < d) (ha : |a| ≤ 127) (hx : |x| ≤ 127 * d) : |a ^ 2 * d ^ 2 - x ^ 2| ≤ 254 * d ^ 2 := by
  have e : a ^ 2 * d ^ 2 - x ^ 2 = (a * d - x) * (a * d + x) := by ring
  rw [e, abs_mul]
  have h2 : |a * d + x| ≤ 254 * d := by
    refine le_trans (abs_add_le _ _) ?_
    rw [abs_mul, abs_of_pos hd]
    nlinarith
  calc |a * d - x| * |a * d + x| ≤ d * (254 * d) := mul_le_mul h.le h2 (abs_nonneg _) hd.le
    _ = 254 * d ^ 2 := by ring

/-! ## C169 -/

theorem shows_stack (rnd : ℝ → ℤ) (c : Conf) (t : Telemetry) (recs : List Record) (hP : 2 ≤ c.samples * c.zp) (hlooks : c.looks < 65535)
    (hw : ∀ rec ∈ recs, rec.result.out.waveform.length ≤ c.samples * c.zp) (hst : ∀ rec ∈ recs, (stackIq c rec).length ≤ c.looks)
    (ht : ∀ rec name, (t.tables rec name).length ≤ c.looks) (k : ℕ) (rec : Record) (hk : recs[k]? = some rec)
    (round : ℝ → ℤ) (bursts : ℕ → Chain.L1A) (s : Chain.Surf)
    (hsh : rec.result.shifts = rec.result.gathered.rows.map (Chain.shiftOf c.chain bursts s))
    (hmk : Stack.masking round (Chain.maskConf c.chain) (Chain.maskInput c.chain bursts s rec.result.gathered.rows) = .ok rec.result.masked)
    (hsz : rec.result.gathered.rows.length = rec.result.gathered.size) (hle : rec.result.gathered.size ≤ c.looks)
    (hbig : ∀ l ∈ stackIq c rec, ∀ z ∈ l, ‖z‖ < 10 ^ 18) (hne : ∃ l ∈ stackIq c rec, ∃ z ∈ l, z ≠ 0) :
    ShowsStack rnd c (l1bsFile c t recs).1 k rec := by
  obtain ⟨_, _, h3⟩ := l1bsFile_cells c t recs hw hst ht
  have hiq := stackIq_eq c rec _ hsh
  have hlen : (stackIq c rec).length = rec.result.gathered.rows.length := by rw [hiq, List.length_map]
  -- the scale factor
  obtain ⟨l0, hl0, z0, hz0, hz0ne⟩ := hne
  have hparts : ∀ l ∈ stackIq c rec, ∀ z ∈ l, ∀ x, x = |z.re| ∨ x = |z.im| →
      x ∈ (stackIq c rec).flatten.flatMap fun z => [|z.re|, |z.im|] := by
    intro l hl z hz x hx
    rw [List.mem_flatMap]
    exact ⟨z, List.mem_flatten.2 ⟨l, hl, hz⟩, by simpa using hx⟩
  obtain ⟨M, hM⟩ := npMax_some (List.ne_nil_of_mem (hparts l0 hl0 z0 hz0 _ (Or.inl rfl)))
  obtain ⟨m1, m2⟩ := npMax_spec hM
  have hre : ∀ l ∈ stackIq c rec, ∀ z ∈ l, |z.re| ≤ M ∧ |z.im| ≤ M := fun l hl z hz =>
    ⟨m1 _ (hparts l hl z hz _ (Or.inl rfl)), m1 _ (hparts l hl z hz _ (Or.inr rfl))⟩
  have hMpos : 0 < M := by
    obtain ⟨r1, r2⟩ := hre l0 hl0 z0 hz0
    by_contra hneg
    push Not at hneg
    apply hz0ne
    have e1 : z0.re = 0 := abs_eq_zero.1 (le_antisymm (le_trans r1 hneg) (abs_nonneg _))
    have e2 : z0.im = 0 := abs_eq_zero.1 (le_antisymm (le_trans r2 hneg) (abs_nonneg _))
    exact Complex.ext e1 e2
  have hdM : dynamicScale c rec = M / 127 := by
    unfold dynamicScale
    dsimp only
    rw [hM]
    rfl
  set d := dynamicScale c rec with hd
  have hd127 : 127 * d = M := by rw [hdM]; ring
  have hdpos : 0 < d := by rw [hdM]; positivity
  obtain ⟨zM, hzM, hMz⟩ := List.mem_flatMap.1 m2
  obtain ⟨lM, hlM, hzlM⟩ := List.mem_flatten.1 hzM
  have hMx : max |zM.re| |zM.im| = M := by
    obtain ⟨r1, r2⟩ := hre lM hlM zM hzlM
    simp only [List.mem_cons, List.not_mem_nil, or_false] at hMz
    rcases hMz with h | h
    · rw [← h]; exact max_eq_left (by rw [h]; rw [h] at r2; exact r2)
    · rw [← h]; exact max_eq_right (by rw [h]; rw [h] at r1; exact r1)
  have hdbig : |d| < 10 ^ 18 := by
    rw [abs_of_pos hdpos]
    have hn := hbig lM hlM zM hzlM
    have : M ≤ ‖zM‖ := by
      rw [← hMx]
      exact max_le (Complex.abs_re_le_norm _) (Complex.abs_im_le_norm _)
    linarith
  obtain ⟨iM, hiM⟩ := List.getElem?_of_mem hlM
  -- reading numbers
  have hscal : ∀ name, l1bsRecord.lookup name = some .scalar → ∀ x, written l1bsSources (writerEnvS c t rec) name = some x →
      readFileS rnd (l1bsFile c t recs).1 name k 0 0 = (l1bsDefs.find? (fun d => d.name == name)).bind fun d => readCell rnd d x := by
    intro name hl x hx
    obtain ⟨v, hv, hcells⟩ := h3 name .scalar hl
    unfold readFileS
    rw [hv, Option.bind_some, hcells k rec hk 0 0]
    unfold valueOfS
    rw [hx]
    rfl
  have hmat : ∀ name, l1bsRecord.lookup name = some (.matrix .looks .samples) → ∀ i j,
      readFileS rnd (l1bsFile c t recs).1 name k i j = if i < (stackIq c rec).length ∧ j < c.samples * c.zp then
        (l1bsDefs.find? (fun d => d.name == name)).bind fun v => readCell rnd v
          ((if name = "i_echoes_ku_l1bs_echo_sar_ku" then (((stackIq c rec).getD i []).getD j 0).re
            else (((stackIq c rec).getD i []).getD j 0).im) / d) else none := by
    intro name hl i j
    obtain ⟨v, hv, hcells⟩ := h3 name _ hl
    unfold readFileS
    rw [hv, Option.bind_some, hcells k rec hk i j]
    unfold valueOfS shown
    dsimp only
    by_cases h : i < (stackIq c rec).length ∧ j < c.samples * c.zp
    · rw [if_pos h, if_pos h, Option.bind_some, npDiv, ← hd, if_neg hdpos.ne', Option.bind_some]
    · rw [if_neg h, if_neg h]
      rfl
  have hI := hmat "i_echoes_ku_l1bs_echo_sar_ku" (by decide +kernel)
  have hQ := hmat "q_echoes_ku_l1bs_echo_sar_ku" (by decide +kernel)
  refine ⟨?_, d, ?_, hdpos, ⟨iM, lM, zM, hiM, hzlM, by rw [hMx, hd127]⟩, ?_, ?_⟩
  · rw [hscal "nb_stack_l1bs_echo_sar_ku" (by decide +kernel) (rec.result.gathered.size : ℝ) (by
      rw [written, show l1bsSources.lookup "nb_stack_l1bs_echo_sar_ku" = some (.surf "data_stack_size") by decide +kernel]
      simp [Src.eval, writerEnvS])]
    have hdef : ((l1bsDefs.find? (fun v => v.name == "nb_stack_l1bs_echo_sar_ku")).map fun v => (v.type.range, v.numAttr "scale_factor", declaredFill v)) =
        some (some (0, 65535), none, some 65535) := by decide +kernel
    obtain ⟨v, hv, h⟩ := Option.map_eq_some_iff.1 hdef
    simp only [Prod.mk.injEq] at h
    obtain ⟨a1, a2, a3⟩ := h
    rw [hv, Option.bind_some]
    unfold readCell
    rw [a1, a2]
    dsimp only
    unfold castInt
    dsimp only
    rw [if_pos (Nat.cast_nonneg _), Int.floor_natCast, if_pos ⟨by omega, by omega⟩, Option.bind_some, a3, if_neg]
    · rw [hsz]; simp
    · intro h
      have h' : (65535 : ℚ) = ((rec.result.gathered.size : ℤ) : ℚ) := Option.some.inj h
      have : (65535 : ℤ) = (rec.result.gathered.size : ℤ) := by exact_mod_cast h'
      omega
  · rw [hscal "iq_scale_factor_l1bs_echo_sar_ku" (by decide +kernel) d (by
      rw [written, show l1bsSources.lookup "iq_scale_factor_l1bs_echo_sar_ku" = some (.loc "dynamic_scale") by decide +kernel]
      rfl)]
    have hdef : ((l1bsDefs.find? (fun v => v.name == "iq_scale_factor_l1bs_echo_sar_ku")).map fun v => (v.type.range, declaredFill v)) =
        some (none, some 18446744073709551616) := by decide +kernel
    obtain ⟨v, hv, h⟩ := Option.map_eq_some_iff.1 hdef
    simp only [Prod.mk.injEq] at h
    rw [hv, Option.bind_some]
    exact readCell_exact rnd v d h.1 (by rw [h.2]; norm_num) hdbig
  · intro i hi j hj
    obtain ⟨row, hrow⟩ : ∃ row, rec.result.gathered.rows[i]? = some row := ⟨_, List.getElem?_eq_getElem hi⟩
    set z := Signal.compressIq c.zp c.samples (Signal.applyShift c.samples (Chain.shiftOf c.chain bursts s row) row.beam) j with hz
    have hli : (stackIq c rec)[i]? = some ((List.range (c.samples * c.zp)).map
        (Signal.compressIq c.zp c.samples (Signal.applyShift c.samples (Chain.shiftOf c.chain bursts s row) row.beam))) := by
      rw [hiq, List.getElem?_map, hrow]; rfl
    have hzj : ((List.range (c.samples * c.zp)).map (Signal.compressIq c.zp c.samples (Signal.applyShift c.samples
        (Chain.shiftOf c.chain bursts s row) row.beam)))[j]? = some z := by
      rw [List.getElem?_map, List.getElem?_range hj]; rfl
    have hgd : (((stackIq c rec).getD i []).getD j 0) = z := by
      rw [List.getD_eq_getElem?_getD, List.getD_eq_getElem?_getD, hli, Option.getD_some, hzj, Option.getD_some]
    obtain ⟨r1, r2⟩ := hre _ (List.mem_of_getElem? hli) z (List.mem_of_getElem? hzj)
    rw [← hd127] at r1 r2
    obtain ⟨a, a1, a2, a3⟩ := byte_read rnd "i_echoes_ku_l1bs_echo_sar_ku" (Or.inl rfl) z.re d hdpos r1
    obtain ⟨b, b1, b2, b3⟩ := byte_read rnd "q_echoes_ku_l1bs_echo_sar_ku" (Or.inr rfl) z.im d hdpos r2
    have hwf : Stack.WellFormed (Chain.maskConf c.chain) (Chain.maskInput c.chain bursts s rec.result.gathered.rows) := by
      refine ⟨by rw [← hsz] at hle; exact hle, by simp [Chain.maskInput], ?_⟩
      intro r hr
      simp only [Chain.maskInput, List.mem_map] at hr
      obtain ⟨row, _, rfl⟩ := hr
      simp [Chain.compressed, Chain.maskConf]
    obtain ⟨m, e1, e2⟩ := Chain.masking_rows round _ _ hP hwf
    rw [hmk] at e1
    cases e1
    obtain ⟨orig, mrow, prow, v, g1, g2, g3, g4, g5, g6, g7, g8⟩ := e2 i hi
    have ho : orig = Chain.compressed c.chain bursts s row := by
      simp only [Chain.maskInput, List.getElem?_map, hrow, Option.map_some, Option.some.injEq] at g1
      exact g1.symm
    have hop : orig.getD j 0 = ‖z‖ ^ 2 := by
      have : (Chain.compressed c.chain bursts s row)[j]? = some (‖z‖ ^ 2) := by
        unfold Chain.compressed
        rw [List.getElem?_map, List.getElem?_range (show j < c.chain.samples * c.chain.zp from hj)]
        rfl
      rw [ho, List.getD_eq_getElem?_getD, this]
      rfl
    have hpj : prow[j]? = some (prow.getD j 0) := by
      have hj' : j < prow.length := by rw [g6]; exact hj
      rw [List.getD_eq_getElem?_getD, List.getElem?_eq_getElem hj']
      rfl
    refine ⟨z, a, b, prow.getD j 0, ?_, ?_, ?_, a2, b2, ?_, ?_⟩
    · rw [hli, Option.bind_some, hzj]
    · rw [hI, if_pos ⟨by rw [hlen]; exact hi, hj⟩, if_pos rfl, hgd]; exact a1
    · rw [hQ, if_pos ⟨by rw [hlen]; exact hi, hj⟩, if_neg (by decide), hgd]; exact b1
    · rw [g3, Option.bind_some, hpj]
    · by_cases hkp : Chain.Keeps round (Chain.maskConf c.chain) (Chain.maskInput c.chain bursts s rec.result.gathered.rows) i j
      · right
        rw [(g7 j hj).2.1 hkp, hop]
        have q1 := square_near a z.re d hdpos a2 a3 r1
        have q2 := square_near b z.im d hdpos b2 b3 r2
        have hn : ‖z‖ ^ 2 = z.re ^ 2 + z.im ^ 2 := by
          rw [← Complex.normSq_eq_norm_sq, Complex.normSq_apply]; ring
        rw [hn]
        have : (a ^ 2 + b ^ 2) * d ^ 2 - (z.re ^ 2 + z.im ^ 2) = (a ^ 2 * d ^ 2 - z.re ^ 2) + (b ^ 2 * d ^ 2 - z.im ^ 2) := by ring
        rw [this]
        exact le_trans (abs_add_le _ _) (by linarith)
      · left
        exact (g7 j hj).2.2 hkp
  · intro i j hi
    rw [hI, hQ, if_neg (by rw [hlen]; omega), if_neg (by rw [hlen]; omega)]
    exact ⟨rfl, rfl⟩

/-- **C169.**  The L1B-S file of a run has one record for each record of the run, in their order; no record fails to be written; and every stack with a
sample that is not 0 is read from the file: the number of looks, and each complex sample with an error of less than the scale factor in each part. -/
theorem stack_shown (c : Conf) (o : World) (alg : Surface.Alg) (file : ℕ → Raw) (n : ℕ) (hn : 0 < c.pulses) (hP : 2 ≤ c.samples * c.zp)
    (hlooks : c.looks < 65535) (t : Telemetry) (ht : ∀ rec name, (t.tables rec name).length ≤ c.looks) (rnd : ℝ → ℤ) :
    (∀ e ∈ (l1bsFile c t (process c o alg file n).state.l1bs).2, e = none) ∧
    (l1bsFile c t (process c o alg file n).state.l1bs).1.index = (process c o alg file n).state.l1bs.length ∧
    ∀ (k : ℕ) (rec : Record), (process c o alg file n).state.l1bs[k]? = some rec →
      (∀ l ∈ stackIq c rec, ∀ z ∈ l, ‖z‖ < 10 ^ 18) → (∃ l ∈ stackIq c rec, ∃ z ∈ l, z ≠ 0) →
      ShowsStack rnd c (l1bsFile c t (process c o alg file n).state.l1bs).1 k rec := by
  have hparts := fun rec hrec => recordS_parts c o alg file n hn rec hrec
  have hw : ∀ rec ∈ (process c o alg file n).state.l1bs, rec.result.out.waveform.length ≤ c.samples * c.zp :=
    fun rec hrec => (hparts rec hrec).1
  have hst : ∀ rec ∈ (process c o alg file n).state.l1bs, (stackIq c rec).length ≤ c.looks := by
    intro rec hrec
    obtain ⟨_, bursts, s, p1, _, p3, p4, _⟩ := hparts rec hrec
    rw [stackIq_eq c rec _ p1, List.length_map]
    omega
  obtain ⟨h1, h2, _⟩ := l1bsFile_cells c t _ hw hst ht
  refine ⟨h1, h2, fun k rec hk hbig hne => ?_⟩
  obtain ⟨_, bursts, s, p1, p2, p3, p4, _⟩ := hparts rec (List.mem_of_getElem? hk)
  exact shows_stack rnd c t _ hP hlooks hw hst ht k rec hk o.round bursts s p1 p2 p3 p4 hbig hne

/-- The stack was gathered from the entries of the looks. -/
theorem surface_gather {argsort : List ℝ → List ℕ} {round : ℝ → ℤ} {junk : ℕ → ℂ} {c : Chain.Conf} {bursts : ℕ → Chain.L1A} {s : Chain.Surf}
    {prev : ℕ} {looks : Chain.Looks} {r : Chain.Result} (h : Chain.surface argsort round junk c bursts s prev looks = .ok (some r)) :
    ∃ es, Chain.entries junk c bursts looks = .ok es ∧ Stack.gather argsort c.looks (π / 2) prev es = .ok r.gathered := by
  unfold Chain.surface at h
  cases h1 : Chain.entries junk c bursts looks with
  | error => rw [h1] at h; cases h
  | ok es =>
    rw [h1] at h
    dsimp only at h
    refine ⟨es, rfl, ?_⟩
    cases h2 : Stack.gather argsort c.looks (π / 2) prev es with
    | error => rw [h2] at h; cases h
    | ok g =>
      rw [h2] at h
      dsimp only at h
      split at h
      · cases h
      · cases h3 : Stack.masking round (Chain.maskConf c) (Chain.maskInput c bursts s g.rows) with
        | error => rw [h3] at h; cases h
        | ok m =>
          rw [h3] at h
          dsimp only at h
          split at h
          · cases h
          · split at h
            · cases h
            · cases h
              rfl

/-- The rows of a stack have at most the energy of the bursts. -/
theorem row_energy {argsort : List ℝ → List ℕ} {round : ℝ → ℤ} {junk : ℕ → ℂ} {c : Chain.Conf} {bursts : ℕ → Chain.L1A} {s : Chain.Surf}
    {prev : ℕ} {looks : Chain.Looks} (hw : Chain.WellMade c bursts looks) {r : Chain.Result}
    (h : Chain.surface argsort round junk c bursts s prev looks = .ok (some r)) (E : ℝ)
    (hE : ∀ l ∈ looks, Chain.energy c (bursts l.2.2) ≤ E) :
    ∀ row ∈ r.gathered.rows, ∑ i ∈ Finset.range c.samples, ‖row.beam i‖ ^ 2 ≤ E := by
  obtain ⟨es, h1, h2⟩ := surface_gather h
  refine Chain.gather_rows (fun row => ∑ i ∈ Finset.range c.samples, ‖row.beam i‖ ^ 2 ≤ E) argsort c.looks _ prev es ?_ _ h2
  intro e he row hrow
  obtain ⟨l, hl, beams, hb, rfl⟩ := Chain.entries_mem junk c bursts looks es h1 e he
  obtain ⟨w1, w2⟩ := hw.2 l hl
  obtain ⟨br, hbr⟩ := Chain.written c (bursts l.2.2) l.1 hw.1 w1 w2 beams hb
  have hrb : row.beam = br := by
    unfold Stack.gatherRow at hrow
    simp only [Chain.stackBurst, List.getElem?_map] at hrow
    by_cases hi : l.1 < c.pulses
    · rw [List.getElem?_range hi] at hrow
      simp only [Option.map_some, hbr, Option.getD_some] at hrow
      split at hrow
      · rename_i e1 e2
        cases hrow
        simp only [Option.some.injEq] at e1
        exact e1.symm
      · cases hrow
    · rw [List.getElem?_eq_none (show (List.range c.pulses).length ≤ l.1 by simpa using hi)] at hrow
      simp at hrow
  show ∑ i ∈ Finset.range c.samples, ‖row.beam i‖ ^ 2 ≤ E
  rw [hrb]
  exact (Chain.azimuth_le c _ beams hb l.1 br hbr).trans (hE l hl)

/-- **C169, in terms of the input.**  With antenna weighting off, and unless the bursts of the file are of an energy beyond 10^36, the stack of every
record of the L1B-S product whose waveform has a positive sample is read from the file. -/
theorem stacks_of_run (c : Conf) (o : World) (alg : Surface.Alg) (file : ℕ → Raw) (n : ℕ) (hn : 0 < c.pulses) (hP : 2 ≤ c.samples * c.zp)
    (hlooks : c.looks < 65535) (t : Telemetry) (ht : ∀ rec name, (t.tables rec name).length ≤ c.looks) (rnd : ℝ → ℤ)
    (hoff : c.weighting = false) (E : ℝ) (hE : EnergyBound c file n E) (hEz : E / c.zp < 10 ^ 36)
    (k : ℕ) (rec : Record) (hk : (process c o alg file n).state.l1bs[k]? = some rec) (hy : ∃ y, some y ∈ rec.result.out.waveform ∧ 0 < y) :
    ShowsStack rnd c (l1bsFile c t (process c o alg file n).state.l1bs).1 k rec := by
  have hrec := List.mem_of_getElem? hk
  obtain ⟨its, h1, h2, h3, hp, _, _⟩ := process_products c o alg file n
  obtain ⟨s2, ho⟩ := hp.origin rec (Or.inr hrec)
  obtain ⟨looks, f, e1, e2, hE'⟩ := ho.bounded hn (fun i hi => (h3 i hi).1) E hE
  rw [hoff, Chain.weighting_off] at e1
  have hrows := row_energy e2 e1 E hE'
  obtain ⟨p1, p2, p3, p4, p5⟩ := stack_parts e1
  have hiq := stackIq_eq c rec _ p1
  refine (stack_shown c o alg file n hn hP hlooks t ht rnd).2.2 k rec hk ?_ ?_
  · intro l hl z hz
    rw [hiq] at hl
    obtain ⟨row, hrow, rfl⟩ := List.mem_map.1 hl
    obtain ⟨j, _, rfl⟩ := List.mem_map.1 hz
    have hc : Signal.compress c.zp c.samples (Signal.applyShift c.samples (Chain.shiftOf c.chain s2.mem (place f) row) row.beam) j ≤ E / c.zp := by
      refine (Chain.compress_le _ _ _ _ _).trans ?_
      gcongr
      exact hrows row hrow
    unfold Signal.compress at hc
    have : ‖Signal.compressIq c.zp c.samples (Signal.applyShift c.samples (Chain.shiftOf c.chain s2.mem (place f) row) row.beam) j‖ ^ 2 <
        ((10 : ℝ) ^ 18) ^ 2 := lt_of_le_of_lt hc (by rw [← pow_mul]; exact hEz)
    exact lt_of_pow_lt_pow_left₀ 2 (by positivity) this
  · by_contra hno
    push Not at hno
    obtain ⟨y, hy1, hy2⟩ := hy
    obtain ⟨i, hi⟩ := List.getElem?_of_mem hy1
    have hz : ∀ b ∈ rec.result.masked.beams, ∀ v ∈ b, 0 ≤ v ∧ v ≤ (0 : ℝ) := by
      refine Chain.masking_mem (fun v => 0 ≤ v ∧ v ≤ 0) ⟨le_refl _, le_refl _⟩ _ _ _ _ ?_ p2
      intro b hb v hv
      simp only [Chain.maskInput, List.mem_map] at hb
      obtain ⟨row, hr, rfl⟩ := hb
      simp only [Chain.compressed, List.mem_map] at hv
      obtain ⟨j, hj, rfl⟩ := hv
      have : Signal.compressIq c.zp c.samples (Signal.applyShift c.samples (Chain.shiftOf c.chain s2.mem (place f) row) row.beam) j = 0 :=
        hno _ (by rw [hiq]; exact List.mem_map_of_mem hr) _ (List.mem_map_of_mem hj)
      have h0 : Signal.compress c.zp c.samples (Signal.applyShift c.samples (Chain.shiftOf c.chain s2.mem (place f) row) row.beam) j = 0 := by
        unfold Signal.compress
        rw [this]; simp
      exact ⟨h0.ge, h0.le⟩
    have hout : rec.result.out = Multilook.compute c.avoidZeros (c.samples * c.zp) c.looks (Chain.lookBeams rec.result.gathered.rows rec.result.masked) :=
      surface_out e1
    rw [hout] at hi
    have := Chain.compute_between _ _ _ 0 _ (by
      intro B hB v hv
      simp only [Chain.lookBeams, List.mem_map] at hB
      obtain ⟨q, _, rfl⟩ := hB
      dsimp only at hv
      rw [List.getD_eq_getElem?_getD] at hv
      cases hg : rec.result.masked.beams[q.2]? with
      | none => simp [hg] at hv
      | some b =>
        rw [hg] at hv
        exact hz b (List.mem_of_getElem? hg) v hv) i y hi
    linarith [this.2]

/-- The run of the example: its L1B-S record has a positive sample. -/
example (alg : Surface.Alg) (t : Telemetry) (ht : ∀ rec name, (t.tables rec name).length ≤ demoConf.looks) :
    ∃ rec, (process demoConf (demoWorld realArg) alg demoFile 2).state.l1bs = [rec] ∧
      ShowsStack (fun x => ⌊x + 1 / 2⌋) demoConf (l1bsFile demoConf t [rec]).1 0 rec := by
  obtain ⟨s, rec, h1, _, h3, _, _, _, h7⟩ := demo_run realArg realArg_isArgsort alg
  have hs : (process demoConf (demoWorld realArg) alg demoFile 2).state.l1bs = [rec] := by rw [h1]; exact h3
  refine ⟨rec, hs, ?_⟩
  have := stacks_of_run demoConf (demoWorld realArg) alg demoFile 2 (by simp [demoConf]) (by simp [demoConf]) (by simp [demoConf]) t ht
    (fun x => ⌊x + 1 / 2⌋) rfl 16 (demo_energy 2) (by norm_num [demoConf]) 0 rec (by rw [hs]; rfl)
    ⟨8, List.mem_of_getElem? h7, by norm_num⟩
  rwa [hs] at this

end Dedop.Whole
