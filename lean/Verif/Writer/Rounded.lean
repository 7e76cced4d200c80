import Verif.Basic.Rounding
import Verif.Writer.Readback

/-!
# Reading back what was written, with rounded numbers (C167)

The storing and reading of numbers of `Verif.Writer.Readback` and the scaling of `Verif.Writer.Model` with every operation rounded.
-/
namespace Dedop.Writer

/-! ## Model -/

/-- Rounding of a number of either sign: the sign does not matter.  (IEEE arithmetic of numpy in netcdf_writer.py 358-364) -/
def sfl (R : Rounding) (x : ℚ) : ℚ := if 0 ≤ x then R.fl x else -R.fl (-x)

/-- Storing a number as `VarDef.store` (netcdf_writer.py 358-364), with the declared scale and offset, the difference and the quotient rounded. -/
def VarDef.storeFl (R : Rounding) (rnd : ℚ → ℤ) (d : VarDef) (x : ℚ) : Option ℤ :=
  match d.type.range with
  | none => none
  | some (lo, hi) =>
    match d.numAttr "scale_factor", d.numAttr "add_offset" with
    | some s, some o =>
      let c := rnd (sfl R (sfl R (x - sfl R o) / sfl R s))
      if lo ≤ c ∧ c ≤ hi then some c else none
    | _, _ => castInt lo hi x

/-- Reading a stored number as `VarDef.load` (the NetCDF library, for the variables created in netcdf_writer.py 309-331), with the declared
scale and offset, the product and the sum rounded. -/
def VarDef.loadFl (R : Rounding) (d : VarDef) (c : ℤ) : Option ℚ :=
  if declaredFill d = some (c : ℚ) then none
  else match d.numAttr "scale_factor", d.numAttr "add_offset" with
    | some s, some o => some (sfl R (sfl R (c * sfl R s) + sfl R o))
    | _, _ => some (c : ℚ)

/-- The waveform and scale factor stored by the extended L1B writer (l1b_writer.py 857, 926-927), the quotients rounded; for a waveform with a
largest sample that is not 0. -/
def scaleWaveformFl (R : Rounding) (w : List ℚ) : Option (List ℚ × ℚ) :=
  match npMax w with
  | none => none
  | some m => some (w.map fun x => sfl R (x / m), m)

/-- The I/Q samples and scale factor stored by the L1B-S writer (l1bs_writer.py 645-649, 696-698), the quotients rounded; for a stack with a
sample that is not 0. -/
def scaleIQFl (R : Rounding) (iq : List (ℚ × ℚ)) : Option (List (ℚ × ℚ) × ℚ) :=
  match npMax (iq.map fun z => |z.1|), npMax (iq.map fun z => |z.2|) with
  | some a, some b =>
    let d := sfl R (max a b / 127)
    some (iq.map fun z => (sfl R (z.1 / d), sfl R (z.2 / d)), d)
  | _, _ => none

/-! ## Specification -/

/-- A number written to the variable is read as a number at most `tol` away, and if that number is written again the file does not change. -/
def ReadsBackFl (R : Rounding) (rnd : ℚ → ℤ) (d : VarDef) (x tol : ℚ) : Prop :=
  ∃ c y, d.storeFl R rnd x = some c ∧ d.loadFl R c = some y ∧ |y - x| ≤ tol ∧ d.storeFl R rnd y = some c

/-- The relative error of each operation is at most that of `float`. -/
def Double (R : Rounding) : Prop := R.u ≤ 1 / 2 ^ 53

/-! ## Errors -/

theorem sfl_err (R : Rounding) (x : ℚ) : |sfl R x - x| ≤ R.u * |x| := by
  unfold sfl
  split
  · rename_i h
    rw [abs_of_nonneg h]
    exact R.err x h
  · rename_i h
    push Not at h
    rw [abs_of_neg h, ← abs_neg]
    have := R.err (-x) (by linarith)
    rw [show -(-R.fl (-x) - x) = R.fl (-x) - -x by ring]
    exact this

theorem sfl_pos (R : Rounding) (hR : Double R) (s : ℚ) (hs : 0 < s) : 0 < sfl R s := by
  have := sfl_err R s
  rw [abs_of_pos hs] at this
  have h1 := (abs_le.mp this).1
  have h2 : R.u ≤ 1 / 2 := hR.trans (by norm_num)
  have : R.u * s ≤ 1 / 2 * s := by gcongr
  linarith

/-- Proof helper: division by a rounded number. -/
theorem div_close (R : Rounding) (hR : Double R) (s y : ℚ) (hs : 0 < s) : |y / sfl R s - y / s| ≤ 2 * R.u * |y / s| := by
  have hpos := sfl_pos R hR s hs
  have herr := sfl_err R s
  rw [abs_of_pos hs] at herr
  have hu0 := R.u_nonneg
  have hu : R.u ≤ 1 / 2 := hR.trans (by norm_num)
  have hge : s / 2 ≤ sfl R s := by
    have h1 := (abs_le.mp herr).1
    have : R.u * s ≤ 1 / 2 * s := by gcongr
    linarith
  have e : y / sfl R s - y / s = (y / s) * ((s - sfl R s) / sfl R s) := by field_simp
  rw [e, abs_mul, mul_comm (2 * R.u)]
  gcongr
  rw [abs_div, abs_of_pos hpos, div_le_iff₀ hpos, abs_sub_comm]
  calc |sfl R s - s| ≤ R.u * s := herr
    _ ≤ 2 * R.u * sfl R s := by nlinarith

/-- Proof helper: rounding a number which is nearly `q`. -/
theorem sfl_near (R : Rounding) (hR : Double R) (y q e M : ℚ) (h : |y - q| ≤ e) (hq : |q| ≤ M) (hM : 1 ≤ M) (hMb : M ≤ 2 ^ 35) (he : e ≤ 1) :
    |sfl R y - q| ≤ e + 2 * (R.u * M) := by
  have h1 := sfl_err R y
  have hy : |y| ≤ 2 * M := by
    have : |y| ≤ |y - q| + |q| := by
      calc |y| = |(y - q) + q| := by congr 1; ring
        _ ≤ _ := abs_add_le _ _
    linarith
  calc |sfl R y - q| = |(sfl R y - y) + (y - q)| := by congr 1; ring
    _ ≤ |sfl R y - y| + |y - q| := abs_add_le _ _
    _ ≤ R.u * (2 * M) + e := by
        have : R.u * |y| ≤ R.u * (2 * M) := mul_le_mul_of_nonneg_left hy R.u_nonneg
        linarith
    _ = _ := by ring

/-- Proof helper: the scale carries over. -/
theorem sfl_scaled (R : Rounding) (hR : Double R) (y q e M s : ℚ) (hs : 0 < s) (h : |y / s - q| ≤ e) (hq : |q| ≤ M) (hM : 1 ≤ M) (he : e ≤ 1) :
    |sfl R y / s - q| ≤ e + 2 * (R.u * M) := by
  have h1 := sfl_err R y
  have hy : |y / s| ≤ 2 * M := by
    have : |y / s| ≤ |y / s - q| + |q| := by
      calc |y / s| = |(y / s - q) + q| := by congr 1; ring
        _ ≤ _ := abs_add_le _ _
    linarith
  have h2 : |sfl R y / s - y / s| ≤ R.u * |y / s| := by
    rw [← sub_div, abs_div, abs_div, abs_of_pos hs, div_le_iff₀ hs]
    calc |sfl R y - y| ≤ R.u * |y| := h1
      _ = _ := by field_simp
  calc |sfl R y / s - q| = |(sfl R y / s - y / s) + (y / s - q)| := by congr 1; ring
    _ ≤ |sfl R y / s - y / s| + |y / s - q| := abs_add_le _ _
    _ ≤ R.u * (2 * M) + e := by
        have : R.u * |y / s| ≤ R.u * (2 * M) := mul_le_mul_of_nonneg_left hy R.u_nonneg
        linarith
    _ = _ := by ring

/-- Proof helper: the bound for codes and offsets in units of the scale. -/
theorem unit_bound (R : Rounding) (hR : Double R) : R.u * 2 ^ 34 ≤ 1 / 2 ^ 19 := by
  have : R.u * 2 ^ 34 ≤ 1 / 2 ^ 53 * 2 ^ 34 := by gcongr; exact hR
  refine this.trans (by norm_num)

theorem offset_close (R : Rounding) (s o : ℚ) (hs : 0 < s) (ho : |o / s| ≤ 2 ^ 33) : |sfl R o / s - o / s| ≤ R.u * 2 ^ 34 := by
  have h := sfl_err R o
  rw [← sub_div, abs_div, abs_of_pos hs, div_le_iff₀ hs]
  refine h.trans ?_
  rw [abs_div, abs_of_pos hs, div_le_iff₀ hs] at ho
  have h0 : |o| ≤ 2 ^ 34 * s := by nlinarith
  calc R.u * |o| ≤ R.u * (2 ^ 34 * s) := mul_le_mul_of_nonneg_left h0 R.u_nonneg
    _ = _ := by ring

/-- Proof helper: the quotient that is rounded to the code. -/
theorem quotient_close (R : Rounding) (hR : Double R) (s o x : ℚ) (hs : 0 < s) (ho : |o / s| ≤ 2 ^ 33) (hx : |(x - o) / s| ≤ 2 ^ 33) :
    |sfl R (sfl R (x - sfl R o) / sfl R s) - (x - o) / s| ≤ 1 / 1000 := by
  have hub := unit_bound R hR
  have hu0 := R.u_nonneg
  set ε := R.u * 2 ^ 34 with hε
  have hε0 : 0 ≤ ε := by positivity
  have h1 : |(x - sfl R o) / s - (x - o) / s| ≤ ε := by
    have := offset_close R s o hs ho
    rw [show (x - sfl R o) / s - (x - o) / s = -(sfl R o / s - o / s) by ring, abs_neg]
    exact this
  have h2 := sfl_scaled R hR (x - sfl R o) ((x - o) / s) ε (2 ^ 34) s hs h1 (hx.trans (by norm_num)) (by norm_num) (by linarith)
  rw [← hε] at h2
  set y := sfl R (x - sfl R o)
  have hy : |y / s| ≤ 2 ^ 34 := by
    have : |y / s| ≤ |y / s - (x - o) / s| + |(x - o) / s| := by
      calc |y / s| = |(y / s - (x - o) / s) + (x - o) / s| := by congr 1; ring
        _ ≤ _ := abs_add_le _ _
    have e : (2 : ℚ) ^ 34 = 2 ^ 33 + 2 ^ 33 := by norm_num
    have : (1 : ℚ) ≤ 2 ^ 33 := by norm_num
    linarith
  have h3 : |y / sfl R s - (x - o) / s| ≤ 5 * ε := by
    have h4 := div_close R hR s y hs
    have h5 : 2 * R.u * |y / s| ≤ 2 * ε := by
      rw [hε]
      have := mul_le_mul_of_nonneg_left hy hu0
      linarith
    calc |y / sfl R s - (x - o) / s| = |(y / sfl R s - y / s) + (y / s - (x - o) / s)| := by congr 1; ring
      _ ≤ |y / sfl R s - y / s| + |y / s - (x - o) / s| := abs_add_le _ _
      _ ≤ _ := by linarith
  have h6 := sfl_near R hR (y / sfl R s) ((x - o) / s) (5 * ε) (2 ^ 34) h3 (hx.trans (by norm_num)) (by norm_num) (by norm_num) (by linarith)
  rw [← hε] at h6
  refine h6.trans ?_
  have : (7 : ℚ) * (1 / 2 ^ 19) ≤ 1 / 1000 := by norm_num
  linarith

/-- Proof helper: the number that is read. -/
theorem unpacked_close (R : Rounding) (hR : Double R) (s o : ℚ) (hs : 0 < s) (ho : |o / s| ≤ 2 ^ 33) (c : ℤ) (hc : |(c : ℚ)| ≤ 2 ^ 33) :
    |sfl R (sfl R (c * sfl R s) + sfl R o) / s - (c + o / s)| ≤ 1 / 1000 := by
  have hub := unit_bound R hR
  have hu0 := R.u_nonneg
  set ε := R.u * 2 ^ 34 with hε
  have hε0 : 0 ≤ ε := by positivity
  have h1 : |c * sfl R s / s - c| ≤ ε := by
    have h := sfl_err R s
    rw [abs_of_pos hs] at h
    rw [show (c : ℚ) * sfl R s / s - c = c * ((sfl R s - s) / s) by field_simp, abs_mul, abs_div, abs_of_pos hs]
    have h' : |sfl R s - s| / s ≤ R.u := by rw [div_le_iff₀ hs]; exact h
    calc |(c : ℚ)| * (|sfl R s - s| / s) ≤ 2 ^ 33 * R.u := by gcongr
      _ ≤ ε := by rw [hε]; nlinarith
  have h2 := sfl_scaled R hR (c * sfl R s) c ε (2 ^ 34) s hs h1 (hc.trans (by norm_num)) (by norm_num) (by linarith)
  rw [← hε] at h2
  have h3 : |(sfl R (c * sfl R s) + sfl R o) / s - (c + o / s)| ≤ 4 * ε := by
    have h4 := offset_close R s o hs ho
    rw [← hε] at h4
    calc |(sfl R (c * sfl R s) + sfl R o) / s - (c + o / s)|
        = |(sfl R (c * sfl R s) / s - c) + (sfl R o / s - o / s)| := by congr 1; ring
      _ ≤ |sfl R (c * sfl R s) / s - c| + |sfl R o / s - o / s| := abs_add_le _ _
      _ ≤ _ := by linarith
  have hq : |(c : ℚ) + o / s| ≤ 2 ^ 34 := by
    refine (abs_add_le _ _).trans ?_
    have e : (2 : ℚ) ^ 34 = 2 ^ 33 + 2 ^ 33 := by norm_num
    linarith
  have h5 := sfl_scaled R hR _ _ (4 * ε) (2 ^ 34) s hs h3 hq (by norm_num) (by linarith)
  rw [← hε] at h5
  refine h5.trans ?_
  have : (6 : ℚ) * (1 / 2 ^ 19) ≤ 1 / 1000 := by norm_num
  linarith

/-- Proof helper: the code of a number near the codes from `a` to `b`. -/
theorem code_between (rnd : ℚ → ℤ) (hr : Rounds rnd) (y q : ℚ) (a b : ℤ) (hy : |y - q| ≤ 1 / 1000) (ha : a - 1 / 100 ≤ q) (hb : q ≤ b + 1 / 100) :
    a ≤ rnd y ∧ rnd y ≤ b ∧ |(rnd y : ℚ) - q| ≤ 1 / 2 + 1 / 1000 := by
  have h := abs_le.mp (hr y)
  have h' := abs_le.mp hy
  refine ⟨?_, ?_, ?_⟩
  · have : (a : ℚ) - 1 < rnd y := by linarith
    have : ((a - 1 : ℤ) : ℚ) < (rnd y : ℚ) := by push_cast; exact this
    have := Int.cast_lt.mp this
    omega
  · have : (rnd y : ℚ) < b + 1 := by linarith
    have : (rnd y : ℚ) < ((b + 1 : ℤ) : ℚ) := by push_cast; exact this
    have := Int.cast_lt.mp this
    omega
  · exact abs_le.mpr ⟨by linarith, by linarith⟩

theorem range_bound (t : NcType) (lo hi : ℤ) (h : t.range = some (lo, hi)) : -2 ^ 32 ≤ lo ∧ hi ≤ 2 ^ 32 ∧ lo ≤ 0 ∧ 0 ≤ hi := by
  cases t <;> simp only [NcType.range, Option.some.injEq, Prod.mk.injEq, reduceCtorEq] at h
  all_goals
    obtain ⟨rfl, rfl⟩ := h
    norm_num

/-- **C167 for one variable.**  A number whose exact code is between the codes of the type without the fill value (or beyond by a hundredth of a
code) is read as a number which differs by little more than half a code, and writing what was read does not change the file. -/
theorem packed_rounded (R : Rounding) (hR : Double R) (rnd : ℚ → ℤ) (hr : Rounds rnd) (d : VarDef) (s o : ℚ) (hs : d.numAttr "scale_factor" = some s)
    (ho : d.numAttr "add_offset" = some o) (hpos : 0 < s) (hoff : |o / s| ≤ 2 ^ 33) (hf : fillAtEnd d = true) (a b : ℤ) (hu : usable d = some (a, b)) (x : ℚ)
    (h1 : (a - 1 / 100) * s + o ≤ x) (h2 : x ≤ (b + 1 / 100) * s + o) : ReadsBackFl R rnd d x ((1 / 2 + 1 / 500) * s) := by
  obtain ⟨lo, hi, hrange, hl, hh⟩ := usable_in_type d a b hu
  obtain ⟨hlo, hhi, _, _⟩ := range_bound _ _ _ hrange
  have q1 : (a : ℚ) - 1 / 100 ≤ (x - o) / s := by rw [le_div_iff₀ hpos]; linarith
  have q2 : (x - o) / s ≤ b + 1 / 100 := by rw [div_le_iff₀ hpos]; linarith
  have hla : (-2 ^ 32 : ℚ) ≤ a := by
    have : (-2 ^ 32 : ℤ) ≤ a := by omega
    exact_mod_cast this
  have hhb : (b : ℚ) ≤ 2 ^ 32 := by
    have : b ≤ (2 ^ 32 : ℤ) := by omega
    exact_mod_cast this
  have hx : |(x - o) / s| ≤ 2 ^ 33 := by
    rw [abs_le]
    have e : (2 : ℚ) ^ 33 = 2 ^ 32 + 2 ^ 32 := by norm_num
    have : (1 : ℚ) ≤ 2 ^ 32 := by norm_num
    constructor <;> linarith
  have hq := quotient_close R hR s o x hpos hoff hx
  obtain ⟨c1, c2, c3⟩ := code_between rnd hr _ _ a b hq q1 q2
  generalize hc : rnd (sfl R (sfl R (x - sfl R o) / sfl R s)) = c at c1 c2 c3
  have hca : (a : ℚ) ≤ c := by exact_mod_cast c1
  have hcb : (c : ℚ) ≤ b := by exact_mod_cast c2
  have hcM : |(c : ℚ)| ≤ 2 ^ 33 := by
    rw [abs_le]
    have e : (2 : ℚ) ^ 33 = 2 ^ 32 + 2 ^ 32 := by norm_num
    have : (1 : ℚ) ≤ 2 ^ 32 := by norm_num
    constructor <;> linarith
  have hy := unpacked_close R hR s o hpos hoff c hcM
  generalize hyd : sfl R (sfl R (c * sfl R s) + sfl R o) = y at hy
  have hyq : |(y - o) / s - c| ≤ 1 / 1000 := by
    rw [show (y - o) / s - c = y / s - (c + o / s) by ring]
    exact hy
  refine ⟨c, y, ?_, ?_, ?_, ?_⟩
  · simp only [VarDef.storeFl, hrange, hs, ho, hc]
    rw [if_pos ⟨by omega, by omega⟩]
  · simp only [VarDef.loadFl, hs, ho, if_neg (usable_not_fill d a b hu hf c c1 c2), hyd]
  · have : |(y - x) / s| ≤ 1 / 2 + 1 / 500 := by
      calc |(y - x) / s| = |((y - o) / s - c) + (c - (x - o) / s)| := by congr 1; ring
        _ ≤ |(y - o) / s - c| + |c - (x - o) / s| := abs_add_le _ _
        _ ≤ _ := by linarith
    rwa [abs_div, abs_of_pos hpos, div_le_iff₀ hpos] at this
  · have hy' := abs_le.mp hyq
    have hyM : |(y - o) / s| ≤ 2 ^ 33 := by
      rw [abs_le]
      have e : (2 : ℚ) ^ 33 = 2 ^ 32 + 2 ^ 32 := by norm_num
      have : (1 : ℚ) ≤ 2 ^ 32 := by norm_num
      constructor <;> linarith
    have hq' := quotient_close R hR s o y hpos hoff hyM
    obtain ⟨k1, k2, k3⟩ := code_between rnd hr _ _ c c hq' (by linarith) (by linarith)
    have hc' : rnd (sfl R (sfl R (y - sfl R o) / sfl R s)) = c := le_antisymm k2 k1
    simp only [VarDef.storeFl, hrange, hs, ho, hc']
    rw [if_pos ⟨by omega, by omega⟩]

/-- The offsets are at most `2 ^ 33` units of the scale. -/
theorem offsets_small : ∀ d ∈ allDefs, ∀ s o, d.numAttr "scale_factor" = some s → d.numAttr "add_offset" = some o → |o / s| ≤ 2 ^ 33 := by
  have h : ∀ d ∈ allDefs, (match d.numAttr "scale_factor", d.numAttr "add_offset" with
      | some s, some o => decide (-(2 ^ 33) ≤ o / s ∧ o / s ≤ 2 ^ 33)
      | _, _ => true) = true := by decide +kernel
  intro d hd s o hs ho
  have := h d hd
  rw [hs, ho] at this
  simp only [decide_eq_true_eq] at this
  exact abs_le.mpr this

/-- **C167.**  Every packed variable of the three products (but two whose fill value is not an end of their type): a number in the range of the variable
is read with an error of little more than half a unit of the last stored digit, and writing what was read does not change the file. -/
theorem values_rounded (R : Rounding) (hR : Double R) (rnd : ℚ → ℤ) (hr : Rounds rnd) (d : VarDef) (hd : d ∈ allDefs)
    (hn : d.name ∉ ["agccode_ku_l1b_echo_sar_ku", "beam_form_l1bs_echo_sar_ku"]) (a b : ℤ) (hu : usable d = some (a, b)) (s o : ℚ)
    (hs : d.numAttr "scale_factor" = some s) (ho : d.numAttr "add_offset" = some o) (x : ℚ) (h1 : a * s + o ≤ x) (h2 : x ≤ b * s + o) :
    ReadsBackFl R rnd d x ((1 / 2 + 1 / 500) * s) := by
  obtain ⟨_, h4, h3⟩ := declarations d hd
  have hpos := (h4 s hs).1
  exact packed_rounded R hR rnd hr d s o hs ho hpos (offsets_small d hd s o hs ho) (h3.resolve_right hn) a b hu x (by nlinarith) (by nlinarith)

/-! ## Waveforms -/

/-- The declaration of the waveform in the extended L1B product. -/
theorem waveform_def : ∃ d ∈ extendedDefs, d.name = "i2q2_meas_ku_l1b_echo_sar_ku" := by decide +kernel

/-- **C167 for waveforms.**  A waveform without negative samples and with a positive one: each sample is read back, times the scale factor, with an
error of a little more than half a unit of 32 binary digits of the largest sample. -/
theorem waveform_rounded (R : Rounding) (hR : Double R) (rnd : ℚ → ℤ) (hr : Rounds rnd) (d : VarDef) (hd : d ∈ extendedDefs)
    (hn : d.name = "i2q2_meas_ku_l1b_echo_sar_ku") (w : List ℚ) (h0 : ∀ x ∈ w, 0 ≤ x) (hp : ∃ x ∈ w, 0 < x) :
    ∃ (l : List ℚ) (m : ℚ), scaleWaveformFl R w = some (l, m) ∧ m ∈ w ∧ (∀ x ∈ w, x ≤ m) ∧
      List.Forall₂ (fun x s => ∃ c y, d.storeFl R rnd s = some c ∧ d.loadFl R c = some y ∧ |y * m - x| ≤ (1 / 2 + 1 / 100) * (m / 4294967294)) w l := by
  obtain ⟨x0, hx0, hpos0⟩ := hp
  obtain ⟨m, hm⟩ := npMax_some (List.ne_nil_of_mem hx0)
  obtain ⟨hle, hmem⟩ := npMax_spec hm
  have hmpos : 0 < m := lt_of_lt_of_le hpos0 (hle x0 hx0)
  have hdef : ∀ d ∈ extendedDefs, d.name = "i2q2_meas_ku_l1b_echo_sar_ku" → d.numAttr "scale_factor" = some (1 / 4294967294) ∧
      d.numAttr "add_offset" = some 0 ∧ usable d = some (0, 4294967294) ∧ fillAtEnd d = true := by decide +kernel
  obtain ⟨hs, ho, hu, hf⟩ := hdef d hd hn
  refine ⟨w.map fun x => sfl R (x / m), m, by simp only [scaleWaveformFl, hm], hmem, hle, ?_⟩
  rw [List.forall₂_map_right_iff, List.forall₂_same]
  intro x hx
  have hq0 : 0 ≤ x / m := div_nonneg (h0 x hx) hmpos.le
  have hq1 : x / m ≤ 1 := by rw [div_le_one hmpos]; exact hle x hx
  have herr := sfl_err R (x / m)
  rw [abs_of_nonneg hq0] at herr
  have hu0 := R.u_nonneg
  have hsmall : |sfl R (x / m) - x / m| ≤ 1 / 2 ^ 53 := by
    refine herr.trans ?_
    calc R.u * (x / m) ≤ R.u * 1 := mul_le_mul_of_nonneg_left hq1 hu0
      _ ≤ _ := by rw [mul_one]; exact hR
  have hb := abs_le.mp hsmall
  obtain ⟨c, y, e1, e2, e3, _⟩ := packed_rounded R hR rnd hr d (1 / 4294967294) 0 hs ho (by norm_num) (by norm_num) hf 0 4294967294 hu (sfl R (x / m))
    (by push_cast; norm_num at hb ⊢; linarith [hb.1]) (by push_cast; norm_num at hb ⊢; linarith [hb.2])
  refine ⟨c, y, e1, e2, ?_⟩
  have h1 : |y - x / m| ≤ (1 / 2 + 1 / 500) * (1 / 4294967294) + 1 / 2 ^ 53 := by
    calc |y - x / m| = |(y - sfl R (x / m)) + (sfl R (x / m) - x / m)| := by congr 1; ring
      _ ≤ _ := abs_add_le _ _
      _ ≤ _ := by linarith
  have h2 : |y * m - x| = |y - x / m| * m := by
    rw [show y * m - x = (y - x / m) * m by field_simp, abs_mul, abs_of_pos hmpos]
  rw [h2]
  calc |y - x / m| * m ≤ ((1 / 2 + 1 / 500) * (1 / 4294967294) + 1 / 2 ^ 53) * m := by gcongr
    _ ≤ _ := by
      have : ((1 : ℚ) / 2 + 1 / 500) * (1 / 4294967294) + 1 / 2 ^ 53 ≤ (1 / 2 + 1 / 100) * (1 / 4294967294) := by norm_num
      calc _ ≤ (1 / 2 + 1 / 100) * (1 / 4294967294) * m := by gcongr
        _ = _ := by ring

/-! ## I/Q samples -/

/-- **C167 for I/Q samples.**  A stack with a sample that is not 0: every part of a sample gets a byte from -127 to 127, which times the scale factor
differs from it by a little more than the scale factor. -/
theorem iq_rounded (R : Rounding) (hR : Double R) (iq : List (ℚ × ℚ)) (h : ∃ z ∈ iq, z.1 ≠ 0 ∨ z.2 ≠ 0) :
    ∃ (l : List (ℚ × ℚ)) (d : ℚ), scaleIQFl R iq = some (l, d) ∧ 0 < d ∧
      List.Forall₂ (fun z s => ∀ v x, (v = z.1 ∧ x = s.1) ∨ (v = z.2 ∧ x = s.2) →
        ∃ c, castInt (-128) 127 x = some c ∧ -127 ≤ c ∧ c ≤ 127 ∧ |(c : ℚ) * d - v| ≤ (1 + 1 / 1000) * d) iq l := by
  obtain ⟨z, hz, hne⟩ := h
  have hnil : iq ≠ [] := List.ne_nil_of_mem hz
  obtain ⟨a, ha⟩ := npMax_some (l := iq.map fun z => |z.1|) (by simpa using hnil)
  obtain ⟨b, hb⟩ := npMax_some (l := iq.map fun z => |z.2|) (by simpa using hnil)
  have ha' := (npMax_spec ha).1
  have hb' := (npMax_spec hb).1
  simp only [List.mem_map, forall_exists_index, and_imp, forall_apply_eq_imp_iff₂] at ha' hb'
  have hmax : 0 < max a b := by
    rcases hne with hne | hne
    · exact lt_of_lt_of_le (abs_pos.mpr hne) (le_trans (ha' z hz) (le_max_left _ _))
    · exact lt_of_lt_of_le (abs_pos.mpr hne) (le_trans (hb' z hz) (le_max_right _ _))
  have hq : 0 < max a b / 127 := by positivity
  have hd := sfl_pos R hR _ hq
  have hderr := sfl_err R (max a b / 127)
  rw [abs_of_pos hq] at hderr
  have hu0 := R.u_nonneg
  have hu1 : R.u ≤ 1 / 1000000 := hR.trans (by norm_num)
  generalize hdd : sfl R (max a b / 127) = d at hd hderr
  refine ⟨iq.map fun z => (sfl R (z.1 / d), sfl R (z.2 / d)), d, by simp only [scaleIQFl, ha, hb, hdd], hd, ?_⟩
  have part : ∀ v : ℚ, |v| ≤ max a b → ∃ c, castInt (-128) 127 (sfl R (v / d)) = some c ∧ -127 ≤ c ∧ c ≤ 127 ∧ |(c : ℚ) * d - v| ≤ (1 + 1 / 1000) * d := by
    intro v hv
    have hlow : max a b / 127 * (1 - 1 / 1000000) ≤ d := by
      have h1 := (abs_le.mp hderr).1
      have : R.u * (max a b / 127) ≤ 1 / 1000000 * (max a b / 127) := by gcongr
      linarith
    have hvd : |v / d| ≤ 127 + 1 / 1000 := by
      rw [abs_div, abs_of_pos hd, div_le_iff₀ hd]
      have : max a b ≤ (127 + 1 / 1000) * (max a b / 127 * (1 - 1 / 1000000)) := by
        have : (127 + 1 / 1000 : ℚ) * (1 / 127 * (1 - 1 / 1000000)) ≥ 1 := by norm_num
        nlinarith
      calc |v| ≤ max a b := hv
        _ ≤ _ := this
        _ ≤ _ := by gcongr
    have herr := sfl_err R (v / d)
    have herr' : |sfl R (v / d) - v / d| ≤ 1 / 1000 := by
      refine herr.trans ?_
      calc R.u * |v / d| ≤ 1 / 1000000 * (127 + 1 / 1000) := by gcongr
        _ ≤ _ := by norm_num
    generalize sfl R (v / d) = x at herr'
    have hx := abs_le.mp herr'
    have hvd' := abs_le.mp hvd
    have hlt : x < 128 := by linarith [hx.2, hvd'.2]
    have hgt : -128 < x := by linarith [hx.1, hvd'.1]
    have hc : ∃ c : ℤ, (if 0 ≤ x then ⌊x⌋ else ⌈x⌉) = c ∧ -127 ≤ c ∧ c ≤ 127 ∧ |(c : ℚ) - x| ≤ 1 := by
      split
      · rename_i h
        refine ⟨_, rfl, ?_, ?_, ?_⟩
        · have := Int.floor_nonneg.mpr h; omega
        · have : ⌊x⌋ < 128 := Int.floor_lt.mpr (by exact_mod_cast hlt)
          omega
        · have h1 := Int.floor_le x
          have h2 := Int.lt_floor_add_one x
          exact abs_le.mpr ⟨by linarith, by linarith⟩
      · rename_i h
        push Not at h
        refine ⟨_, rfl, ?_, ?_, ?_⟩
        · have : -128 < ⌈x⌉ := Int.lt_ceil.mpr (by push_cast; exact hgt)
          omega
        · have : ⌈x⌉ ≤ 0 := Int.ceil_le.mpr (by push_cast; exact h.le)
          omega
        · have h1 := Int.le_ceil x
          have h2 := Int.ceil_lt_add_one x
          exact abs_le.mpr ⟨by linarith, by linarith⟩
    obtain ⟨c, hc, c1, c2, c3⟩ := hc
    refine ⟨c, ?_, c1, c2, ?_⟩
    · simp only [castInt, hc]
      rw [if_pos ⟨by omega, c2⟩]
    · have e : (c : ℚ) * d - v = ((c - x) + (x - v / d)) * d := by field_simp; ring
      rw [e, abs_mul, abs_of_pos hd]
      have : |(c - x) + (x - v / d)| ≤ 1 + 1 / 1000 := (abs_add_le _ _).trans (by linarith)
      gcongr
  rw [List.forall₂_map_right_iff, List.forall₂_same]
  rintro z hz v x (⟨rfl, rfl⟩ | ⟨rfl, rfl⟩)
  · exact part _ ((ha' z hz).trans (le_max_left _ _))
  · exact part _ ((hb' z hz).trans (le_max_right _ _))

/-! ## Examples -/

/-- `float` meets the hypothesis. -/
theorem double_binary : Double (binaryRounding 52) := by
  unfold Double binaryRounding
  norm_num

-- a latitude in the L1BS product and a waveform
example (rnd : ℚ → ℤ) (hr : Rounds rnd) : ∃ d ∈ l1bsDefs, d.name = "lat_l1bs_echo_sar_ku" ∧
    ReadsBackFl (binaryRounding 52) rnd d (45 + 1 / 3) ((1 / 2 + 1 / 500) * (1 / 1000000)) := by
  have hdef : ∃ d ∈ l1bsDefs, d.name = "lat_l1bs_echo_sar_ku" ∧ d.numAttr "scale_factor" = some (1 / 1000000) ∧
      d.numAttr "add_offset" = some 0 ∧ usable d = some (-2147483648, 2147483646) := by decide +kernel
  obtain ⟨d, hd, hn, hs, ho, hu⟩ := hdef
  refine ⟨d, hd, hn, values_rounded _ double_binary rnd hr d (by simp [allDefs, hd]) (by rw [hn]; decide) _ _ hu _ _ hs ho _ (by norm_num) (by norm_num)⟩

example (rnd : ℚ → ℤ) (hr : Rounds rnd) : ∃ d ∈ extendedDefs, ∃ l m, scaleWaveformFl (binaryRounding 52) [1, 3, 2] = some (l, m) ∧ m = 3 ∧
    List.Forall₂ (fun x s => ∃ c y, d.storeFl (binaryRounding 52) rnd s = some c ∧ d.loadFl (binaryRounding 52) c = some y ∧
      |y * m - x| ≤ (1 / 2 + 1 / 100) * (m / 4294967294)) [1, 3, 2] l := by
  obtain ⟨d, hd, hn⟩ := waveform_def
  obtain ⟨l, m, h1, h2, h3, h4⟩ := waveform_rounded _ double_binary rnd hr d hd hn [1, 3, 2] (by norm_num) ⟨1, by norm_num, by norm_num⟩
  refine ⟨d, hd, l, m, h1, ?_, h4⟩
  have := h3 3 (by norm_num)
  simp only [List.mem_cons, List.not_mem_nil, or_false] at h2
  rcases h2 with rfl | rfl | rfl
  · norm_num at this
  · rfl
  · norm_num at this

example : ∃ l d, scaleIQFl (binaryRounding 52) [(1, -3), (0, 2)] = some (l, d) ∧ 0 < d := by
  obtain ⟨l, d, h1, h2, _⟩ := iq_rounded _ double_binary [(1, -3), (0, 2)] ⟨(1, -3), by simp, Or.inl (by norm_num)⟩
  exact ⟨l, d, h1, h2⟩

end Dedop.Writer
