import Verif.Writer.Products
import Verif.Writer.ValueProps
/-!
# Reading back what was written (C114), and the same quantity in two products (C115)
-/
namespace Dedop.Writer

/-! ## Storing and reading a number -/

/-- A numeric attribute of a declaration (`scale_factor`, `add_offset` in l1b_writer.py 116-838, 961-1560, l1bs_writer.py 98-625). -/
def VarDef.numAttr (d : VarDef) (k : String) : Option ℚ :=
  match d.attrs.lookup k with
  | some (.num x) => some x
  | _ => none

/-- Storing a number in a variable of an integer type: `var[index] = value` (netcdf_writer.py 358-364).  netCDF4 packs when the variable
has `scale_factor` and `add_offset` and otherwise casts; `none` is an arbitrary stored value for a number that does not fit. -/
def VarDef.store (rnd : ℚ → ℤ) (d : VarDef) (x : ℚ) : Option ℤ :=
  match d.type.range with
  | none => none
  | some (lo, hi) =>
    match d.numAttr "scale_factor", d.numAttr "add_offset" with
    | some s, some o => pack rnd s o lo hi x
    | _, _ => castInt lo hi x

/-- What a reader of the file gets for a stored number: nothing for the fill value, otherwise the unpacked number (the NetCDF library, for
the variables created in netcdf_writer.py 309-331).  For variables without a declared fill value netCDF4 masks a default value of types
with more than 8 bits; the only such variables have 8 bits or are floating-point numbers. -/
def VarDef.load (d : VarDef) (c : ℤ) : Option ℚ :=
  if declaredFill d = some (c : ℚ) then none
  else match d.numAttr "scale_factor", d.numAttr "add_offset" with
    | some s, some o => some (unpack s o c)
    | _, _ => some (c : ℚ)

/-! ## Specification -/

/-- A number written to the variable is read as a number at most `tol` away. -/
def ReadsBack (rnd : ℚ → ℤ) (d : VarDef) (x tol : ℚ) : Prop :=
  ∃ c y, d.store rnd x = some c ∧ d.load c = some y ∧ |y - x| ≤ tol

/-- The codes of a type without its end when that is the fill value. -/
def usable (d : VarDef) : Option (ℤ × ℤ) :=
  match d.type.range with
  | none => none
  | some (lo, hi) =>
    some (if declaredFill d = some (lo : ℚ) then lo + 1 else lo, if declaredFill d = some (hi : ℚ) then hi - 1 else hi)

/-- The fill value is an end of the type, or there is none. -/
def fillAtEnd (d : VarDef) : Bool :=
  match d.type.range with
  | none => true
  | some (lo, hi) => decide (declaredFill d = none ∨ declaredFill d = some (lo : ℚ) ∨ declaredFill d = some (hi : ℚ))

/-- All variables of the three products. -/
def allDefs : List VarDef := extendedDefs ++ s3Defs ++ l1bsDefs

/-! ## Theorems -/

theorem usable_not_fill (d : VarDef) (a b : ℤ) (h : usable d = some (a, b)) (hf : fillAtEnd d = true) (c : ℤ) (h1 : a ≤ c)
    (h2 : c ≤ b) : declaredFill d ≠ some (c : ℚ) := by
  unfold usable at h
  unfold fillAtEnd at hf
  cases hr : d.type.range with
  | none => rw [hr] at h; cases h
  | some r =>
    obtain ⟨lo, hi⟩ := r
    rw [hr] at h hf
    simp only [Option.some.injEq, Prod.mk.injEq] at h
    simp only [decide_eq_true_eq] at hf
    obtain ⟨ha, hb⟩ := h
    intro hc
    rw [hc] at hf ha hb
    simp only [reduceCtorEq, Option.some.injEq, Int.cast_inj, false_or] at hf ha hb
    rcases hf with rfl | rfl
    · rw [if_pos rfl] at ha; omega
    · rw [if_pos rfl] at hb; omega

theorem usable_in_type (d : VarDef) (a b : ℤ) (h : usable d = some (a, b)) :
    ∃ lo hi, d.type.range = some (lo, hi) ∧ lo ≤ a ∧ b ≤ hi := by
  unfold usable at h
  cases hr : d.type.range with
  | none => rw [hr] at h; cases h
  | some r =>
    obtain ⟨lo, hi⟩ := r
    rw [hr] at h
    simp only [Option.some.injEq, Prod.mk.injEq] at h
    refine ⟨lo, hi, rfl, ?_, ?_⟩
    · rw [← h.1]; split <;> omega
    · rw [← h.2]; split <;> omega

/-- A packed number in the range of a variable whose fill value is an end of its type is read back to half a step. -/
theorem packed_reads_back (rnd : ℚ → ℤ) (hr : Rounds rnd) (d : VarDef) (s o : ℚ) (hs : d.numAttr "scale_factor" = some s)
    (ho : d.numAttr "add_offset" = some o) (hpos : 0 < s) (hf : fillAtEnd d = true) (a b : ℤ) (hu : usable d = some (a, b)) (x : ℚ)
    (h1 : a * s + o ≤ x) (h2 : x ≤ b * s + o) : ReadsBack rnd d x (s / 2) := by
  have hb := hr.mem (x := (x - o) / s) (a := a) (b := b) (by rw [le_div_iff₀ hpos]; linarith) (by rw [div_le_iff₀ hpos]; linarith)
  obtain ⟨lo, hi, hrange, hl, hh⟩ := usable_in_type d a b hu
  refine ⟨rnd ((x - o) / s), unpack s o (rnd ((x - o) / s)), ?_, ?_, ?_⟩
  · simp only [VarDef.store, hrange, hs, ho, pack]
    rw [if_pos ⟨by omega, by omega⟩]
  · simp only [VarDef.load, hs, ho, if_neg (usable_not_fill d a b hu hf _ hb.1 hb.2)]
  · have := hr ((x - o) / s)
    have e : unpack s o (rnd ((x - o) / s)) - x = ((rnd ((x - o) / s) : ℚ) - (x - o) / s) * s := by
      unfold unpack
      field_simp
      ring
    rw [e, abs_mul, abs_of_pos hpos]
    nlinarith [abs_nonneg ((rnd ((x - o) / s) : ℚ) - (x - o) / s)]

/-- An integer in the range of a variable without packing whose fill value is an end of its type is read back exactly. -/
theorem integer_reads_back (rnd : ℚ → ℤ) (d : VarDef) (hs : d.numAttr "scale_factor" = none) (hf : fillAtEnd d = true) (a b : ℤ)
    (hu : usable d = some (a, b)) (n : ℤ) (h1 : a ≤ n) (h2 : n ≤ b) : ReadsBack rnd d n 0 := by
  obtain ⟨lo, hi, hrange, hl, hh⟩ := usable_in_type d a b hu
  refine ⟨n, n, ?_, ?_, by simp⟩
  · simp only [VarDef.store, hrange, hs, castInt]
    have : (if (0 : ℚ) ≤ n then ⌊(n : ℚ)⌋ else ⌈(n : ℚ)⌉) = n := by split <;> simp
    rw [this, if_pos ⟨by omega, by omega⟩]
  · simp only [VarDef.load, hs, if_neg (usable_not_fill d a b hu hf n h1 h2)]

/-- The declarations: every packed variable has an integer type, scale and offset, a positive scale; every fill value is an end of its
type, except in two variables. -/
theorem declarations : ∀ d ∈ allDefs,
    ((d.numAttr "scale_factor").isSome = (d.numAttr "add_offset").isSome) ∧
    (∀ s, d.numAttr "scale_factor" = some s → 0 < s ∧ d.type ≠ .f64) ∧
    (fillAtEnd d = true ∨ d.name ∈ ["agccode_ku_l1b_echo_sar_ku", "beam_form_l1bs_echo_sar_ku"]) := by
  have h : ∀ d ∈ allDefs, ((d.numAttr "scale_factor").isSome = (d.numAttr "add_offset").isSome) ∧
      (match d.numAttr "scale_factor" with
        | none => true
        | some s => decide (0 < s ∧ d.type ≠ .f64)) = true ∧
      (fillAtEnd d = true ∨ d.name ∈ ["agccode_ku_l1b_echo_sar_ku", "beam_form_l1bs_echo_sar_ku"]) := by decide +kernel
  intro d hd
  obtain ⟨h1, h2, h3⟩ := h d hd
  refine ⟨h1, fun s hs => ?_, h3⟩
  rw [hs] at h2
  simpa using h2

/-- **C114**, the part that holds.  For every variable of the three products with an integer type, apart from
`agccode_ku_l1b_echo_sar_ku` and `beam_form_l1bs_echo_sar_ku` (which is never written): every number in the range of its codes is read
back within half a step of the scale, or exactly for integers without scale. -/
theorem values_read_back_partial (rnd : ℚ → ℤ) (hr : Rounds rnd) (d : VarDef) (hd : d ∈ allDefs)
    (hn : d.name ∉ ["agccode_ku_l1b_echo_sar_ku", "beam_form_l1bs_echo_sar_ku"]) (a b : ℤ) (hu : usable d = some (a, b)) :
    (∀ s o, d.numAttr "scale_factor" = some s → d.numAttr "add_offset" = some o → ∀ x, a * s + o ≤ x → x ≤ b * s + o →
      ReadsBack rnd d x (s / 2)) ∧
    (d.numAttr "scale_factor" = none → ∀ n : ℤ, a ≤ n → n ≤ b → ReadsBack rnd d n 0) := by
  obtain ⟨h1, h2, h3⟩ := declarations d hd
  have hf : fillAtEnd d = true := h3.resolve_right hn
  exact ⟨fun s o hs ho x => packed_reads_back rnd hr d s o hs ho (h2 s hs).1 hf a b hu x,
    fun hs n => integer_reads_back rnd d hs hf a b hu n⟩

/-- **C114 is violated**: in both L1B products an AGC code of 127 is stored in 16 bits as it is and read as missing, between 126 and 128
which are read back. -/
theorem agccode_violated : ∀ defs ∈ [extendedDefs, s3Defs], ∃ d ∈ defs, d.name = "agccode_ku_l1b_echo_sar_ku" ∧
    (∀ rnd, ¬ ∃ tol, ReadsBack rnd d 127 tol) ∧ (∀ rnd, ReadsBack rnd d 126 0 ∧ ReadsBack rnd d 128 0) := by
  have main : ∀ d : VarDef, d.type = .i16 → d.numAttr "scale_factor" = none → declaredFill d = some 127 →
      (∀ rnd, ¬ ∃ tol, ReadsBack rnd d 127 tol) ∧ (∀ rnd, ReadsBack rnd d 126 0 ∧ ReadsBack rnd d 128 0) := by
    intro d ht hs hf
    have st : ∀ rnd, ∀ n : ℤ, -32768 ≤ n → n ≤ 32767 → d.store rnd n = some n := by
      intro rnd n ha hb
      simp only [VarDef.store, ht, NcType.range, hs, castInt]
      have : (if (0 : ℚ) ≤ n then ⌊(n : ℚ)⌋ else ⌈(n : ℚ)⌉) = n := by split <;> simp
      rw [this, if_pos ⟨ha, hb⟩]
    have ld : ∀ n : ℤ, n ≠ 127 → d.load n = some (n : ℚ) := by
      intro n hn
      simp only [VarDef.load, hs, hf]
      rw [if_neg]
      intro e
      exact hn (by exact_mod_cast (Option.some.inj e).symm)
    refine ⟨?_, fun rnd => ⟨⟨126, 126, by exact_mod_cast st rnd 126 (by norm_num) (by norm_num), by exact_mod_cast ld 126 (by norm_num),
      by norm_num⟩, ⟨128, 128, by exact_mod_cast st rnd 128 (by norm_num) (by norm_num), by exact_mod_cast ld 128 (by norm_num),
      by norm_num⟩⟩⟩
    rintro rnd ⟨tol, c, y, h1, h2, _⟩
    have := st rnd 127 (by norm_num) (by norm_num)
    rw [show ((127 : ℤ) : ℚ) = 127 from rfl] at this
    rw [this] at h1
    cases h1
    simp only [VarDef.load, hf] at h2
    rw [if_pos (by norm_num)] at h2
    cases h2
  have ex : ∀ defs ∈ [extendedDefs, s3Defs], ∃ d ∈ defs, d.name = "agccode_ku_l1b_echo_sar_ku" ∧ d.type = .i16 ∧
      d.numAttr "scale_factor" = none ∧ declaredFill d = some 127 := by decide +kernel
  intro defs hdefs
  obtain ⟨d, hd, hn, ht, hs, hf⟩ := ex defs hdefs
  exact ⟨d, hd, hn, main d ht hs hf⟩

/-- **C114 is violated** for the standard deviation of a stack, which can come out negative (`standard_deviation_violated` of C112): no
negative number below half a step can be stored in any of the three products. -/
theorem negative_deviation_violated (rnd : ℚ → ℤ) (hr : Rounds rnd) (x : ℚ) (hx : x < -1 / 2000000) : ∀ d ∈ allDefs,
    d.name ∈ ["stdev_stack_l1b_echo_sar_ku", "stdev_stack_l1bs_echo_sar_ku"] → d.store rnd x = none := by
  have ex : ∀ d ∈ allDefs, d.name ∈ ["stdev_stack_l1b_echo_sar_ku", "stdev_stack_l1bs_echo_sar_ku"] →
      d.type = .u32 ∧ d.numAttr "scale_factor" = some (1 / 1000000) ∧ d.numAttr "add_offset" = some 0 := by decide +kernel
  intro d hd hn
  obtain ⟨ht, hs, ho⟩ := ex d hd hn
  simp only [VarDef.store, ht, NcType.range, hs, ho, pack]
  rw [if_neg]
  rintro ⟨h, _⟩
  have h' : (0 : ℚ) ≤ rnd ((x - 0) / (1 / 1000000)) := by exact_mod_cast h
  have := (abs_le.mp (hr ((x - 0) / (1 / 1000000)))).2
  have e : (x - 0) / (1 / 1000000) = x * 1000000 := by ring
  rw [e] at this h'
  linarith

/-! ## Physical ranges -/

/-- Ranges of the quantities in the products, with the accuracy of their variables: degrees, metres, metres per second, decibels,
counts.  The name is that of the variable without the name of the product. -/
def physical : List (String × ℚ × ℚ × ℚ) :=
  [("lat", -90, 90, 1 / 2000000), ("lon", -360, 360, 1 / 2000000),
   ("alt", 500000, 900000, 1 / 20000), ("range_ku", 500000, 900000, 1 / 20000),
   ("orb_alt_rate", -300, 300, 1 / 200),
   ("uso_cor", -100000, 100000, 1 / 20000), ("int_path_cor_ku", -100000, 100000, 1 / 20000), ("cog_cor", -3, 3, 1 / 20000),
   ("roll_sat_pointing", -3, 3, 1 / 20000), ("pitch_sat_pointing", -3, 3, 1 / 20000), ("yaw_sat_pointing", -3, 3, 1 / 20000),
   ("agc_ku", -1000, 1000, 1 / 200), ("scale_factor_ku", -1000, 1000, 1 / 200), ("sig0_cal_ku", -1000, 1000, 1 / 200),
   ("stdev_stack", 0, 4000, 1 / 2000000), ("skew_stack", -2000, 2000, 1 / 2000000), ("kurt_stack", -2000, 2000, 1 / 2000000),
   ("max_stack", 0, 400000, 1 / 200)]

/-- The products' suffixes of a name. -/
def inProducts (base : String) : List String := [base ++ "_l1b_echo_sar_ku", base ++ "_l1bs_echo_sar_ku"]

/-- The declared packing holds the range to the accuracy. -/
def holds (d : VarDef) (p : String × ℚ × ℚ × ℚ) : Bool :=
  match usable d, d.numAttr "scale_factor", d.numAttr "add_offset" with
  | some (a, b), some s, some o => decide (a * s + o ≤ p.2.1 ∧ p.2.2.1 ≤ b * s + o ∧ s / 2 ≤ p.2.2.2)
  | _, _, _ => false

theorem physical_holds : ∀ p ∈ physical, ∀ d ∈ allDefs, d.name ∈ inProducts p.1 → holds d p = true := by decide +kernel

/-- **C114 for the physical quantities.**  Every value of a quantity in the range of the table is read back to the accuracy of the table,
from each product which has the quantity. -/
theorem physical_values_read_back (rnd : ℚ → ℤ) (hr : Rounds rnd) (name : String) (lo hi tol : ℚ) (hp : (name, lo, hi, tol) ∈ physical)
    (d : VarDef) (hd : d ∈ allDefs) (hn : d.name ∈ inProducts name) (x : ℚ) (h1 : lo ≤ x) (h2 : x ≤ hi) : ReadsBack rnd d x tol := by
  have hh := physical_holds _ hp d hd hn
  have hfree : ∀ p ∈ physical, ∀ n ∈ inProducts p.1, n ∉ ["agccode_ku_l1b_echo_sar_ku", "beam_form_l1bs_echo_sar_ku"] := by
    decide +kernel
  unfold holds at hh
  cases hu : usable d with
  | none => rw [hu] at hh; cases hh
  | some ab =>
    obtain ⟨a, b⟩ := ab
    cases hs : d.numAttr "scale_factor" with
    | none => rw [hu, hs] at hh; cases hh
    | some s =>
      cases ho : d.numAttr "add_offset" with
      | none => rw [hu, hs, ho] at hh; cases hh
      | some o =>
        rw [hu, hs, ho] at hh
        simp only [decide_eq_true_eq] at hh
        obtain ⟨c, y, e1, e2, e3⟩ := (values_read_back_partial rnd hr d hd (hfree _ hp _ hn) a b hu).1 s o hs ho x
          (le_trans hh.1 h1) (le_trans h2 hh.2.1)
        exact ⟨c, y, e1, e2, le_trans e3 hh.2.2⟩

/-- Each line of the table is about a variable of a product. -/
example : ∀ p ∈ physical, ∃ d ∈ allDefs, d.name ∈ inProducts p.1 := by decide +kernel

/-- A latitude in the L1BS product. -/
example : ∃ d ∈ l1bsDefs, d.name = "lat_l1bs_echo_sar_ku" ∧ d.store (fun x => round x) (45 + 1 / 3) = some 45333333 ∧
    d.load 45333333 = some (45333333 / 1000000) ∧ d.load 2147483647 = none := by decide +kernel

end Dedop.Writer
