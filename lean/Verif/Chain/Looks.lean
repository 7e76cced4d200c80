import Verif.Chain.Model
import Verif.Stack.MaskingProps
import Verif.Stack.GatheringProps
import Verif.Multilook.Props

/-! # Masking and multilooking put together (C107, C108, lemmas) -/
namespace Dedop.Chain

open Stack

/-- Sample `col` of look `b` is kept: the masking is off, or the geometry and the look angle accept it. -/
def Keeps (round : ℝ → ℤ) (c : MaskConf ℝ) (x : MaskInput ℝ) (b col : ℕ) : Prop :=
  c.enabled = true → GeomAccepts c (round (x.shift b)) col ∧ AngleAccepts c (x.look b)

theorem mask_rows (round : ℝ → ℤ) (c : MaskConf ℝ) (x : MaskInput ℝ) (hpos : 0 < c.nSamples * c.zp)
    (m : Masked ℝ) (h : masking round c x = .ok m) : ∀ r ∈ m.mask, r.length = c.nSamples * c.zp := by
  have lg : (geometryMask round c x).length = c.nLooks := by simp [geometryMask]
  have la : (ambiguityMask c).length = c.nLooks := by simp [ambiguityMask]
  have ln : (angleMask c x).length = c.nLooks := by
    unfold angleMask; split <;> simp
  obtain ⟨ms, vs, h1, _, _, h3, _, _⟩ := combine_ok (geometryMask round c x) (ambiguityMask c)
    (angleMask c x) (c.nSamples * c.zp) hpos (by rw [lg, la]) (by rw [la, ln])
    (by
      intro r hr
      simp only [geometryMask, List.mem_map] at hr
      obtain ⟨b, _, rfl⟩ := hr
      split_ifs
      · exact geomRow_length _ _
      · simp)
    (by
      intro r hr
      simp only [ambiguityMask, List.mem_replicate] at hr
      rw [hr.2]; simp)
    (by
      intro r hr
      unfold angleMask at hr
      split at hr
      · simp only [List.mem_map] at hr
        obtain ⟨b, _, rfl⟩ := hr
        simp
      · simp only [List.mem_replicate] at hr
        rw [hr.2]; simp)
  unfold masking at h
  rw [h1] at h
  split at h
  · cases h; exact h3
  · cases h
    intro r hr
    simp only [defaultMask, List.mem_replicate] at hr
    rw [hr.2]; simp

/-- Masking of a stack, row by row. -/
theorem masking_rows (round : ℝ → ℤ) (c : MaskConf ℝ) (x : MaskInput ℝ) (hP : 2 ≤ c.nSamples * c.zp)
    (hx : Stack.WellFormed c x) :
    ∃ m, masking round c x = .ok m ∧ ∀ b < x.stackSize, ∃ orig mrow prow v,
      x.beams[b]? = some orig ∧ m.mask[b]? = some mrow ∧ m.beams[b]? = some prow ∧ m.vector[b]? = some v ∧
      mrow.length = c.nSamples * c.zp ∧ prow.length = c.nSamples * c.zp ∧
      (∀ col < c.nSamples * c.zp, (mrow.getD col false = true ↔ Keeps round c x b col) ∧
        (Keeps round c x b col → prow.getD col 0 = orig.getD col 0) ∧
        (¬ Keeps round c x b col → prow.getD col 0 = 0)) ∧
      (v ≠ 0 ↔ ∃ col < c.nSamples * c.zp, Keeps round c x b col) := by
  obtain ⟨hsz, hbl, hrow⟩ := id hx
  cases hen : c.enabled with
  | true =>
    obtain ⟨m, h1, h2, h3, h4, h5, h6, h7⟩ := masked_iff_rejected round c x hen (by omega) hx
    refine ⟨m, h1, ?_⟩
    intro b hb
    have hmr := mask_rows round c x (by omega) m h1
    have kiff : ∀ col, Keeps round c x b col ↔
        (GeomAccepts c (round (x.shift b)) col ∧ AngleAccepts c (x.look b)) :=
      fun col => ⟨fun h => h hen, fun h _ => h⟩
    obtain ⟨orig, ho⟩ : ∃ orig, x.beams[b]? = some orig := ⟨_, List.getElem?_eq_getElem (by omega)⟩
    obtain ⟨mrow, hm⟩ : ∃ r, m.mask[b]? = some r := ⟨_, List.getElem?_eq_getElem (by omega)⟩
    obtain ⟨prow, hp⟩ : ∃ r, m.beams[b]? = some r := ⟨_, List.getElem?_eq_getElem (by omega)⟩
    obtain ⟨v, hv, hvr⟩ := h7 b mrow hm
    have lm : mrow.length = c.nSamples * c.zp := hmr _ (List.mem_of_getElem? hm)
    have lo : orig.length = c.nSamples * c.zp := hrow _ (List.mem_of_getElem? ho)
    have key : ∀ col < c.nSamples * c.zp,
        (Keeps round c x b col → prow[col]? = orig[col]? ∧ mrow[col]? = some true) ∧
        (¬ Keeps round c x b col → prow[col]? = some 0 ∧ mrow[col]? = some false) := by
      intro col hcol
      have hat : at2 x.beams b col = some (orig[col]'(by omega)) := by
        simp [at2, ho, List.getElem?_eq_getElem (show col < orig.length by omega)]
      have := h5 b col _ hb hat
      simp only [at2, hp, hm, Option.bind_some] at this
      rw [kiff, List.getElem?_eq_getElem (show col < orig.length by omega)]
      exact this
    have lp : prow.length = c.nSamples * c.zp := by
      have : m.beams = applyMask x m.mask := by
        unfold masking at h1
        rw [if_pos hen] at h1
        split at h1
        · cases h1
        · cases h1; rfl
      rw [this, applyMask, List.getElem?_zipWith, ho, List.getElem?_take, if_pos hb, hm] at hp
      simp only [Option.some.injEq] at hp
      rw [← hp, List.length_zipWith, lm, lo, Nat.min_self]
    refine ⟨orig, mrow, prow, v, ho, hm, hp, hv, lm, lp, ?_, ?_⟩
    · intro col hcol
      obtain ⟨k1, k2⟩ := key col hcol
      simp only [List.getD_eq_getElem?_getD]
      refine ⟨?_, ?_, ?_⟩
      · by_cases hk : Keeps round c x b col
        · simp [hk, (k1 hk).2]
        · simp [hk, (k2 hk).2]
      · intro hk; rw [(k1 hk).1]
      · intro hk; rw [(k2 hk).1]; rfl
    · obtain ⟨v', e1, e2⟩ := vector_zero_iff mrow (by omega)
      rw [hvr] at e1; cases e1
      rw [Ne, e2]
      push Not
      constructor
      · rintro ⟨t, ht, hne⟩
        obtain ⟨col, hcol⟩ := List.getElem?_of_mem ht
        have hlt : col < c.nSamples * c.zp := by
          have := (List.getElem?_eq_some_iff.1 hcol).1
          omega
        refine ⟨col, hlt, ?_⟩
        by_contra hk
        rw [((key col hlt).2 hk).2] at hcol
        exact hne (Option.some.inj hcol).symm
      · rintro ⟨col, hcol, hk⟩
        exact ⟨true, List.mem_of_getElem? ((key col hcol).1 hk).2, by simp⟩
  | false =>
    obtain ⟨m, h1, h2, h3, h4⟩ := masking_disabled round c x hen
    refine ⟨m, h1, ?_⟩
    intro b hb
    have hk : ∀ col, Keeps round c x b col := fun col h => by rw [hen] at h; cases h
    obtain ⟨orig, ho⟩ : ∃ orig, x.beams[b]? = some orig := ⟨_, List.getElem?_eq_getElem (by omega)⟩
    have lo : orig.length = c.nSamples * c.zp := hrow _ (List.mem_of_getElem? ho)
    have h00 := h3 b 0 (by omega) (by omega)
    obtain ⟨mrow, hm⟩ : ∃ r, m.mask[b]? = some r := by
      cases hr : m.mask[b]? with
      | none => simp [at2, hr] at h00
      | some r => exact ⟨r, rfl⟩
    have lm := mask_rows round c x (by omega) m h1 _ (List.mem_of_getElem? hm)
    refine ⟨orig, mrow, orig, _, ho, hm, by rw [h2]; exact ho, h4 b (by omega), lm, lo, ?_, ?_⟩
    · intro col hcol
      have := h3 b col (by omega) hcol
      simp only [at2, hm, Option.bind_some] at this
      simp [hk, this]
    · exact ⟨fun _ => ⟨0, by omega, hk 0⟩, fun _ => by omega⟩

/-- The waveform of a stack: the mean, over the looks with a kept sample, of the powers kept (zeros
included or not). -/
theorem waveform_of_rows (round : ℝ → ℤ) (c : Conf) (bursts : ℕ → L1A) (s : Surf)
    (rows : List (Row ℝ (ℕ → ℂ))) (hP : 2 ≤ c.samples * c.zp) (hl : rows.length ≤ c.looks) :
    ∃ m, masking round (maskConf c) (maskInput c bursts s rows) = .ok m ∧
      Multilook.WellFormed (c.samples * c.zp) (lookBeams rows m) ∧
      ∀ col < c.samples * c.zp,
        (∀ p ∈ Multilook.powers c.avoidZeros (lookBeams rows m) col, ∃ row ∈ rows,
          p = (compressed c bursts s row).getD col 0 ∨
          (p = 0 ∧ ∃ b, rows[b]? = some row ∧
            ¬ Keeps round (maskConf c) (maskInput c bursts s rows) b col)) ∧
        ∀ (b : ℕ) row, rows[b]? = some row →
          Keeps round (maskConf c) (maskInput c bursts s rows) b col →
          (compressed c bursts s row).getD col 0 ∈
            Multilook.powers c.avoidZeros (lookBeams rows m) col := by
  have hw : Stack.WellFormed (maskConf c) (maskInput c bursts s rows) := by
    refine ⟨hl, by simp [maskInput], ?_⟩
    intro r hr
    simp only [maskInput, List.mem_map] at hr
    obtain ⟨row, _, rfl⟩ := hr
    simp [compressed, maskConf]
  obtain ⟨m, h1, h2⟩ := masking_rows round (maskConf c) (maskInput c bursts s rows) hP hw
  have hbeam : ∀ B ∈ lookBeams rows m, ∃ b row, rows[b]? = some row ∧
      B.vector = m.vector.getD b 0 ∧ B.mask = m.mask.getD b [] ∧ B.power = m.beams.getD b [] := by
    intro B hB
    simp only [lookBeams, List.mem_map] at hB
    obtain ⟨⟨row, b⟩, hx, rfl⟩ := hB
    rw [List.mem_zipIdx_iff_getElem?] at hx
    exact ⟨b, row, hx, rfl, rfl, rfl⟩
  refine ⟨m, h1, ?_, ?_⟩
  · intro B hB
    obtain ⟨b, row, hr, e1, e2, e3⟩ := hbeam B hB
    obtain ⟨_, mrow, prow, v, _, g2, g3, g4, g5, g6, _⟩ := h2 b (List.getElem?_eq_some_iff.1 hr).1
    rw [e2, e3, List.getD_eq_getElem?_getD, List.getD_eq_getElem?_getD, g2, g3]
    exact ⟨g5, g6⟩
  · intro col hcol
    constructor
    · intro p hp
      simp only [Multilook.powers, List.mem_map, List.mem_filter] at hp
      obtain ⟨B, ⟨hB, _⟩, rfl⟩ := hp
      obtain ⟨b, row, hr, e1, e2, e3⟩ := hbeam B hB
      obtain ⟨orig, mrow, prow, v, g1, g2, g3, g4, g5, g6, g7, g8⟩ :=
        h2 b (List.getElem?_eq_some_iff.1 hr).1
      have ho : orig = compressed c bursts s row := by
        simp only [maskInput, List.getElem?_map, hr, Option.map_some, Option.some.injEq] at g1
        exact g1.symm
      have hpw : B.power = prow := by rw [e3, List.getD_eq_getElem?_getD, g3]; rfl
      refine ⟨row, List.mem_of_getElem? hr, ?_⟩
      rw [hpw]
      by_cases hk : Keeps round (maskConf c) (maskInput c bursts s rows) b col
      · left; rw [(g7 col hcol).2.1 hk, ho]
      · right; exact ⟨(g7 col hcol).2.2 hk, b, hr, hk⟩
    · intro b row hr hk
      obtain ⟨orig, mrow, prow, v, g1, g2, g3, g4, g5, g6, g7, g8⟩ :=
        h2 b (List.getElem?_eq_some_iff.1 hr).1
      have ho : orig = compressed c bursts s row := by
        simp only [maskInput, List.getElem?_map, hr, Option.map_some, Option.some.injEq] at g1
        exact g1.symm
      rw [← ho, ← (g7 col hcol).2.1 hk]
      simp only [Multilook.powers, List.mem_map, List.mem_filter]
      refine ⟨⟨v, mrow, prow, row.look, row.doppler, row.pointing, row.beamAngle, row.lookCounter⟩, ⟨?_, ?_⟩,
        rfl⟩
      · simp only [lookBeams, List.mem_map]
        refine ⟨(row, b), List.mem_zipIdx_iff_getElem?.2 hr, ?_⟩
        simp [List.getD_eq_getElem?_getD, g2, g3, g4]
      · have hv : v ≠ 0 := g8.2 ⟨col, hcol, hk⟩
        have := (g7 col hcol).1.2 hk
        simp only [Multilook.contributes, this, ne_eq, hv, not_false_eq_true, decide_true, Bool.or_true,
          Bool.and_self]

theorem loop_length_le (avoidZeros : Bool) (samples : ℕ) (beams : List (Multilook.Beam ℝ)) (i : ℕ)
    (a : Multilook.Acc ℝ) (h : a.sum.length ≤ samples) :
    (Multilook.loop avoidZeros samples i a beams).sum.length ≤ samples := by
  induction beams generalizing i a with
  | nil => exact h
  | cons b rest ih =>
    rw [Multilook.loop]
    apply ih
    unfold Multilook.turn
    split
    · simp only [List.length_zipWith]; omega
    · exact h

theorem waveform_length_le (avoidZeros : Bool) (samples nLooks : ℕ) (beams : List (Multilook.Beam ℝ)) :
    (Multilook.compute avoidZeros samples nLooks beams).waveform.length ≤ samples := by
  have := loop_length_le avoidZeros samples beams 0
    ⟨List.replicate samples 0, List.replicate samples 0, 0, none, none⟩ (by simp)
  unfold Multilook.compute
  dsimp only
  split <;> simp only [List.length_zipWith] <;> omega

/-- A stack with looks between 0 and π has beams to fit. -/
theorem fitCount_pos (c : Conf) (rows : List (Row ℝ (ℕ → ℂ))) (hne : rows ≠ [])
    (hl : rows.length ≤ c.looks) (ha : ∀ r ∈ rows, 0 < r.beamAngle ∧ r.beamAngle < Real.pi) :
    0 < fitCount c rows := by
  have hpos : 0 < rows.length := List.length_pos_iff.2 hne
  unfold fitCount
  simp only
  set f : ℕ → ℝ := fun i => |Real.pi / 2 - ((rows[i]?).map (·.beamAngle)).getD 0| with hf
  have hlt : (((List.range c.looks).argmin f).getD 0) < rows.length := by
    cases h : (List.range c.looks).argmin f with
    | none => simpa using hpos
    | some i =>
      simp only [Option.getD_some]
      by_contra hi
      have hz : f i = Real.pi / 2 := by
        simp only [hf, List.getElem?_eq_none (not_lt.1 hi), Option.map_none, Option.getD_none, sub_zero]
        exact abs_of_pos (by positivity)
      have h0 : f 0 < Real.pi / 2 := by
        obtain ⟨r, hr⟩ : ∃ r, rows[0]? = some r := ⟨_, List.getElem?_eq_getElem hpos⟩
        obtain ⟨a1, a2⟩ := ha r (List.mem_of_getElem? hr)
        simp only [hf, hr, Option.map_some, Option.getD_some]
        rw [abs_lt]; constructor <;> linarith
      have := List.le_of_mem_argmin (f := f) (a := 0) (m := i) (by simp; omega) h
      linarith
  generalize ((List.range c.looks).argmin f).getD 0 = i at hlt
  unfold Multilook.fitWindow
  simp only
  have : min (c.looks : ℤ) (rows.length : ℤ) = rows.length := by omega
  rw [this]
  omega

end Dedop.Chain
