import Verif.Stack.Masking

/-! # Stack masking (C32, C33) -/
namespace Dedop.Stack

variable {R : Type} [Field R] [LinearOrder R]

/-! ## Specification -/

/-- The geometry accepts sample `col` of a beam shifted by `k` samples if it comes from inside the
window: moved back by the shift it is one of the `nSamples * zp` samples. -/
def GeomAccepts (c : MaskConf R) (k : Int) (col : Nat) : Prop :=
  0 ≤ (col : Int) - k * c.zp ∧ (col : Int) - k * c.zp < (c.nSamples * c.zp : Nat)

/-- The look-angle bounds, if both are given, accept a look angle strictly between them. -/
def AngleAccepts (c : MaskConf R) (look : R) : Prop :=
  ∀ lo hi, c.angleMin = some lo → c.angleMax = some hi → lo < look ∧ look < hi

/-- Value of row `r`, column `col`. -/
def at2 {T : Type} (m : List (List T)) (r col : Nat) : Option T := (m[r]?).bind (·[col]?)

/-- The beams of the stack are rectangular and there are not more than looks. -/
def WellFormed (c : MaskConf R) (x : MaskInput R) : Prop :=
  x.stackSize ≤ c.nLooks ∧ x.beams.length = x.stackSize ∧
    ∀ row ∈ x.beams, row.length = c.nSamples * c.zp

/-! ## Lemmas -/

theorem geomRow_get (c : MaskConf R) (k : Int) (col : Nat) (h : col < c.nSamples * c.zp) :
    ∃ b, (geomRow c k)[col]? = some b ∧ (b = true ↔ GeomAccepts c k col) := by
  unfold geomRow
  simp only [List.getElem?_map, List.getElem?_range h, Option.map_some]
  refine ⟨_, rfl, ?_⟩
  have hc : (col : Int) < (c.nSamples : Int) * c.zp := by exact_mod_cast h
  have hzp : (0 : Int) ≤ c.zp := Int.natCast_nonneg _
  unfold GeomAccepts geomLimits
  push_cast
  by_cases hk : k > 0
  · have hz : (0 : Int) < c.zp := by
      rcases Nat.eq_zero_or_pos c.zp with h0 | h0
      · rw [h0] at h; omega
      · exact_mod_cast h0
    have : 0 < k * (c.zp : Int) := by positivity
    simp only [hk, if_true]
    split_ifs with hl
    · simp only [decide_eq_true_eq]; omega
    · simp only [Bool.false_eq_true, false_iff, not_and]; omega
  · have habs : |k| = -k := abs_of_nonpos (not_lt.1 hk)
    have hz : k * (c.zp : Int) ≤ 0 := mul_nonpos_of_nonpos_of_nonneg (not_lt.1 hk) hzp
    have e : ((c.nSamples : Int) - |k|) * c.zp = c.nSamples * c.zp + k * c.zp := by rw [habs]; ring
    simp only [hk, if_false, e]
    split_ifs with hl
    · simp only [decide_eq_true_eq]; omega
    · simp only [Bool.false_eq_true, false_iff, not_and]; omega

theorem geomRow_length (c : MaskConf R) (k : Int) : (geomRow c k).length = c.nSamples * c.zp := by
  simp [geomRow]

theorem mulRows_get (a b c : List Bool) (col : Nat) (x y z : Bool) (ha : a[col]? = some x)
    (hb : b[col]? = some y) (hc : c[col]? = some z) : (mulRows a b c)[col]? = some (x && y && z) := by
  simp [mulRows, List.getElem?_zipWith, ha, hb, hc]

theorem combine_ok (gs as ns : List (List Bool)) (m : Nat) (hm : 0 < m)
    (hl1 : gs.length = as.length) (hl2 : as.length = ns.length)
    (hg : ∀ r ∈ gs, r.length = m) (ha : ∀ r ∈ as, r.length = m) (hn : ∀ r ∈ ns, r.length = m) :
    ∃ ms vs, combineMasks gs as ns = .ok (ms, vs) ∧ ms.length = gs.length ∧ vs.length = gs.length ∧
      (∀ r ∈ ms, r.length = m) ∧
      (∀ (r : Nat) g a n, gs[r]? = some g → as[r]? = some a → ns[r]? = some n →
        ms[r]? = some (mulRows g a n)) ∧
      ∀ (r : Nat) row, ms[r]? = some row → ∃ v, vs[r]? = some v ∧ maskEntry row = .ok v := by
  induction gs generalizing as ns with
  | nil => exact ⟨[], [], by simp [combineMasks]⟩
  | cons g gs ih =>
    cases as with
    | nil => simp at hl1
    | cons a as =>
      cases ns with
      | nil => simp at hl2
      | cons n ns =>
        simp only [List.length_cons, add_left_inj] at hl1 hl2
        obtain ⟨ms, vs, h1, h2, h3, h3', h4, h5⟩ := ih as ns hl1 hl2
          (fun r hr => hg r (by simp [hr])) (fun r hr => ha r (by simp [hr]))
          (fun r hr => hn r (by simp [hr]))
        have hlen : (mulRows g a n).length = m := by
          simp [mulRows, hg g (by simp), ha a (by simp), hn n (by simp)]
        obtain ⟨v, hv⟩ : ∃ v, maskEntry (mulRows g a n) = .ok v := by
          unfold maskEntry
          cases hlast : (mulRows g a n).getLast? with
          | none =>
            rw [List.getLast?_eq_none_iff] at hlast
            rw [hlast] at hlen; simp at hlen; omega
          | some b => cases b <;> exact ⟨_, rfl⟩
        refine ⟨mulRows g a n :: ms, v :: vs, ?_, by simp [h2], by simp [h3], ?_, ?_, ?_⟩
        · simp [combineMasks, hv, h1]
        · intro r hr
          rcases List.mem_cons.1 hr with rfl | hr
          · exact hlen
          · exact h3' r hr
        · intro r g' a' n' hg' ha' hn'
          cases r with
          | zero => simp at hg' ha' hn'; subst hg'; subst ha'; subst hn'; rfl
          | succ r => exact h4 r g' a' n' (by simpa using hg') (by simpa using ha') (by simpa using hn')
        · intro r row hr
          cases r with
          | zero => simp at hr; subst hr; exact ⟨v, rfl, hv⟩
          | succ r => simpa using h5 r row (by simpa using hr)

/-! ## C33 -/

/-- **C33.**  With masking enabled and at least one sample per beam, masking succeeds and sample `col`
of beam `b` of the stack is kept if the geometry and the look-angle bounds accept it, and zero
otherwise (the ambiguity mask accepts everything); the mask says which, with rows beyond the stack all
zero, and the vector has one entry per row. -/
theorem masked_iff_rejected (round : R → Int) (c : MaskConf R) (x : MaskInput R)
    (hen : c.enabled = true) (hpos : 0 < c.nSamples * c.zp) (hx : WellFormed c x) :
    ∃ out, masking round c x = .ok out ∧ out.mask.length = c.nLooks ∧ out.vector.length = c.nLooks ∧
      out.beams.length = x.stackSize ∧
      (∀ b col v, b < x.stackSize → at2 x.beams b col = some v →
        (GeomAccepts c (round (x.shift b)) col ∧ AngleAccepts c (x.look b) →
          at2 out.beams b col = some v ∧ at2 out.mask b col = some true) ∧
        (¬ (GeomAccepts c (round (x.shift b)) col ∧ AngleAccepts c (x.look b)) →
          at2 out.beams b col = some 0 ∧ at2 out.mask b col = some false)) ∧
      (∀ b col, x.stackSize ≤ b → b < c.nLooks → col < c.nSamples * c.zp →
        at2 out.mask b col = some false) ∧
      ∀ (b : Nat) row, out.mask[b]? = some row → ∃ n, out.vector[b]? = some n ∧ maskEntry row = .ok n := by
  obtain ⟨hsz, hbl, hrow⟩ := hx
  have lg : (geometryMask round c x).length = c.nLooks := by simp [geometryMask]
  have la : (ambiguityMask c).length = c.nLooks := by simp [ambiguityMask]
  have ln : (angleMask c x).length = c.nLooks := by
    unfold angleMask; split <;> simp
  obtain ⟨ms, vs, h1, h2, h3, h3', h4, h5⟩ := combine_ok (geometryMask round c x) (ambiguityMask c)
    (angleMask c x) (c.nSamples * c.zp) hpos (by rw [lg, la]) (by rw [la, ln])
    (by
      intro r hr
      simp only [geometryMask, List.mem_map] at hr
      obtain ⟨b, _, rfl⟩ := hr
      split_ifs
      · exact geomRow_length _ _
      · simp)
    (by
      intro r hr
      simp only [ambiguityMask, List.mem_replicate] at hr
      rw [hr.2]; simp)
    (by
      intro r hr
      unfold angleMask at hr
      split at hr
      · simp only [List.mem_map] at hr
        obtain ⟨b, _, rfl⟩ := hr
        simp
      · simp only [List.mem_replicate] at hr
        rw [hr.2]; simp)
  -- value of the mask in terms of the specification
  have hmask : ∀ b col, b < c.nLooks → col < c.nSamples * c.zp → ∃ v, at2 ms b col = some v ∧
      (v = true ↔ b < x.stackSize ∧ GeomAccepts c (round (x.shift b)) col ∧ AngleAccepts c (x.look b)) := by
    intro b col hb hcol
    have hm : min x.stackSize c.nLooks = x.stackSize := Nat.min_eq_left hsz
    have hg : ∃ g gv, (geometryMask round c x)[b]? = some g ∧ g[col]? = some gv ∧
        (gv = true ↔ b < x.stackSize ∧ GeomAccepts c (round (x.shift b)) col) := by
      simp only [geometryMask, List.getElem?_map, List.getElem?_range hb, Option.map_some, hm]
      by_cases hbs : b < x.stackSize
      · obtain ⟨gv, hgv, hiff⟩ := geomRow_get c (round (x.shift b)) col hcol
        exact ⟨geomRow c (round (x.shift b)), gv, by simp [hbs], hgv, by simp [hiff, hbs]⟩
      · refine ⟨_, false, by simp [hbs]; rfl, by simp [hcol], by simp [hbs]⟩
    have ha : ∃ a, (ambiguityMask c)[b]? = some a ∧ a[col]? = some true := by
      simp [ambiguityMask, List.getElem?_replicate, hb, hcol]
    have hn : ∃ n nv, (angleMask c x)[b]? = some n ∧ n[col]? = some nv ∧
        (b < x.stackSize → (nv = true ↔ AngleAccepts c (x.look b))) := by
      unfold angleMask AngleAccepts
      cases hlo : c.angleMin with
      | none =>
        refine ⟨List.replicate (c.nSamples * c.zp) true, true, by simp [List.getElem?_replicate, hb],
          by simp [List.getElem?_replicate, hcol], by simp⟩
      | some lo =>
        cases hhi : c.angleMax with
        | none =>
          refine ⟨List.replicate (c.nSamples * c.zp) true, true, by simp [List.getElem?_replicate, hb],
            by simp [List.getElem?_replicate, hcol], by simp⟩
        | some hi =>
          simp only [List.getElem?_map, List.getElem?_range hb, Option.map_some, hm]
          refine ⟨_, _, rfl, by rw [List.getElem?_replicate, if_pos hcol], ?_⟩
          intro hbs
          simp only [hbs, if_true, decide_eq_true_eq, Option.some.injEq]
          constructor
          · rintro h _ _ rfl rfl; exact h
          · intro h; exact h lo hi rfl rfl
    obtain ⟨g, gv, hg1, hg2, hg3⟩ := hg
    obtain ⟨a, ha1, ha2⟩ := ha
    obtain ⟨n, nv, hn1, hn2, hn3⟩ := hn
    refine ⟨gv && true && nv, ?_, ?_⟩
    · simp [at2, h4 b g a n hg1 ha1 hn1, mulRows_get g a n col gv true nv hg2 ha2 hn2]
    · simp only [Bool.and_true, Bool.and_eq_true, hg3]
      constructor
      · rintro ⟨⟨p, q⟩, r⟩; exact ⟨p, q, (hn3 p).1 r⟩
      · rintro ⟨p, q, r⟩; exact ⟨⟨p, q⟩, (hn3 p).2 r⟩
  refine ⟨⟨applyMask x ms, ms, vs⟩, ?_, by rw [h2, lg], by rw [h3, lg], ?_, ?_, ?_, h5⟩
  · simp [masking, hen, h1]
  · simp [applyMask, hbl, h2, lg, hsz]
  · intro b col v hb hv
    have hcol : col < c.nSamples * c.zp := by
      unfold at2 at hv
      cases hr : x.beams[b]? with
      | none => simp [hr] at hv
      | some row =>
        simp [hr] at hv
        have := hrow row (List.mem_of_getElem? hr)
        have := (List.getElem?_eq_some_iff.1 hv).1
        omega
    obtain ⟨mv, hmv, hiff⟩ := hmask b col (by omega) hcol
    have happ : at2 (applyMask x ms) b col = some (v * (if mv then 1 else 0)) := by
      unfold at2 at hv hmv ⊢
      cases hr : x.beams[b]? with
      | none => simp [hr] at hv
      | some row =>
        cases hr' : ms[b]? with
        | none => simp [hr'] at hmv
        | some row' =>
          simp [hr] at hv
          simp [hr'] at hmv
          simp [applyMask, List.getElem?_zipWith, List.getElem?_take, hb, hr, hr', hv, hmv]
    constructor
    · intro h
      have : mv = true := hiff.2 ⟨hb, h⟩
      subst this
      exact ⟨by simpa using happ, hmv⟩
    · intro h
      have : mv = false := by
        rw [← Bool.not_eq_true, hiff]; tauto
      subst this
      exact ⟨by simpa using happ, hmv⟩
  · intro b col hb1 hb2 hcol
    obtain ⟨mv, hmv, hiff⟩ := hmask b col hb2 hcol
    have : mv = false := by
      rw [← Bool.not_eq_true, hiff]; omega
    rw [← this]; exact hmv

/-- **C33, bounds.**  A beam whose look angle is outside the bounds is all zero. -/
theorem outside_bounds_zero (round : R → Int) (c : MaskConf R) (x : MaskInput R)
    (hen : c.enabled = true) (hpos : 0 < c.nSamples * c.zp) (hx : WellFormed c x) (lo hi : R)
    (hlo : c.angleMin = some lo) (hhi : c.angleMax = some hi) (b : Nat) (hb : b < x.stackSize)
    (hout : x.look b ≤ lo ∨ hi ≤ x.look b) :
    ∃ out, masking round c x = .ok out ∧ ∀ col v, at2 x.beams b col = some v →
      at2 out.beams b col = some 0 := by
  obtain ⟨out, h1, _, _, _, h2, _⟩ := masked_iff_rejected round c x hen hpos hx
  refine ⟨out, h1, fun col v hv => ((h2 b col v hb hv).2 ?_).1⟩
  rintro ⟨_, ha⟩
  obtain ⟨h3, h4⟩ := ha lo hi hlo hhi
  rcases hout with h | h
  · exact absurd h3 (not_lt.2 h)
  · exact absurd h4 (not_lt.2 h)

/-- **C33, disabled.**  Nothing changes and the mask accepts everything. -/
theorem masking_disabled (round : R → Int) (c : MaskConf R) (x : MaskInput R) (hen : c.enabled = false) :
    ∃ out, masking round c x = .ok out ∧ out.beams = x.beams ∧
      (∀ b col, b < c.nLooks → col < c.nSamples * c.zp → at2 out.mask b col = some true) ∧
      ∀ b, b < c.nLooks → out.vector[b]? = some (c.nSamples * c.zp - 1) := by
  refine ⟨⟨x.beams, (defaultMask c).1, (defaultMask c).2⟩, by simp [masking, hen], rfl, ?_, ?_⟩
  · intro b col hb hcol
    simp [at2, defaultMask, hb, hcol]
  · intro b hb
    simp [defaultMask, hb]

/-- Two beams of four samples, shifted by 1 and −2; the third look is outside the bounds. -/
def exConf : MaskConf ℚ := ⟨3, 4, 1, true, some (-1), some 1⟩
/-- An input for the examples. -/
def exIn : MaskInput ℚ :=
  ⟨3, fun b => [1, -2, 0].getD b 0, fun b => [0, 1/2, 1].getD b 0, [[1, 2, 3, 4], [1, 2, 3, 4], [1, 2, 3, 4]]⟩

example : WellFormed exConf exIn ∧
    masking (fun q => q.floor) exConf exIn = .ok ⟨[[0, 2, 3, 4], [1, 2, 0, 0], [0, 0, 0, 0]],
      [[false, true, true, true], [true, true, false, false], [false, false, false, false]],
      [3, 2, 0]⟩ := by
  unfold WellFormed
  decide +kernel

/-! ## C32 -/

/-- The row with `k` leading valid samples, all others invalid. -/
def leading (k size : Nat) : List Bool := List.replicate k true ++ List.replicate (size - k) false

theorem searchBack_replicate (size i m : Nat) (rest : List Bool) :
    searchBack size i (List.replicate m false ++ rest) = searchBack size (i + m) rest := by
  induction m generalizing i with
  | zero => simp
  | succ m ih =>
    rw [List.replicate_succ, List.cons_append, searchBack, if_neg (by simp), ih]
    congr 1; omega

/-- **C32, rows with at least one invalid sample.**  The entry of the mask vector is the number of
leading valid samples. -/
theorem vector_counts_valid_partial (k size : Nat) (h : k < size) :
    maskEntry (leading k size) = .ok k := by
  have hl : (leading k size).getLast? = some false := by
    unfold leading
    rw [List.getLast?_append, List.getLast?_replicate, if_neg (by omega)]
    rfl
  have hlen : (leading k size).length = size := by simp [leading]; omega
  unfold maskEntry
  simp only [hl, hlen]
  unfold leading
  rw [List.reverse_append, List.reverse_replicate, List.reverse_replicate, searchBack_replicate]
  cases k with
  | zero => simp [searchBack]
  | succ k => simp [List.replicate_succ, searchBack]; omega

/-- **C32, all samples valid:** the entry is the last index, one less than the number. -/
theorem vector_full_row (size : Nat) (h : 0 < size) :
    maskEntry (leading size size) = .ok (size - 1) := by
  have hl : (leading size size).getLast? = some true := by
    unfold leading
    rw [Nat.sub_self, List.replicate_zero, List.append_nil, List.getLast?_replicate, if_neg (by omega)]
  have hlen : (leading size size).length = size := by simp [leading]
  unfold maskEntry
  simp only [hl, hlen]

/-- **C32 violated.**  For every row length the row with all samples valid and the one with exactly the
last sample invalid get the same entry, so the vector does not determine the mask. -/
theorem vector_ambiguous_violated (size : Nat) (h : 0 < size) :
    leading size size ≠ leading (size - 1) size ∧
      maskEntry (leading size size) = maskEntry (leading (size - 1) size) := by
  constructor
  · intro he
    have : (leading size size).count true = (leading (size - 1) size).count true := by rw [he]
    simp [leading, List.count_replicate] at this
    omega
  · rw [vector_full_row size h, vector_counts_valid_partial _ _ (by omega)]

/-- Apart from these two, different rows of this kind have different entries. -/
theorem vector_determines_other_rows (k k' size : Nat) (h : k ≤ size) (h' : k' ≤ size) (hs : 0 < size)
    (he : maskEntry (leading k size) = maskEntry (leading k' size)) :
    k = k' ∨ (k = size ∧ k' = size - 1) ∨ (k = size - 1 ∧ k' = size) := by
  have key : ∀ j ≤ size, maskEntry (leading j size) = .ok (if j = size then size - 1 else j) := by
    intro j hj
    by_cases hjs : j = size
    · subst hjs; rw [if_pos rfl]; exact vector_full_row _ hs
    · rw [if_neg hjs]; exact vector_counts_valid_partial _ _ (by omega)
  rw [key k h, key k' h'] at he
  simp only [Except.ok.injEq] at he
  split_ifs at he <;> omega

/-- For a row of any shape the entry is positive exactly if some sample is valid (two samples or
more). -/
theorem vector_zero_iff (row : List Bool) (h : 2 ≤ row.length) :
    ∃ v, maskEntry row = .ok v ∧ (v = 0 ↔ ∀ b ∈ row, b = false) := by
  unfold maskEntry
  rcases hr : row.getLast? with _ | b
  · rw [List.getLast?_eq_none_iff] at hr; subst hr; simp at h
  cases b with
  | true =>
    refine ⟨_, rfl, ?_⟩
    have hm : true ∈ row := List.mem_of_getLast? hr
    constructor
    · intro h0; omega
    · intro h0; simpa using h0 true hm
  | false =>
    refine ⟨_, rfl, ?_⟩
    have gen : ∀ (l : List Bool) i size, i + l.length = size →
        (searchBack size i l = 0 ↔ ∀ b ∈ l, b = false) := by
      intro l
      induction l with
      | nil => intro i size _; simp [searchBack]
      | cons b l ih =>
        intro i size hs
        simp only [List.length_cons] at hs
        rw [searchBack]
        cases b with
        | true => simp; omega
        | false =>
          rw [if_neg (by simp), ih (i + 1) size (by omega)]
          simp
    rw [gen row.reverse 0 row.length (by simp)]
    simp

example : maskEntry [true, true, false, false] = .ok 2 ∧ maskEntry [true, true, true, false] = .ok 3 ∧
    maskEntry [true, true, true, true] = .ok 3 := by decide +kernel

end Dedop.Stack
