import Verif.Multilook.Model
import Mathlib.Data.Rat.Floor
import Mathlib.Algebra.Order.BigOperators.Group.List

/-! # Multilooking (C34, C35, C36, C65) -/
namespace Dedop.Multilook

variable {R : Type} [Field R] [LinearOrder R]

/-! ## Specification -/

/-- Beam `b` contributes to sample `s`: its mask vector is not zero and, if zeros are avoided, its mask
accepts the sample. -/
def contributes (avoidZeros : Bool) (s : Nat) (b : Beam R) : Bool :=
  decide (b.vector ≠ 0) && (!avoidZeros || b.mask.getD s false)

/-- The powers contributing to sample `s`. -/
def powers (avoidZeros : Bool) (beams : List (Beam R)) (s : Nat) : List R :=
  (beams.filter (contributes avoidZeros s)).map (fun b => b.power.getD s 0)

/-- Rows have `samples` entries. -/
def WellFormed (samples : Nat) (beams : List (Beam R)) : Prop :=
  ∀ b ∈ beams, b.mask.length = samples ∧ b.power.length = samples

/-! ## Lemmas -/

theorem increments_get (avoidZeros : Bool) (samples : Nat) (b : Beam R) (h : b.mask.length = samples)
    (s : Nat) (hs : s < samples) (hv : b.vector ≠ 0) :
    (increments avoidZeros samples b)[s]? = some (if contributes avoidZeros s b then 1 else 0) := by
  unfold increments contributes
  cases avoidZeros with
  | true =>
    have : s < b.mask.length := by omega
    simp [hv, List.getElem?_eq_getElem this]
  | false => simp [hv, hs]

theorem loop_get (avoidZeros : Bool) (samples : Nat) (beams : List (Beam R))
    (h : WellFormed samples beams) (s : Nat) (hs : s < samples) :
    ∀ (i : Nat) (a : Acc R) (x : R) (n : Nat), a.sum[s]? = some x → a.counter[s]? = some n →
      (loop avoidZeros samples i a beams).sum[s]? = some (x + (powers avoidZeros beams s).sum) ∧
      (loop avoidZeros samples i a beams).counter[s]? =
        some (n + (powers avoidZeros beams s).length) := by
  induction beams with
  | nil => intro i a x n h1 h2; simp [loop, powers, h1, h2]
  | cons b rest ih =>
    intro i a x n h1 h2
    have hb := h b (by simp)
    have hrest : WellFormed samples rest := fun c hc => h c (by simp [hc])
    rw [loop]
    by_cases hv : b.vector ≠ 0
    · have hinc := increments_get avoidZeros samples b hb.1 s hs hv
      have hp : b.power[s]? = some (b.power.getD s 0) := by
        have : s < b.power.length := by omega
        simp [List.getElem?_eq_getElem this]
      have e1 : (turn avoidZeros samples a i b).sum[s]? =
          some (x + b.power.getD s 0 * ((if contributes avoidZeros s b then 1 else 0 : Nat) : R)) := by
        unfold turn
        rw [if_pos hv]
        simp only [List.getElem?_zipWith, h1, hp, hinc]
      have e2 : (turn avoidZeros samples a i b).counter[s]? =
          some (n + (if contributes avoidZeros s b then 1 else 0)) := by
        unfold turn
        rw [if_pos hv]
        simp only [List.getElem?_zipWith, h2, hinc]
      obtain ⟨r1, r2⟩ := ih hrest (i + 1) _ _ _ e1 e2
      rw [r1, r2]
      by_cases hc : contributes avoidZeros s b = true
      · simp [powers, hc]
        constructor
        · ring
        · omega
      · simp [powers, hc]
    · have hc : contributes avoidZeros s b = false := by
        unfold contributes; simp at hv; simp [hv]
      have e : turn avoidZeros samples a i b = a := by unfold turn; rw [if_neg hv]
      rw [e]
      obtain ⟨r1, r2⟩ := ih hrest (i + 1) a x n h1 h2
      rw [r1, r2]
      simp [powers, hc]

theorem waveform_get (avoidZeros : Bool) (samples nLooks : Nat) (beams : List (Beam R))
    (h : WellFormed samples beams) (s : Nat) (hs : s < samples) :
    (compute avoidZeros samples nLooks beams).waveform[s]? =
      some (if (powers avoidZeros beams s).length = 0 then none
        else some ((powers avoidZeros beams s).sum / ((powers avoidZeros beams s).length : R))) := by
  obtain ⟨r1, r2⟩ := loop_get avoidZeros samples beams h s hs 0
    ⟨List.replicate samples 0, List.replicate samples 0, 0, none, none⟩ 0 0 (by simp [hs]) (by simp [hs])
  have e : (compute avoidZeros samples nLooks beams).waveform =
      List.zipWith divide
        (loop avoidZeros samples 0 ⟨List.replicate samples 0, List.replicate samples 0, 0, none, none⟩ beams).sum
        (loop avoidZeros samples 0 ⟨List.replicate samples 0, List.replicate samples 0, 0, none, none⟩ beams).counter := by
    unfold compute
    simp only
    split <;> rfl
  rw [e, List.getElem?_zipWith, r1, r2]
  simp [divide]

/-! ## C34 -/

/-- **C34.**  A sample to which some beam contributes is the mean of the contributing powers and lies
between the smallest and the largest of them. -/
theorem multilooked_is_mean [IsStrictOrderedRing R] (avoidZeros : Bool) (samples nLooks : Nat)
    (beams : List (Beam R)) (h : WellFormed samples beams) (s : Nat) (hs : s < samples)
    (hne : powers avoidZeros beams s ≠ []) :
    ∃ x, (compute avoidZeros samples nLooks beams).waveform[s]? = some (some x) ∧
      x * ((powers avoidZeros beams s).length : R) = (powers avoidZeros beams s).sum ∧
      ∀ lo hi, (∀ p ∈ powers avoidZeros beams s, lo ≤ p ∧ p ≤ hi) → lo ≤ x ∧ x ≤ hi := by
  have hl : (powers avoidZeros beams s).length ≠ 0 := by
    intro h0; exact hne (List.length_eq_zero_iff.1 h0)
  have hpos : (0 : R) < ((powers avoidZeros beams s).length : R) := by
    have : 0 < (powers avoidZeros beams s).length := Nat.pos_of_ne_zero hl
    exact_mod_cast this
  refine ⟨_, by rw [waveform_get avoidZeros samples nLooks beams h s hs, if_neg hl], ?_, ?_⟩
  · field_simp
  · intro lo hi hb
    have h1 : ((powers avoidZeros beams s).length : R) * lo ≤ (powers avoidZeros beams s).sum := by
      have := List.card_nsmul_le_sum (powers avoidZeros beams s) lo (fun p hp => (hb p hp).1)
      simpa [nsmul_eq_mul] using this
    have h2 : (powers avoidZeros beams s).sum ≤ ((powers avoidZeros beams s).length : R) * hi := by
      have := List.sum_le_card_nsmul (powers avoidZeros beams s) hi (fun p hp => (hb p hp).2)
      simpa [nsmul_eq_mul] using this
    constructor
    · rw [le_div_iff₀ hpos]; linarith
    · rw [div_le_iff₀ hpos]; linarith

/-- **C34 violated.**  A sample without contributing beam is 0/0: NaN is written.  This happens for every
sample of a surface whose beams are all masked. -/
theorem no_contributing_beam_violated (avoidZeros : Bool) (samples nLooks : Nat) (beams : List (Beam R))
    (h : WellFormed samples beams) (s : Nat) (hs : s < samples) (he : powers avoidZeros beams s = []) :
    (compute avoidZeros samples nLooks beams).waveform[s]? = some none := by
  rw [waveform_get avoidZeros samples nLooks beams h s hs, he]
  rfl

/-- Three beams of two samples, the middle one masked out; with `avoidZeros` the last one counts in the
first sample only. -/
def exBeams : List (Beam ℚ) :=
  [⟨1, [true, true], [2, 8], 1, 1, 1, 1, 7⟩, ⟨0, [false, false], [0, 0], 2, 2, 2, 2, 8⟩,
   ⟨1, [true, false], [4, 0], 3, 3, 3, 3, 9⟩]

example : WellFormed 2 exBeams ∧ powers true exBeams 1 ≠ [] ∧
    (compute true 2 4 exBeams).waveform = [some 3, some 8] ∧
    (compute false 2 4 exBeams).waveform = [some 3, some 4] := by
  unfold WellFormed; decide +kernel

/-! ## C35 -/

theorem loop_bounds (avoidZeros : Bool) (samples : Nat) (beams : List (Beam R)) :
    ∀ (i : Nat) (a : Acc R), (a.start = none ↔ a.stop = none) →
      (∀ s t, a.start = some s → a.stop = some t → s ≤ t ∧ t < i) →
      let r := loop avoidZeros samples i a beams
      (r.start = none ↔ r.stop = none) ∧
      r.nBeams = a.nBeams + (beams.filter (fun b => decide (b.vector ≠ 0))).length ∧
      (r.start = none ↔ a.start = none ∧ ∀ b ∈ beams, b.vector = 0) ∧
      ((∀ b ∈ beams, b.vector = 0) → r.start = a.start ∧ r.stop = a.stop) ∧
      (∀ s, r.start = some s → a.start = some s ∨ (a.start = none ∧ i ≤ s ∧
        (∃ b, beams[s - i]? = some b ∧ b.vector ≠ 0) ∧
        ∀ j b, j < s - i → beams[j]? = some b → b.vector = 0)) ∧
      (∀ t, r.stop = some t → (a.stop = some t ∧ ∀ b ∈ beams, b.vector = 0) ∨ (i ≤ t ∧
        (∃ b, beams[t - i]? = some b ∧ b.vector ≠ 0) ∧
        ∀ j b, t - i < j → beams[j]? = some b → b.vector = 0)) := by
  induction beams with
  | nil =>
    intro i a h1 h2
    simp only [loop]
    refine ⟨h1, by simp, by simp, by simp, ?_, ?_⟩
    · intro s hs; exact Or.inl hs
    · intro t ht; exact Or.inl ⟨ht, by simp⟩
  | cons b rest ih =>
    intro i a h1 h2
    simp only [loop]
    by_cases hv : b.vector ≠ 0
    · set a' := turn avoidZeros samples a i b with ha'
      have es : a'.start = (match a.start with | none => some i | some s => some s) := by
        rw [ha']; unfold turn; rw [if_pos hv]; cases a.start <;> rfl
      have et : a'.stop = some i := by rw [ha']; unfold turn; rw [if_pos hv]
      have en : a'.nBeams = a.nBeams + 1 := by rw [ha']; unfold turn; rw [if_pos hv]
      have hsome : ∃ s, a'.start = some s ∧ s ≤ i ∧ (a.start = some s ∨ (a.start = none ∧ s = i)) := by
        cases hst : a.start with
        | none => exact ⟨i, by rw [es, hst], le_refl _, Or.inr ⟨rfl, rfl⟩⟩
        | some s =>
          refine ⟨s, by rw [es, hst], ?_, Or.inl rfl⟩
          cases htt : a.stop with
          | none => rw [h1.2 htt] at hst; cases hst
          | some t => have := h2 s t hst htt; omega
      obtain ⟨s0, hs0, hs0i, hs0a⟩ := hsome
      obtain ⟨r1, r2, r3, r4, r5, r6⟩ := ih (i + 1) a' (by rw [hs0, et]; simp)
        (by intro s t hs ht; rw [hs0] at hs; rw [et] at ht; cases hs; cases ht; omega)
      refine ⟨r1, ?_, ?_, ?_, ?_, ?_⟩
      · rw [r2, en]; simp [hv]; omega
      · constructor
        · intro h; rw [(r3.1 h).1] at hs0; cases hs0
        · rintro ⟨_, h⟩; exact absurd (h b (by simp)) hv
      · intro h; exact absurd (h b (by simp)) hv
      · intro s hs
        rcases r5 s hs with h | ⟨h, _⟩
        · rw [hs0] at h; cases h
          rcases hs0a with h | ⟨h, rfl⟩
          · exact Or.inl h
          · refine Or.inr ⟨h, le_refl _, ⟨b, by simp, hv⟩, ?_⟩
            intro j c hj; omega
        · rw [hs0] at h; cases h
      · intro t ht
        right
        rcases r6 t ht with ⟨h, hz⟩ | ⟨h, ⟨c, hc, hcv⟩, hz⟩
        · rw [et] at h; cases h
          refine ⟨le_refl _, ⟨b, by simp, hv⟩, ?_⟩
          intro j c hj hc
          cases j with
          | zero => omega
          | succ j => exact hz c (List.mem_of_getElem? (by simpa using hc))
        · refine ⟨by omega, ⟨c, ?_, hcv⟩, ?_⟩
          · rw [show t - i = (t - (i + 1)) + 1 by omega]; simpa using hc
          · intro j c' hj hc'
            cases j with
            | zero => omega
            | succ j => exact hz j c' (by omega) (by simpa using hc')
    · have e : turn avoidZeros samples a i b = a := by unfold turn; rw [if_neg hv]
      rw [e]
      simp only [ne_eq, not_not] at hv
      obtain ⟨r1, r2, r3, r4, r5, r6⟩ := ih (i + 1) a h1
        (by intro s t hs ht; have := h2 s t hs ht; omega)
      refine ⟨r1, ?_, ?_, ?_, ?_, ?_⟩
      · rw [r2]; simp [hv]
      · rw [r3]; simp [hv]
      · intro h; exact r4 (fun c hc => h c (by simp [hc]))
      · intro s hs
        rcases r5 s hs with h | ⟨h, hi, ⟨c, hc, hcv⟩, hz⟩
        · exact Or.inl h
        · refine Or.inr ⟨h, by omega, ⟨c, ?_, hcv⟩, ?_⟩
          · rw [show s - i = (s - (i + 1)) + 1 by omega]; simpa using hc
          · intro j c' hj hc'
            cases j with
            | zero => simp at hc'; subst hc'; exact hv
            | succ j => exact hz j c' (by omega) (by simpa using hc')
      · intro t ht
        rcases r6 t ht with ⟨h, hz⟩ | ⟨hi, ⟨c, hc, hcv⟩, hz⟩
        · left; exact ⟨h, by intro c hc; rcases List.mem_cons.1 hc with rfl | hc; exact hv; exact hz c hc⟩
        · refine Or.inr ⟨by omega, ⟨c, ?_, hcv⟩, ?_⟩
          · rw [show t - i = (t - (i + 1)) + 1 by omega]; simpa using hc
          · intro j c' hj hc'
            cases j with
            | zero => omega
            | succ j => exact hz j c' (by omega) (by simpa using hc')

/-- **C35.**  If no beam has a non-empty mask there is no start or stop and the number of beams is 0.
Otherwise start and stop are the first and the last beam with a non-empty mask, every such beam lies
between them, the number start..stop is their difference plus one and the number of contributing beams
is the number of non-empty masks; look angles and mask vector are those of the beams start..stop. -/
theorem start_stop_spec (avoidZeros : Bool) (samples nLooks : Nat) (beams : List (Beam R)) :
    let out := compute avoidZeros samples nLooks beams
    out.nBeams = (beams.filter (fun b => decide (b.vector ≠ 0))).length ∧
    ((∀ b ∈ beams, b.vector = 0) → out.start = none ∧ out.stop = none ∧ out.nStartStop = 0) ∧
    ((∃ b ∈ beams, b.vector ≠ 0) → ∃ s t bs bt, out.start = some s ∧ out.stop = some t ∧
      beams[s]? = some bs ∧ beams[t]? = some bt ∧ bs.vector ≠ 0 ∧ bt.vector ≠ 0 ∧
      (∀ (j : Nat) b, beams[j]? = some b → b.vector ≠ 0 → s ≤ j ∧ j ≤ t) ∧
      out.nStartStop = t - s + 1 ∧ out.nBeams ≤ out.nStartStop ∧
      out.startLook = bs.look ∧ out.stopLook = bt.look ∧
      ∀ k < out.nStartStop, out.vectorStartStop[k]? = (beams[s + k]?).map (·.vector)) := by
  intro out
  obtain ⟨r1, r2, r3, r4, r5, r6⟩ := loop_bounds avoidZeros samples beams 0
    ⟨List.replicate samples 0, List.replicate samples 0, 0, none, none⟩ (by simp) (by simp)
  set acc := loop avoidZeros samples 0
    ⟨List.replicate samples 0, List.replicate samples 0, 0, none, none⟩ beams with hacc
  have hn : out.nBeams = acc.nBeams := by
    show (compute avoidZeros samples nLooks beams).nBeams = _
    unfold compute
    simp only [← hacc]
    split <;> rfl
  refine ⟨by rw [hn, r2]; simp, ?_, ?_⟩
  · intro h
    have hs := r3.2 ⟨rfl, h⟩
    have ht := r1.1 hs
    have : out = compute avoidZeros samples nLooks beams := rfl
    rw [this]
    unfold compute
    simp only [← hacc, hs, ht]
    simp
  · rintro ⟨b0, hb0, hv0⟩
    have hns : acc.start ≠ none := by
      intro h; exact hv0 ((r3.1 h).2 b0 hb0)
    obtain ⟨s, hs⟩ := Option.ne_none_iff_exists'.1 hns
    have hnt : acc.stop ≠ none := fun h => hns (r1.2 h)
    obtain ⟨t, ht⟩ := Option.ne_none_iff_exists'.1 hnt
    have h5 : (∃ b, beams[s]? = some b ∧ b.vector ≠ 0) ∧
        ∀ j b, j < s → beams[j]? = some b → b.vector = 0 := by
      rcases r5 s hs with h | ⟨_, _, h, h'⟩
      · cases h
      · simpa using ⟨h, h'⟩
    have h6 : (∃ b, beams[t]? = some b ∧ b.vector ≠ 0) ∧
        ∀ j b, t < j → beams[j]? = some b → b.vector = 0 := by
      rcases r6 t ht with ⟨h, _⟩ | ⟨_, h, h'⟩
      · cases h
      · simpa using ⟨h, h'⟩
    obtain ⟨⟨bs, hbs, hbsv⟩, hfirst⟩ := h5
    obtain ⟨⟨bt, hbt, hbtv⟩, hlast⟩ := h6
    have hbetween : ∀ (j : Nat) b, beams[j]? = some b → b.vector ≠ 0 → s ≤ j ∧ j ≤ t := by
      intro j b hj hv
      constructor
      · by_contra hlt; exact hv (hfirst j b (by omega) hj)
      · by_contra hlt; exact hv (hlast j b (by omega) hj)
    have hst : s ≤ t := (hbetween t bt hbt hbtv).1
    have htl : t < beams.length := (List.getElem?_eq_some_iff.1 hbt).1
    have hout : out = compute avoidZeros samples nLooks beams := rfl
    have e1 : out.start = some s := by rw [hout]; unfold compute; simp only [← hacc, hs, ht]
    have e2 : out.stop = some t := by rw [hout]; unfold compute; simp only [← hacc, hs, ht]
    have e3 : out.nStartStop = t - s + 1 := by
      rw [hout]; unfold compute; simp only [← hacc, hs, ht]; omega
    have e4 : out.startLook = bs.look := by
      rw [hout]; unfold compute; simp only [← hacc, hs, ht, hbs]; rfl
    have e5 : out.stopLook = bt.look := by
      rw [hout]; unfold compute; simp only [← hacc, hs, ht, hbt]; rfl
    have e6 : out.vectorStartStop = ((beams.map (·.vector)).drop s).take (t + 1 - s) ++
        List.replicate (nLooks - (t + 1 - s)) 0 := by
      rw [hout]; unfold compute; simp only [← hacc, hs, ht]
    refine ⟨s, t, bs, bt, e1, e2, hbs, hbt, hbsv, hbtv, hbetween, e3, ?_, e4, e5, ?_⟩
    · -- every contributing beam is in the window
      rw [hn, r2, e3]
      have hsplit : beams = beams.take s ++ ((beams.drop s).take (t - s + 1) ++ (beams.drop s).drop (t - s + 1)) := by
        rw [List.take_append_drop, List.take_append_drop]
      have z1 : (beams.take s).filter (fun b => decide (b.vector ≠ 0)) = [] := by
        rw [List.filter_eq_nil_iff]
        intro b hb
        obtain ⟨j, hj⟩ := List.getElem?_of_mem hb
        have hjs : j < s := by
          have := (List.getElem?_eq_some_iff.1 hj).1
          simp at this; omega
        rw [List.getElem?_take, if_pos hjs] at hj
        simp [hfirst j b hjs hj]
      have z2 : ((beams.drop s).drop (t - s + 1)).filter (fun b => decide (b.vector ≠ 0)) = [] := by
        rw [List.filter_eq_nil_iff]
        intro b hb
        obtain ⟨j, hj⟩ := List.getElem?_of_mem hb
        rw [List.drop_drop, List.getElem?_drop] at hj
        simp [hlast _ b (by omega) hj]
      rw [hsplit, List.filter_append, List.filter_append, z1, z2]
      simp only [List.nil_append, List.append_nil, Nat.zero_add]
      refine (List.length_filter_le _ _).trans ?_
      simp
    · intro k hk
      rw [e3] at hk
      have hlen : (((beams.map (·.vector)).drop s).take (t + 1 - s)).length = t + 1 - s := by
        simp; omega
      rw [e6, List.getElem?_append_left (by omega), List.getElem?_take, if_pos (by omega),
        List.getElem?_drop, List.getElem?_map]

/-- **C35 (burst indices).**  The start and stop burst indices are always those of the first and last
burst of the stack, also when these are masked out. -/
theorem burst_indices_of_whole_stack (avoidZeros : Bool) (samples nLooks : Nat) (first last : Beam R)
    (mid : List (Beam R)) (h : ∃ b ∈ first :: mid ++ [last], b.vector ≠ 0) :
    (compute avoidZeros samples nLooks (first :: mid ++ [last])).startBurst = first.seqCount ∧
    (compute avoidZeros samples nLooks (first :: mid ++ [last])).stopBurst = last.seqCount := by
  obtain ⟨_, _, h3⟩ := start_stop_spec avoidZeros samples nLooks (first :: mid ++ [last])
  obtain ⟨s, t, _, _, hs, ht, _⟩ := h3 h
  unfold compute at hs ht ⊢
  simp only at hs ht ⊢
  split at hs
  · rename_i h1 h2
    constructor
    · simp
    · simp
  · simp at hs

example : let out := compute true 2 4 exBeams
    out.start = some 0 ∧ out.stop = some 2 ∧ out.nStartStop = 3 ∧ out.nBeams = 2 ∧
    out.vectorStartStop = [1, 0, 1, 0] := by decide +kernel

/-! ## C36 -/

/-- **C36 violated at tabulated angles:** table 0, 1, 2 with weights 1, 2, 3; at angle 1 the weight is 1
instead of 2. -/
theorem weight_at_table_angle_violated : selectWeight [0, 1, 2] [1, 2, 3] 1 (1 : ℚ) = .ok 1 := by
  decide +kernel

/-- **C36 violated between them:** at angle 1/2 between the weights 2 and 3 the weight is 1/2. -/
theorem weight_between_violated : selectWeight [0, 1] [2, 3] 1 (1/2 : ℚ) = .ok (1/2) := by
  decide +kernel

/-- **C36, what holds:** outside the table and at its ends the end weights are used. -/
theorem weight_outside_partial [FloorRing R] (angles weights : List R) (spacing angle a0 a1 w0 w1 : R)
    (h0 : angles.head? = some a0) (h1 : angles.getLast? = some a1) (h2 : weights.head? = some w0)
    (h3 : weights.getLast? = some w1) :
    (angle ≤ a0 → selectWeight angles weights spacing angle = .ok w0) ∧
    (a0 < angle → a1 ≤ angle → selectWeight angles weights spacing angle = .ok w1) := by
  unfold selectWeight
  simp only [h0, h1, h2, h3]
  constructor
  · intro h; rw [if_pos h]
  · intro h h'; rw [if_neg (not_le.2 h), if_pos h']

/-- A table of equal weights gives that weight at every angle (evenly spaced table). -/
theorem constant_weights_partial [FloorRing R] [IsStrictOrderedRing R] (n : Nat) (a0 spacing w angle : R)
    (hs : 0 < spacing) :
    selectWeight ((List.range (n + 1)).map (fun i => a0 + spacing * i)) (List.replicate (n + 1) w)
      spacing angle = .ok w := by
  unfold selectWeight
  have h0 : ((List.range (n + 1)).map (fun i => a0 + spacing * (i : R))).head? = some a0 := by
    simp [List.range_succ_eq_map]
  have h1 : ((List.range (n + 1)).map (fun i => a0 + spacing * (i : R))).getLast? = some (a0 + spacing * n) := by
    simp [List.range_succ]
  have h2 : (List.replicate (n + 1) w).head? = some w := by simp [List.replicate_succ]
  have h3 : (List.replicate (n + 1) w).getLast? = some w := by simp [List.getLast?_replicate]
  simp only [h0, h1, h2, h3]
  split_ifs with c1 c2
  · rfl
  · rfl
  · have hq0 : 0 ≤ (angle - a0) / spacing := div_nonneg (by linarith [not_le.1 c1]) hs.le
    have hq : (angle - a0) / spacing < n := by
      rw [div_lt_iff₀ hs]
      have := not_le.1 c2
      linarith
    have hf : ⌊(angle - a0) / spacing⌋ < n := by
      have := Int.floor_le ((angle - a0) / spacing)
      have h' : ((⌊(angle - a0) / spacing⌋ : Int) : R) < ((n : Int) : R) := by push_cast; linarith
      exact_mod_cast h'
    have hf0 : 0 ≤ ⌊(angle - a0) / spacing⌋ := Int.floor_nonneg.2 hq0
    have hi : ⌊(angle - a0) / spacing⌋.toNat < n := by omega
    simp [List.getElem?_replicate, show ⌊(angle - a0) / spacing⌋.toNat < n + 1 by omega,
      show ⌊(angle - a0) / spacing⌋.toNat + 1 < n + 1 by omega]

/-! ## C65 -/

/-- **C65.**  The beams used for the Gaussian fit are beams of the stack, include the one closest to
nadir, and are at most 249. -/
theorem fit_window_spec (closest maxStack : Int) (h0 : 0 ≤ closest) (h1 : closest < maxStack) :
    let w := fitWindow closest maxStack
    0 ≤ w.1 ∧ w.1 ≤ closest ∧ closest ≤ w.2.1 ∧ w.2.1 < maxStack ∧ 1 ≤ w.2.2 ∧ w.2.2 ≤ 249 ∧
    (124 ≤ closest → closest + 124 < maxStack → w.2.2 = 249) := by
  unfold fitWindow
  simp only
  omega

end Dedop.Multilook
