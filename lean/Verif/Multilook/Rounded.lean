import Verif.Basic.Rounding
import Verif.Multilook.Model

/-!
# The average over the beams in floating-point numbers (property C164)

`compute_multilooking` of `/repo/dedop/proc/sar/algorithms/multilooking.py` with every operation on powers rounded.
-/
namespace Dedop.Multilook

/-! ## Model -/

/-- One turn of the loop (`multilooking.py:257-273`) as `turn`, with the product and the sum rounded.  The counters are numbers of beams, which are
exact. -/
def turnFl (fl : ℚ → ℚ) (avoidZeros : Bool) (samples : Nat) (a : Acc ℚ) (i : Nat) (b : Beam ℚ) : Acc ℚ :=
  if b.vector ≠ 0 then
    let inc := increments avoidZeros samples b
    { turn avoidZeros samples a i b with
      sum := List.zipWith (fun s x => fl (s + x)) a.sum (List.zipWith (fun p (m : Nat) => fl (p * (m : ℚ))) b.power inc) }
  else a

/-- The loop over the beams (`multilooking.py:255-273`). -/
def loopFl (fl : ℚ → ℚ) (avoidZeros : Bool) (samples : Nat) : Nat → Acc ℚ → List (Beam ℚ) → Acc ℚ
  | _, a, [] => a
  | i, a, b :: rest => loopFl fl avoidZeros samples (i + 1) (turnFl fl avoidZeros samples a i b) rest

/-- Division of a sample by its counter, rounded: 0/0 is NaN (`multilooking.py:275`). -/
def divideFl (fl : ℚ → ℚ) (s : ℚ) (n : Nat) : Option ℚ := if n = 0 then none else some (fl (s / n))

/-- `waveform_multilooked` (`multilooking.py:233-275`). -/
def waveformFl (fl : ℚ → ℚ) (avoidZeros : Bool) (samples : Nat) (beams : List (Beam ℚ)) : List (Option ℚ) :=
  let a := loopFl fl avoidZeros samples 0 ⟨List.replicate samples 0, List.replicate samples 0, 0, none, none⟩ beams
  List.zipWith (divideFl fl) a.sum a.counter

/-! ## Specification -/

/-- Two samples of a waveform: both are NaN, or both are numbers with this relation. -/
def Both (P : ℚ → ℚ → Prop) : Option ℚ → Option ℚ → Prop
  | none, none => True
  | some x, some y => P x y
  | _, _ => False

/-- No power is negative. -/
def Powers (beams : List (Beam ℚ)) : Prop := ∀ b ∈ beams, ∀ p ∈ b.power, 0 ≤ p

/-- Beams which differ in their powers only, these being related. -/
def SameBut (P : ℚ → ℚ → Prop) (b c : Beam ℚ) : Prop :=
  b.vector = c.vector ∧ b.mask = c.mask ∧ List.Forall₂ P b.power c.power

/-- The same beams, the powers multiplied. -/
def times (x : ℚ) (beams : List (Beam ℚ)) : List (Beam ℚ) := beams.map fun b => { b with power := b.power.map (x * ·) }

/-! ## Proofs -/

theorem zipWith_rel {A B C A' B' C' : Type} {P : A → A' → Prop} {Q : B → B' → Prop} {S : C → C' → Prop} {f : A → B → C} {g : A' → B' → C'}
    (hfg : ∀ a a' b b', P a a' → Q b b' → S (f a b) (g a' b')) {l : List A} {l' : List A'} (h : List.Forall₂ P l l') :
    ∀ {m : List B} {m' : List B'}, List.Forall₂ Q m m' → List.Forall₂ S (List.zipWith f l m) (List.zipWith g l' m') := by
  induction h with
  | nil => intro m m' _; simp
  | cons h _ ih =>
    intro m m' hm
    cases hm with
    | nil => simp
    | cons h' hm => exact .cons (hfg _ _ _ _ h h') (ih hm)

theorem same_refl {A : Type} {P : A → A → Prop} (l : List A) (h : ∀ a ∈ l, P a a) : List.Forall₂ P l l := by
  induction l with
  | nil => exact .nil
  | cons a l ih => exact .cons (h a (by simp)) (ih fun b hb => h b (by simp [hb]))

theorem inc_le (av : Bool) (n : Nat) (b : Beam ℚ) : ∀ m ∈ increments av n b, m = 0 ∨ m = 1 := by
  intro m hm
  unfold increments at hm
  split at hm
  · obtain ⟨x, _, rfl⟩ := List.mem_map.mp hm
    cases x <;> simp
  · exact Or.inr (List.eq_of_mem_replicate hm)

theorem loop_close (R : Rounding) (av : Bool) (n : Nat) (beams : List (Beam ℚ)) : ∀ (i k : Nat) (a b : Acc ℚ), Powers beams → 1 ≤ k →
    a.counter = b.counter → List.Forall₂ (fun x y => 0 ≤ x ∧ 0 ≤ y ∧ Close R.u k x y) a.sum b.sum →
    (loopFl R.fl av n i a beams).counter = (loop av n i b beams).counter ∧
    List.Forall₂ (fun x y => 0 ≤ x ∧ 0 ≤ y ∧ Close R.u (k + beams.length) x y) (loopFl R.fl av n i a beams).sum (loop av n i b beams).sum := by
  induction beams with
  | nil => intro i k a b _ _ hc hs; exact ⟨hc, hs⟩
  | cons c beams ih =>
    intro i k a b hp hk hc hs
    simp only [loopFl, loop, List.length_cons]
    rw [show k + (beams.length + 1) = k + 1 + beams.length by omega]
    apply ih (i + 1) (k + 1) _ _ (fun b hb => hp b (by simp [hb])) (by omega)
    · unfold turnFl turn
      split <;> simp [hc]
    · unfold turnFl turn
      split
      · dsimp only
        refine zipWith_rel ?_ hs (zipWith_rel (P := fun x y => x = y ∧ 0 ≤ y) (Q := fun x y => x = y)
          (S := fun x y => 0 ≤ x ∧ 0 ≤ y ∧ Close R.u 1 x y) ?_ (same_refl _ fun x hx => ⟨rfl, hp c (by simp) x hx⟩) (same_refl _ fun _ _ => rfl))
        · rintro x x' y y' ⟨h1, h2, h3⟩ ⟨h4, h5, h6⟩
          exact ⟨R.nonneg _ (add_nonneg h1 h4), add_nonneg h2 h5, (h3.add R.u_nonneg (h6.le R.u_nonneg h5 hk)).fl R (add_nonneg h1 h4)⟩
        · rintro x x' y y' ⟨rfl, hx⟩ rfl
          have : 0 ≤ x * (y : ℚ) := by positivity
          exact ⟨R.nonneg _ this, this, (Close.rfl' R.u_nonneg _).fl R this⟩
      · refine hs.imp ?_
        rintro x y ⟨h1, h2, h3⟩
        exact ⟨h1, h2, h3.le R.u_nonneg h2 (by omega)⟩

/-- **C164.**  Each sample of the waveform is NaN exactly if it is without rounding; otherwise it is not negative and differs from the exact average
by a part of it that grows with the number of beams only. -/
theorem rounded_average (R : Rounding) (av : Bool) (n looks : Nat) (beams : List (Beam ℚ)) (hp : Powers beams) :
    List.Forall₂ (Both fun x y => 0 ≤ x ∧ 0 ≤ y ∧ |x - y| ≤ ((1 + R.u) ^ (beams.length + 2) - 1) * y)
      (waveformFl R.fl av n beams) (compute av n looks beams).waveform := by
  have hw : (compute av n looks beams).waveform =
      let a := loop av n 0 ⟨List.replicate n 0, List.replicate n 0, 0, none, none⟩ beams
      List.zipWith divide a.sum a.counter := by
    unfold compute
    dsimp only
    split <;> rfl
  rw [hw]
  obtain ⟨h1, h2⟩ := loop_close R av n beams 0 1 ⟨List.replicate n 0, List.replicate n 0, 0, none, none⟩
    ⟨List.replicate n 0, List.replicate n 0, 0, none, none⟩ hp le_rfl rfl (same_refl _ fun x hx => by
      rw [List.eq_of_mem_replicate hx]; simp [Close])
  unfold waveformFl
  dsimp only
  rw [h1]
  refine zipWith_rel ?_ h2 (same_refl (P := fun x y => x = y) _ fun _ _ => rfl)
  rintro x y m _ ⟨h3, h4, h5⟩ rfl
  unfold divideFl divide
  by_cases hm : m = 0
  · simp [hm, Both]
  · have hm' : (0 : ℚ) < m := by exact_mod_cast Nat.pos_of_ne_zero hm
    simp only [hm, if_false, Both]
    have h6 : 0 ≤ x / m := by positivity
    refine ⟨R.nonneg _ h6, by positivity, ?_⟩
    have := (h5.div R.u_nonneg m hm').fl R h6
    rwa [show 1 + beams.length + 1 = beams.length + 2 by omega] at this

theorem forall₂_imp {A B : Type} {P Q : A → B → Prop} (h : ∀ a b, P a b → Q a b) {l : List A} {m : List B} (hl : List.Forall₂ P l m) :
    List.Forall₂ Q l m := hl.imp h

theorem Both.imp {P Q : ℚ → ℚ → Prop} (h : ∀ x y, P x y → Q x y) : ∀ a b, Both P a b → Both Q a b
  | none, none, _ => trivial
  | some x, some y, hb => h x y hb
  | none, some _, hb => hb
  | some _, none, hb => hb

/-- **C164** for numbers of 53 binary digits and up to a million beams: the error is less than a part in a thousand million, and a sample is zero
exactly if the exact average is. -/
theorem float_average (av : Bool) (n looks : Nat) (beams : List (Beam ℚ)) (hp : Powers beams) (hn : beams.length ≤ 10 ^ 6) :
    List.Forall₂ (Both fun x y => 0 ≤ x ∧ |x - y| ≤ y / 10 ^ 9 ∧ (x = 0 ↔ y = 0)) (waveformFl (binary 52) av n beams)
      (compute av n looks beams).waveform := by
  have h := rounded_average (binaryRounding 52) av n looks beams hp
  refine forall₂_imp (Both.imp ?_) h
  rintro x y ⟨h1, h2, h3⟩
  have hb : (1 + (binaryRounding 52).u) ^ (beams.length + 2) - 1 ≤ 1 / 10 ^ 9 := by
    have hle : ((beams.length + 2 : ℕ) : ℚ) ≤ 10 ^ 6 + 2 := by
      have : (beams.length : ℚ) ≤ ((10 ^ 6 : ℕ) : ℚ) := Nat.cast_le.mpr hn
      push_cast at this ⊢
      linarith
    have hu : ((beams.length + 2 : ℕ) : ℚ) * (binaryRounding 52).u ≤ (10 ^ 6 + 2) * (1 / 2 ^ 53) :=
      mul_le_mul_of_nonneg_right hle (by norm_num [binaryRounding])
    have := pow_bound_two (binaryRounding 52).u_nonneg (beams.length + 2) (le_trans hu (by norm_num))
    refine le_trans this (le_trans (mul_le_mul_of_nonneg_left hu (by norm_num)) (by norm_num))
  have h4 : |x - y| ≤ y / 10 ^ 9 := by
    refine le_trans h3 ?_
    rw [div_eq_inv_mul, ← one_div]
    exact mul_le_mul_of_nonneg_right hb h2
  refine ⟨h1, h4, ?_, ?_⟩
  · rintro rfl
    rw [zero_sub, abs_neg, abs_of_nonneg h2] at h4
    have : y * (1 - 1 / 10 ^ 9) ≤ 0 := by linarith
    nlinarith
  · rintro rfl
    simpa using h4

theorem loop_mono (R : Rounding) (av : Bool) (n : Nat) (beams beams' : List (Beam ℚ)) (h : List.Forall₂ (SameBut fun x y => 0 ≤ x ∧ x ≤ y) beams beams') :
    ∀ (i : Nat) (a b : Acc ℚ), a.counter = b.counter → List.Forall₂ (fun x y => 0 ≤ x ∧ x ≤ y) a.sum b.sum →
    (loopFl R.fl av n i a beams).counter = (loopFl R.fl av n i b beams').counter ∧
    List.Forall₂ (fun x y => 0 ≤ x ∧ x ≤ y) (loopFl R.fl av n i a beams).sum (loopFl R.fl av n i b beams').sum := by
  induction h with
  | nil => intro i a b hc hs; exact ⟨hc, hs⟩
  | @cons c d l l' hcd _ ih =>
    intro i a b hc hs
    obtain ⟨e1, e2, e3⟩ := hcd
    have ei : increments av n c = increments av n d := by simp [increments, e2]
    simp only [loopFl]
    apply ih
    · unfold turnFl turn
      rw [e1, ei]
      split <;> simp [hc]
    · unfold turnFl turn
      rw [e1, ei]
      split
      · dsimp only
        refine zipWith_rel ?_ hs (zipWith_rel (Q := fun x y => x = y) (S := fun x y => 0 ≤ x ∧ x ≤ y) ?_ e3 (same_refl _ fun _ _ => rfl))
        · rintro x x' y y' ⟨h1, h2⟩ ⟨h3, h4⟩
          exact ⟨R.nonneg _ (add_nonneg h1 h3), R.mono _ _ (add_nonneg h1 h3) (add_le_add h2 h4)⟩
        · rintro x x' y y' ⟨h1, h2⟩ rfl
          have : 0 ≤ x * (y : ℚ) := by positivity
          exact ⟨R.nonneg _ this, R.mono _ _ this (by gcongr)⟩
      · exact hs

/-- **C164.**  In spite of the rounding, raising powers never lowers a sample of the waveform, not by the last digit. -/
theorem rounded_average_mono (R : Rounding) (av : Bool) (n : Nat) (beams beams' : List (Beam ℚ))
    (h : List.Forall₂ (SameBut fun x y => 0 ≤ x ∧ x ≤ y) beams beams') :
    List.Forall₂ (Both (· ≤ ·)) (waveformFl R.fl av n beams) (waveformFl R.fl av n beams') := by
  obtain ⟨h1, h2⟩ := loop_mono R av n beams beams' h 0 ⟨List.replicate n 0, List.replicate n 0, 0, none, none⟩
    ⟨List.replicate n 0, List.replicate n 0, 0, none, none⟩ rfl (same_refl _ fun x hx => by rw [List.eq_of_mem_replicate hx]; simp)
  unfold waveformFl
  dsimp only
  rw [h1]
  refine zipWith_rel ?_ h2 (same_refl (P := fun x y => x = y) _ fun _ _ => rfl)
  rintro x y m _ ⟨h3, h4⟩ rfl
  unfold divideFl
  by_cases hm : m = 0
  · simp [hm, Both]
  · simp only [hm, if_false, Both]
    exact R.mono _ _ (by positivity) (by gcongr)

theorem binary_scale (p : Nat) (k : ℤ) (x : ℚ) : binary p (2 ^ k * x) = 2 ^ k * binary p x := by
  have hk : (0 : ℚ) < 2 ^ k := by positivity
  rcases le_or_gt x 0 with h | h
  · have h' : 2 ^ k * x ≤ 0 := mul_nonpos_of_nonneg_of_nonpos hk.le h
    rw [binary, binary, if_pos h, if_pos h', mul_zero]
  · have h' : 0 < 2 ^ k * x := by positivity
    have hlog : Int.log 2 (2 ^ k * x) = k + Int.log 2 x := by
      have h1 := Int.zpow_log_le_self (b := 2) (by norm_num) h
      have h2 := Int.lt_zpow_succ_log_self (b := 2) (by norm_num) x
      norm_num at h1 h2
      apply le_antisymm
      · have : (2 ^ k * x) < ((2 : ℕ) : ℚ) ^ (k + Int.log 2 x + 1) := by
          calc 2 ^ k * x < 2 ^ k * 2 ^ (Int.log 2 x + 1) := by gcongr
            _ = _ := by rw [← zpow_add₀ (by norm_num)]; push_cast; congr 1; ring
        have := (Int.lt_zpow_iff_log_lt (by norm_num) h').mp this
        omega
      · have : ((2 : ℕ) : ℚ) ^ (k + Int.log 2 x) ≤ 2 ^ k * x := by
          push_cast
          rw [zpow_add₀ (by norm_num)]
          gcongr
        exact (Int.zpow_le_iff_le_log (by norm_num) h').mp this
    rw [binary, binary, if_neg (not_le.mpr h), if_neg (not_le.mpr h'), hlog, show k + Int.log 2 x - p = k + (Int.log 2 x - p) by ring,
      zpow_add₀ (by norm_num), mul_div_mul_left _ _ hk.ne']
    ring

theorem loop_scale (p : Nat) (k : ℤ) (av : Bool) (n : Nat) (beams : List (Beam ℚ)) : ∀ (i : Nat) (a b : Acc ℚ), a.counter = b.counter →
    a.sum = b.sum.map (2 ^ k * ·) →
    (loopFl (binary p) av n i a (times (2 ^ k) beams)).counter = (loopFl (binary p) av n i b beams).counter ∧
    (loopFl (binary p) av n i a (times (2 ^ k) beams)).sum = (loopFl (binary p) av n i b beams).sum.map (2 ^ k * ·) := by
  induction beams with
  | nil => intro i a b hc hs; exact ⟨hc, hs⟩
  | cons c beams ih =>
    intro i a b hc hs
    have e : times (2 ^ k) (c :: beams) = { c with power := c.power.map (2 ^ k * ·) } :: times (2 ^ k) beams := rfl
    rw [e]
    simp only [loopFl]
    apply ih
    · unfold turnFl turn increments
      dsimp only
      split <;> simp [hc]
    · unfold turnFl turn increments
      dsimp only
      split
      · dsimp only
        rw [hs, List.zipWith_map_left, List.zipWith_map_left, List.map_zipWith]
        generalize (if av = true then List.map (fun m => if m = true then 1 else 0) c.mask else List.replicate n 1) = inc
        have key : ∀ (l : List ℚ) (ms : List Nat), List.zipWith (fun x (y : Nat) => binary p (2 ^ k * x * (y : ℚ))) l ms =
            (List.zipWith (fun x (y : Nat) => binary p (x * (y : ℚ))) l ms).map (2 ^ k * ·) := by
          intro l ms
          rw [List.map_zipWith]
          congr 1
          funext x y
          rw [mul_assoc, binary_scale]
        rw [key, List.zipWith_map_right]
        congr 1
        funext x y
        rw [← mul_add, binary_scale]
      · exact hs

/-- **C164.**  Multiplying all powers by a power of two multiplies the waveform by it exactly: the rounding is the same at every scale. -/
theorem rounded_average_scales (p : Nat) (k : ℤ) (av : Bool) (n : Nat) (beams : List (Beam ℚ)) :
    waveformFl (binary p) av n (times (2 ^ k) beams) = (waveformFl (binary p) av n beams).map (Option.map (2 ^ k * ·)) := by
  obtain ⟨h1, h2⟩ := loop_scale p k av n beams 0 ⟨List.replicate n 0, List.replicate n 0, 0, none, none⟩
    ⟨List.replicate n 0, List.replicate n 0, 0, none, none⟩ rfl (by simp)
  unfold waveformFl
  dsimp only
  rw [h1, h2, List.zipWith_map_left, List.map_zipWith]
  congr 1
  funext x m
  unfold divideFl
  split
  · rfl
  · rw [Option.map_some, mul_div_assoc, binary_scale]

/-- Without rounding the average is that of the model (C52 ff.). -/
theorem unrounded (av : Bool) (n looks : Nat) (beams : List (Beam ℚ)) : waveformFl id av n beams = (compute av n looks beams).waveform := by
  have h : ∀ (beams : List (Beam ℚ)) (i : Nat) (a : Acc ℚ), loopFl id av n i a beams = loop av n i a beams := by
    intro beams
    induction beams with
    | nil => intro i a; rfl
    | cons b beams ih =>
      intro i a
      simp only [loopFl, loop, ih]
      congr 1
      unfold turnFl turn
      split <;> rfl
  unfold waveformFl compute
  rw [h]
  dsimp only
  split <;> rfl

/-! ## Cases -/

/-- Three beams, one masked out, with a sample no beam has. -/
def demoBeams : List (Beam ℚ) :=
  [⟨1, [true, true, false], [1 / 3, 5, 7], 0, 0, 0, 0, 0⟩, ⟨0, [true, true, true], [9, 9, 9], 0, 0, 0, 0, 1⟩,
   ⟨1, [true, false, false], [1, 0, 0], 0, 0, 0, 0, 2⟩]

example : Powers demoBeams ∧ demoBeams.length ≤ 10 ^ 6 ∧ (compute true 3 3 demoBeams).waveform = [some (2 / 3), some 5, none] ∧
    waveformFl (binary 52) true 3 demoBeams ≠ (compute true 3 3 demoBeams).waveform ∧
    waveformFl (binary 2) true 3 demoBeams = [some (5 / 8), some 5, none] := by
  refine ⟨by unfold Powers; decide +kernel, by decide +kernel, by decide +kernel, by decide +kernel, by decide +kernel⟩

end Dedop.Multilook
