import Verif.Monitor.Rounded
import Verif.Monitor.Props

/-!
# Progress in floating-point numbers (property C162)
-/
namespace Dedop.Monitor

/-! ## Amounts -/

theorem feed_close (R : Rounding) (p : Prog) (hp : p.Positive) :
    ∀ (k : Nat) (climb : ℚ → ℚ) (s : ℚ), 0 ≤ s → (∀ x, 0 ≤ x → 0 ≤ climb x ∧ Close R.u k (climb x) (s * x)) →
      List.Forall₂ (fun a b => 0 ≤ a ∧ 0 ≤ b ∧ Close R.u (k + 2 * p.depth) a b) (p.feed R.fl climb) (p.feed id (fun x => s * x)) := by
  induction p with
  | nil => intros; exact .nil
  | progress w m rest ih =>
    intro k climb s hs h
    simp only [Prog.feed, Prog.depth]
    have hw : 0 ≤ s * w := mul_nonneg hs hp.1
    exact .cons ⟨(h w hp.1).1, hw, (h w hp.1).2.le R.u_nonneg hw (by omega)⟩ (ih hp.2 k climb s hs h)
  | sub w l total body rest ihb ihr =>
    intro k climb s hs h
    obtain ⟨hw, ht, hb, hr⟩ := hp
    simp only [Prog.feed, Prog.depth]
    have zero : 0 ≤ climb 0 ∧ 0 ≤ s * 0 ∧ Close R.u (k + 2 * max (body.depth + 1) rest.depth) (climb 0) (s * 0) :=
      ⟨(h 0 le_rfl).1, by simp, (h 0 le_rfl).2.le R.u_nonneg (by simp) (by omega)⟩
    refine .cons zero (List.rel_append ?_ (.cons zero ?_))
    · have := ihb hb (k + 2) (fun x => climb (R.fl (w * R.fl (x / total)))) (s * (w / total)) (by positivity) (by
        intro x hx
        have hq : 0 ≤ x / total := by positivity
        have h1 : Close R.u 1 (R.fl (x / total)) (x / total) := (Close.rfl' R.u_nonneg _).fl R hq
        have hm : 0 ≤ w * R.fl (x / total) := mul_nonneg hw (R.nonneg _ hq)
        have h2 : Close R.u 2 (R.fl (w * R.fl (x / total))) (w * (x / total)) := (h1.mul R.u_nonneg w hw).fl R hm
        have hy := h _ (R.nonneg _ hm)
        refine ⟨hy.1, ?_⟩
        have := hy.2.trans R.u_nonneg (h2.mul R.u_nonneg s hs)
        rwa [show s * (w * (x / total)) = s * (w / total) * x by ring] at this)
      have e : (fun x => s * (w / total) * x) = (fun x => s * id (w * id (x / total))) := by
        funext x
        simp only [id]
        ring
      rw [e] at this
      refine this.imp ?_
      rintro a b ⟨ha, hb', hc⟩
      exact ⟨ha, hb', hc.le R.u_nonneg hb' (by omega)⟩
    · refine (ihr hr k climb s hs h).imp ?_
      rintro a b ⟨ha, hb', hc⟩
      exact ⟨ha, hb', hc.le R.u_nonneg hb' (by omega)⟩

theorem feed_length (fl : ℚ → ℚ) (p : Prog) : ∀ climb, (p.feed fl climb).length = p.size := by
  induction p with
  | nil => intro climb; rfl
  | progress w m rest ih => intro climb; simp [Prog.feed, Prog.size, ih]
  | sub w l total body rest ihb ihr =>
    intro climb
    simp only [Prog.feed, Prog.size, List.length_cons, List.length_append, ihb, ihr]
    omega

theorem feed_sum (p : Prog) : ∀ s, (p.feed id (fun x => s * x)).sum = s * p.effective := by
  induction p with
  | nil => intro s; simp [Prog.feed, Prog.effective]
  | progress w m rest ih => intro s; simp only [Prog.feed, Prog.effective, List.sum_cons, ih]; ring
  | sub w l total body rest ihb ihr =>
    intro s
    have e : (fun x => s * id (w * id (x / total))) = (fun x => s * (w / total) * x) := by
      funext x
      simp only [id]
      ring
    simp only [Prog.feed, Prog.effective, List.sum_cons, List.sum_append, ihr]
    rw [e, ihb]
    ring

theorem addUp_id (l : List ℚ) : ∀ w, addUp id w l = w + l.sum := by
  induction l with
  | nil => intro w; simp [addUp]
  | cons a l ih => intro w; simp only [addUp, id, ih, List.sum_cons]; ring

/-! ## The percentages -/

/-- The exact percentage before rounding to a whole number, for each call. -/
theorem shown_forall (R : Rounding) (T : ℚ) (hT : 0 < T) (P : ℤ → ℤ → Prop) (M : Nat) (m : Nat)
    (hP : ∀ k a b, k ≤ M → 0 ≤ a → 0 ≤ b → b ≤ T → Close R.u k a b → P (percent R.fl T a) (percent id T b))
    (l l' : List ℚ) (h : List.Forall₂ (fun a b => 0 ≤ a ∧ 0 ≤ b ∧ Close R.u m a b) l l') :
    ∀ k w w', m ≤ k → k + l.length ≤ M → 0 ≤ w → 0 ≤ w' → w' + l'.sum ≤ T → Close R.u k w w' →
      List.Forall₂ P (shown R.fl T w l) (shown id T w' l') := by
  induction h with
  | nil => intros; exact .nil
  | @cons a b l l' hab hl ih =>
    intro k w w' hmk hM hw hw' hs hc
    simp only [List.length_cons] at hM
    simp only [List.sum_cons] at hs
    obtain ⟨ha, hb, hcab⟩ := hab
    have hl' : 0 ≤ l'.sum := by
      clear ih hM hs
      induction hl with
      | nil => simp
      | cons h _ ih => simp only [List.sum_cons]; exact add_nonneg h.2.1 ih
    have h1 : Close R.u (k + 1) (R.fl (w + a)) (w' + b) :=
      (hc.add R.u_nonneg (hcab.le R.u_nonneg hb hmk)).fl R (add_nonneg hw ha)
    have h2 := R.nonneg _ (add_nonneg hw ha)
    have h3 := add_nonneg hw' hb
    refine .cons (hP (k + 1) _ _ (by omega) h2 h3 (by simp only [id]; linarith) h1) ?_
    exact ih (k + 1) _ _ (by omega) (by omega) h2 h3 (by simp only [id]; linarith) h1

/-- The value that is rounded to a whole number differs from the exact one by less than one half. -/
theorem percent_value (R : Rounding) (T : ℚ) (hT : 0 < T) (k : Nat) (a b : ℚ) (hk : ((k + 2 : ℕ) : ℚ) * R.u ≤ 1 / 202) (ha : 0 ≤ a) (hb : 0 ≤ b)
    (hbT : b ≤ T) (hc : Close R.u k a b) : |R.fl (R.fl (100 * a) / T) - 100 * b / T| < 1 / 2 := by
  have h100 : (0 : ℚ) ≤ 100 * a := by positivity
  have h1 := (hc.mul R.u_nonneg 100 (by norm_num)).fl R h100
  have h2 := (h1.div R.u_nonneg T hT).fl R (div_nonneg (R.nonneg _ h100) hT.le)
  have h3 := pow_bound R.u_nonneg _ hk
  have h4 : 100 * b / T ≤ 100 := by rw [div_le_iff₀ hT]; linarith
  have h5 : 0 ≤ 100 * b / T := by positivity
  refine lt_of_le_of_lt h2 ?_
  calc ((1 + R.u) ^ (k + 1 + 1) - 1) * (100 * b / T) ≤ 1 / 201 * 100 := by
        apply mul_le_mul h3 h4 h5 (by norm_num)
    _ < 1 / 2 := by norm_num

theorem pyRound_close (x y : ℚ) (h : |x - y| < 1 / 2) : |pyRound x - pyRound y| ≤ 1 := by
  have h1 := (pyRound_nearest x).1
  have h2 := (pyRound_nearest y).1
  rw [abs_le] at h1 h2
  rw [abs_lt] at h
  have a1 : (pyRound x : ℚ) - pyRound y < 2 := by linarith
  have a2 : (-2 : ℚ) < (pyRound x : ℚ) - pyRound y := by linarith
  have b1 : pyRound x - pyRound y < 2 := by exact_mod_cast a1
  have b2 : -2 < pyRound x - pyRound y := by exact_mod_cast a2
  rw [abs_le]
  omega

theorem pyRound_int_close (x : ℚ) (n : ℤ) (h : |x - n| < 1 / 2) : pyRound x = n := by
  have h1 := (pyRound_nearest x).1
  rw [abs_le] at h1
  rw [abs_lt] at h
  have a1 : (pyRound x : ℚ) - n < 1 := by linarith
  have a2 : (-1 : ℚ) < (pyRound x : ℚ) - n := by linarith
  have b1 : pyRound x - n < 1 := by exact_mod_cast a1
  have b2 : -1 < pyRound x - n := by exact_mod_cast a2
  omega

theorem feed_id_eq (p : Prog) : p.feed id id = p.feed id (fun x => 1 * x) := by
  congr 1
  funext x
  simp

theorem feed_pairs (R : Rounding) (p : Prog) (hp : p.Positive) :
    List.Forall₂ (fun a b => 0 ≤ a ∧ 0 ≤ b ∧ Close R.u (2 * p.depth) a b) (p.feed R.fl id) (p.feed id id) := by
  rw [feed_id_eq]
  have := feed_close R p hp 0 id 1 (by norm_num) (by
    intro x hx
    exact ⟨hx, by simp [Close]⟩)
  simpa using this

/-- Property C162, the arrival: whatever the rounding, each percentage shown differs by at most one from the exact one, and it is not above one
hundred, when the number of calls is not astronomical. -/
theorem rounded_near_exact (R : Rounding) (T : ℚ) (hT : 0 < T) (p : Prog) (hp : p.Positive) (hs : p.effective ≤ T)
    (hM : ((p.size + 2 * p.depth + 2 : ℕ) : ℚ) * R.u ≤ 1 / 202) :
    List.Forall₂ (fun a b => |a - b| ≤ 1 ∧ a ≤ 100) (shown R.fl T 0 (p.feed R.fl id)) (shown id T 0 (p.feed id id)) := by
  refine shown_forall R T hT _ (p.size + 2 * p.depth) (2 * p.depth) ?_ _ _ (feed_pairs R p hp) (2 * p.depth) 0 0 le_rfl ?_ le_rfl le_rfl ?_ ?_
  · intro k a b hk ha hb hbT hc
    have hk' : ((k + 2 : ℕ) : ℚ) * R.u ≤ 1 / 202 := by
      refine le_trans ?_ hM
      have : ((k + 2 : ℕ) : ℚ) ≤ ((p.size + 2 * p.depth + 2 : ℕ) : ℚ) := by exact_mod_cast (by omega)
      exact mul_le_mul_of_nonneg_right this R.u_nonneg
    have hv := percent_value R T hT k a b hk' ha hb hbT hc
    refine ⟨?_, ?_⟩
    · have := pyRound_close _ _ hv
      simpa [percent] using this
    · have h4 : 100 * b / T ≤ 100 := by rw [div_le_iff₀ hT]; linarith
      have h5 := (abs_lt.mp hv).2
      have h6 := (abs_le.mp (pyRound_nearest (R.fl (R.fl (100 * a) / T))).1).2
      have : ((pyRound (R.fl (R.fl (100 * a) / T)) : ℤ) : ℚ) < ((101 : ℤ) : ℚ) := by push_cast; linarith
      have := Int.cast_lt.mp this
      show pyRound _ ≤ 100
      omega
  · rw [feed_length]; omega
  · rw [zero_add, feed_id_eq, feed_sum, one_mul]; exact hs
  · simp [Close]

theorem addUp_close (R : Rounding) (m : Nat) (l l' : List ℚ) (h : List.Forall₂ (fun a b => 0 ≤ a ∧ 0 ≤ b ∧ Close R.u m a b) l l') :
    ∀ k w w', m ≤ k → 0 ≤ w → 0 ≤ w' → Close R.u k w w' →
      0 ≤ addUp R.fl w l ∧ Close R.u (k + l.length) (addUp R.fl w l) (w' + l'.sum) := by
  induction h with
  | nil => intro k w w' _ hw _ hc; simpa [addUp] using ⟨hw, hc⟩
  | @cons a b l l' hab hl ih =>
    intro k w w' hmk hw hw' hc
    obtain ⟨ha, hb, hcab⟩ := hab
    have h1 : Close R.u (k + 1) (R.fl (w + a)) (w' + b) :=
      (hc.add R.u_nonneg (hcab.le R.u_nonneg hb hmk)).fl R (add_nonneg hw ha)
    have := ih (k + 1) _ _ (by omega) (R.nonneg _ (add_nonneg hw ha)) (add_nonneg hw' hb) h1
    simp only [addUp, List.length_cons, List.sum_cons]
    rw [show k + (l.length + 1) = k + 1 + l.length by omega, ← add_assoc]
    exact this

/-- Property C162, the end: when all work announced has been done, exactly 100 % is shown in spite of the rounding. -/
theorem rounded_ends_at_100 (R : Rounding) (T : ℚ) (hT : 0 < T) (p : Prog) (hp : p.Positive) (hc : p.Complete) (hs : p.amount = T)
    (hM : ((p.size + 2 * p.depth + 2 : ℕ) : ℚ) * R.u ≤ 1 / 202) : percent R.fl T (addUp R.fl 0 (p.feed R.fl id)) = 100 := by
  obtain ⟨h0, h1⟩ := addUp_close R _ _ _ (feed_pairs R p hp) (2 * p.depth) 0 0 le_rfl le_rfl le_rfl (by simp [Close])
  rw [zero_add, feed_id_eq, feed_sum, one_mul, hc.effective, hs, feed_length] at h1
  have hv := percent_value R T hT _ _ T (by rw [Nat.add_comm (2 * p.depth)]; exact hM) h0 hT.le le_rfl h1
  rw [mul_div_assoc, div_self hT.ne', mul_one] at hv
  exact pyRound_int_close _ 100 (by exact_mod_cast hv)

theorem shown_last (fl : ℚ → ℚ) (T : ℚ) (l : List ℚ) : ∀ w, l ≠ [] → (shown fl T w l).getLast? = some (percent fl T (addUp fl w l)) := by
  induction l with
  | nil => intro w h; exact absurd rfl h
  | cons a l ih =>
    intro w _
    simp only [shown, addUp]
    rcases l with _ | ⟨b, l⟩
    · rfl
    · have := ih (fl (w + a)) (by simp)
      rw [← this]
      simp [shown]

/-- Property C162, the end: the last percentage shown. -/
theorem rounded_last_shown (R : Rounding) (T : ℚ) (hT : 0 < T) (p : Prog) (hp : p.Positive) (hc : p.Complete) (hs : p.amount = T)
    (hM : ((p.size + 2 * p.depth + 2 : ℕ) : ℚ) * R.u ≤ 1 / 202) : (shown R.fl T 0 (p.feed R.fl id)).getLast? = some 100 := by
  rw [shown_last _ _ _ _ ?_, rounded_ends_at_100 R T hT p hp hc hs hM]
  intro h
  have := congrArg List.length h
  rw [feed_length] at this
  have hz : p.amount = 0 := by
    cases p with
    | nil => rfl
    | progress => simp [Prog.size] at this
    | sub => simp [Prog.size] at this
  rw [hz] at hs
  exact hT.ne hs

theorem feed_nonneg (R : Rounding) (p : Prog) (hp : p.Positive) : ∀ a ∈ p.feed R.fl id, 0 ≤ a := by
  have := feed_pairs R p hp
  generalize p.feed R.fl id = l at *
  generalize p.feed id id = l' at *
  induction this with
  | nil => simp
  | cons h _ ih => simp only [List.forall_mem_cons]; exact ⟨h.1, ih⟩

theorem percent_mono (R : Rounding) (T : ℚ) (hT : 0 < T) (a b : ℚ) (ha : 0 ≤ a) (h : a ≤ b) : percent R.fl T a ≤ percent R.fl T b := by
  have h1 : R.fl (100 * a) ≤ R.fl (100 * b) := R.mono _ _ (by positivity) (by linarith)
  have h2 := R.nonneg (100 * a) (by positivity)
  exact pyRound_mono (R.mono _ _ (div_nonneg h2 hT.le) (by gcongr))

theorem percent_nonneg (R : Rounding) (T : ℚ) (hT : 0 < T) (a : ℚ) (ha : 0 ≤ a) : 0 ≤ percent R.fl T a := by
  have h2 := R.nonneg (100 * a) (by positivity)
  have h3 := R.nonneg _ (div_nonneg h2 hT.le)
  have := pyRound_mono h3
  rw [show (0 : ℚ) = ((0 : ℤ) : ℚ) by simp, pyRound_int] at this
  exact this

theorem shown_mono (R : Rounding) (T : ℚ) (hT : 0 < T) (l : List ℚ) (hl : ∀ a ∈ l, 0 ≤ a) :
    ∀ w, 0 ≤ w → R.fl w = w → (∀ q ∈ shown R.fl T w l, percent R.fl T w ≤ q) ∧ (shown R.fl T w l).Pairwise (· ≤ ·) := by
  induction l with
  | nil => intro w _ _; simp [shown]
  | cons a l ih =>
    intro w hw hfix
    have ha := hl a (by simp)
    have hle : w ≤ R.fl (w + a) := by
      calc w = R.fl w := hfix.symm
        _ ≤ _ := R.mono _ _ hw (by linarith)
    have h0 : 0 ≤ R.fl (w + a) := R.nonneg _ (add_nonneg hw ha)
    have hstep := percent_mono R T hT w _ hw hle
    obtain ⟨i1, i2⟩ := ih (fun b hb => hl b (by simp [hb])) (R.fl (w + a)) h0 (R.idem _ (add_nonneg hw ha))
    simp only [shown, List.pairwise_cons, List.forall_mem_cons]
    exact ⟨⟨hstep, fun q hq => le_trans hstep (i1 q hq)⟩, i1, i2⟩

/-- Property C162, the order: whatever the rounding and however many calls are made, the percentages shown never fall and are never negative. -/
theorem rounded_never_falls (R : Rounding) (T : ℚ) (hT : 0 < T) (p : Prog) (hp : p.Positive) :
    (shown R.fl T 0 (p.feed R.fl id)).Pairwise (· ≤ ·) ∧ ∀ q ∈ shown R.fl T 0 (p.feed R.fl id), 0 ≤ q := by
  have hz : R.fl 0 = 0 := by
    have := R.err 0 le_rfl
    simpa using this
  obtain ⟨h1, h2⟩ := shown_mono R T hT _ (feed_nonneg R p hp) 0 le_rfl hz
  exact ⟨h2, fun q hq => le_trans (percent_nonneg R T hT 0 le_rfl) (h1 q hq)⟩

/-- Property C162 for numbers of 53 binary digits: up to ten million million calls, the last percentage is one hundred. -/
theorem float_last_shown (T : ℚ) (hT : 0 < T) (p : Prog) (hp : p.Positive) (hc : p.Complete) (hs : p.amount = T)
    (hM : p.size + 2 * p.depth ≤ 10 ^ 13) : (shown (binary 52) T 0 (p.feed (binary 52) id)).getLast? = some 100 := by
  refine rounded_last_shown (binaryRounding 52) T hT p hp hc hs ?_
  have : ((p.size + 2 * p.depth + 2 : ℕ) : ℚ) ≤ ((10 ^ 13 + 2 : ℕ) : ℚ) := by exact_mod_cast (by omega)
  calc ((p.size + 2 * p.depth + 2 : ℕ) : ℚ) * (1 / 2 ^ (52 + 1)) ≤ ((10 ^ 13 + 2 : ℕ) : ℚ) * (1 / 2 ^ (52 + 1)) := by gcongr
    _ ≤ _ := by norm_num

/-- Without rounding, the amounts are those of the model of the monitors (property C19): the console ends with their sum. -/
theorem exact_feed (s : State) (p : Prog) (w t : ℚ) (hw : s.console.worked = some w) (ht : s.console.total = some t) (h0 : t ≠ 0) (hp : p.Startable) :
    (s.exec 0 p).1.console.worked = some (addUp id w (p.feed id id)) := by
  have hr : Ready s 0 := .console w hw (by rw [ht]; simpa using h0)
  obtain ⟨_, _, h⟩ := child_work_is_scaled s 0 p hr hp none
  rw [h, addUp_id, feed_id_eq, feed_sum, one_mul]
  simp [State.progress, Console.progress, hw, Console.calcPercentage, ht, h0, Console.finish]

/-! ## Cases -/

/-- Three thirds of a sub-task that counts for seven, and three more: the hypotheses hold. -/
def thirds : Prog :=
  .sub 7 "a" 3 (.progress 1 none (.progress 1 none (.progress 1 none .nil))) (.progress 3 none .nil)

example : thirds.Positive ∧ thirds.Complete ∧ thirds.amount = 10 ∧ thirds.size = 6 ∧ thirds.depth = 1 := by
  refine ⟨?_, ?_, ?_, rfl, rfl⟩
  · simp [thirds, Prog.Positive]
  · simp [thirds, Prog.Complete, Prog.amount]; norm_num
  · simp [thirds, Prog.amount]; norm_num

example : (shown (binary 52) 10 0 (thirds.feed (binary 52) id)).getLast? = some 100 := by
  refine float_last_shown 10 (by norm_num) thirds ?_ ?_ ?_ (by decide)
  · simp [thirds, Prog.Positive]
  · simp [thirds, Prog.Complete, Prog.amount]; norm_num
  · simp [thirds, Prog.amount]; norm_num

/-- Rounding does change the amounts: one third is not a number of the machine. -/
example : binary 52 (1 / 3) ≠ 1 / 3 := by decide +kernel

/-- The limit on the number of calls is needed: with three binary digits, sixteen calls of one of sixteen do not get beyond half the way, since `8 + 1` is rounded to `8`. -/
example : percent (binary 2) 16 (addUp (binary 2) 0 (List.replicate 16 1)) = 48 := by decide +kernel

end Dedop.Monitor
