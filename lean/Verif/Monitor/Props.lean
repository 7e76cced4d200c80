import Verif.Monitor.ConsoleLemmas

/-!
# Progress monitors: properties C19, C20, C21
-/
namespace Dedop.Monitor

/-! ## C19 — child monitors conserve work -/

/-- **C19 (general form).**  Running any client code (with sub-tasks at any depth, complete or not)
on a monitor that is ready raises nothing and has on the console exactly the effect of one
`progress(effective)` call on that monitor, where a sub-task given `w` that did the part `x` of its
`total` counts for `w * (x / total)`. -/
theorem child_work_is_scaled (s : State) (id : Nat) (p : Prog) (hr : Ready s id)
    (hp : p.Startable) (msg : Option String) :
    (s.exec id p).2 = none ∧ (s.progress id (some p.effective) msg).2 = none ∧
    (s.exec id p).1.console.worked = (s.progress id (some p.effective) msg).1.console.worked := by
  obtain ⟨g, hg⟩ := hr.gain
  obtain ⟨w, hw, -⟩ := hg.worked
  obtain ⟨s', e, -, h1, -⟩ := exec_effect p hg hp hw
  obtain ⟨c', e', h2, -⟩ := hg.progress hw p.effective msg
  rw [e, e']
  exact ⟨rfl, rfl, by simp only; rw [h1, h2]⟩

/-- **C19.**  If every sub-task reports exactly the total it announced, then every monitor receives
exactly the announced amounts: running the code has on the console the effect of one
`progress(amount)` call, whatever the nesting. -/
theorem child_work_is_conserved (s : State) (id : Nat) (p : Prog) (hr : Ready s id)
    (hp : p.Complete) (msg : Option String) :
    (s.exec id p).2 = none ∧ (s.progress id (some p.amount) msg).2 = none ∧
    (s.exec id p).1.console.worked = (s.progress id (some p.amount) msg).1.console.worked := by
  have := child_work_is_scaled s id p hr hp.startable msg
  rwa [hp.effective] at this

/-- **C19, console form.**  Code run directly on a started console monitor adds exactly its
announced amount to the console's work. -/
theorem console_receives_announced_work (s : State) (w : ℚ) (p : Prog)
    (hw : s.console.worked = some w) (ht : s.console.total ≠ some 0) (hp : p.Complete) :
    (s.exec 0 p).2 = none ∧ (s.exec 0 p).1.console.worked = some (w + p.amount) := by
  obtain ⟨s', e, -, h1, -⟩ := exec_effect p (.console w hw ht) (hp.startable) hw
  rw [e]
  refine ⟨rfl, ?_⟩
  simp only
  rw [h1, hp.effective, one_mul]

/-- **C19, one child.**  `child(w)` started with total `t`, then any list of work reports: the
parent console receives `w * (sum / t)`; if the reports sum to `t`, exactly `w`. -/
theorem one_child_receives_its_share (s : State) (w0 w t : ℚ) (label : String) (works : List ℚ)
    (hw : s.console.worked = some w0) (ht : s.console.total ≠ some 0) (hl : label ≠ "") (h0 : t ≠ 0) :
    let body := works.foldr (fun x p => Prog.progress x none p) .nil
    let r := s.exec 0 (.sub w label t body .nil)
    r.2 = none ∧ r.1.console.worked = some (w0 + w * (works.sum / t)) ∧
    (works.sum = t → r.1.console.worked = some (w0 + w)) := by
  intro body r
  have hb : body.Startable ∧ body.effective = works.sum := by
    simp only [body]
    clear r body
    induction works with
    | nil => exact ⟨trivial, rfl⟩
    | cons x xs ih =>
      refine ⟨ih.1, ?_⟩
      simp only [List.foldr_cons, Prog.effective, List.sum_cons]
      rw [ih.2]
  obtain ⟨s', e, -, h1, -⟩ := exec_effect (.sub w label t body .nil) (.console w0 hw ht)
    ⟨hl, h0, hb.1, trivial⟩ hw
  have hr : r = (s', none) := e
  have key : r.1.console.worked = some (w0 + w * (works.sum / t)) := by
    rw [hr]; simp only; rw [h1]; simp only [Prog.effective, hb.2]; congr 1; ring
  refine ⟨by rw [hr], key, fun hs => ?_⟩
  rw [key, hs, div_self h0, mul_one]

/-- **C19, error branches.**  A work report on a child that was not started is a `TypeError`, on a
child started with total 0 a `ZeroDivisionError`; in both cases nothing reaches the console. -/
theorem child_progress_errors (s : State) (i : Nat) (ch : Child) (w : ℚ) (msg : Option String)
    (hc : s.children[i]? = some ch) (hp : ch.parent ≤ i) :
    (ch.total = none → s.progress (i + 1) (some w) msg = (s, some .typeError)) ∧
    (ch.total = some 0 → s.progress (i + 1) (some w) msg = (s, some .zeroDivision)) := by
  constructor <;> intro h <;> (rw [State.progress]; simp [hc, hp, h])

/-- **C19/C22 for children.**  `done` of a sub-task run under the console is signalled whether or not
its code raised: the last message shown is the sub-task's label. -/
theorem child_done_signalled_on_any_outcome (s : State) (w0 w t : ℚ) (label : String) (body : Prog)
    (hw : s.console.worked = some w0) (ht : s.console.total ≠ some 0) (hl : label ≠ "") :
    (s.exec 0 (.sub w label t body .nil)).1.console.msg = some label := by
  obtain ⟨hch, hlat⟩ := later_child_start s 0 w label (some t) (Nat.zero_le _) hl
  have e1 : s.step (.child 0 w) =
      ((s.step (.child 0 w)).1, none) := by simp [State.step]
  have e2 : ((s.step (.child 0 w)).1.step (.start (s.children.length + 1) label (some t))) =
      (((s.step (.child 0 w)).1.step (.start (s.children.length + 1) label (some t))).1, none) := by
    obtain ⟨c', e, -⟩ := (Gain.console (s := { s with children := s.children ++
      [({ parent := 0, partialWork := w, total := some t, label := some label } : Child)] })
      w0 hw ht).progress hw 0 (some label)
    have hset : (s.children ++ [({ parent := 0, partialWork := w } : Child)]).set s.children.length
        ({ parent := 0, partialWork := w, total := some t, label := some label } : Child) =
        s.children ++ [({ parent := 0, partialWork := w, total := some t, label := some label } : Child)] := by
        simp
    simp only [State.step, Nat.zero_le, if_true, List.getElem?_append_right (Nat.le_refl _),
      Nat.sub_self, List.getElem?_cons_zero, hl, if_false, Option.isSome_some]
    rw [hset, e]
  set s2 := ((s.step (.child 0 w)).1.step (.start (s.children.length + 1) label (some t))).1
  have h3 := later_exec body s2 (s.children.length + 1)
  have key : ∀ s3 : State, Later s2 s3 →
      (s3.step (.done (s.children.length + 1))).1.console.msg = some label := by
    intro s3 hl3
    have hget : s3.children[s.children.length]? = some
        { parent := 0, partialWork := w, total := some t, label := some label } := by
      obtain ⟨r, hr⟩ := hl3.1
      rw [← hr, hch]; simp
    have hall := hlat.trans hl3
    obtain ⟨w3, hw3⟩ := Option.isSome_iff_exists.1 (hall.2.2 (by simp [hw]))
    simp only [State.step, hget, Option.isSome_some, if_true, State.progress]
    exact console_progress_msg hw3 (by rw [hall.2.1]; exact ht) 0 (some label)
  simp only [State.exec]
  rw [e1]
  simp only
  rw [e2]
  simp only
  cases he : s2.exec (s.children.length + 1) body with
  | mk s3 e =>
    rw [he] at h3
    cases e with
    | some e => exact key s3 h3
    | none =>
      simp only
      cases he4 : s3.step (.done (s.children.length + 1)) with
      | mk s4 e4 =>
        have := key s3 h3
        rw [he4] at this
        cases e4 <;> exact this

/-- A case where the body raises (inner total 0 gives a division by zero). -/
example :
    let s : State := (({} : State).step (.start 0 "task" (some 100))).1
    let r := s.exec 0 (.sub 30 "a" 4 (.sub 3 "b" 0 (.progress 7 (some "x") .nil) .nil) .nil)
    r.2 = some .zeroDivision ∧ r.1.console.msg = some "a" := by
  refine ⟨?_, ?_⟩ <;> decide +kernel

/-- Concrete run meeting the hypotheses: two nested sub-tasks on a console with total 100. -/
example :
    let s : State := (({} : State).step (.start 0 "task" (some 100))).1
    let p : Prog := .progress 10 none (.sub 30 "a" 4 (.progress 1 none (.sub 3 "b" 7
      (.progress 7 (some "x") .nil) .nil)) (.progress 60 none .nil))
    Ready s 0 ∧ p.Complete ∧ p.amount = 100 ∧ (s.exec 0 p).1.console.worked = some 100 := by
  refine ⟨.console 0 rfl (by decide), ?_, ?_, ?_⟩
  · simp [Prog.Complete, Prog.amount]; norm_num
  · simp [Prog.amount]; norm_num
  · decide +kernel

/-! ## C20 — cancellation -/

/-- **C20.**  Take any family of monitors obtained from a new console by any history of calls.
After `cancel()` on any of them and any further history, every monitor of the family, old or new,
reports `is_cancelled()`. -/
theorem cancel_seen_everywhere_forever (before after : List Op) (id other : Nat)
    (hid : (State.run {} before).Exists id)
    (hother : (State.run {} (before ++ .cancel id :: after)).Exists other) :
    (State.run {} (before ++ .cancel id :: after)).isCancelled other = true := by
  have run_append : ∀ (s : State) (a b : List Op), s.run (a ++ b) = (s.run a).run b := by
    intro s a b
    induction a generalizing s with
    | nil => rfl
    | cons x a ih => exact ih _
  have wf1 : WF (State.run {} before) := WF.init.run before
  rw [isCancelled_eq (WF.init.run _) other hother, run_append]
  simp only [State.run, State.step]
  apply run_cancelled_mono
  rw [cancel_eq wf1 id hid]
  rfl

/-- **C20, converse.**  No monitor of the family reports cancellation unless `cancel()` was called
on one of them. -/
theorem not_cancelled_without_request (ops : List Op) (h : ∀ id, Op.cancel id ∉ ops) (other : Nat) :
    (State.run {} ops).isCancelled other = false := by
  have key : ∀ (s : State), s.console.cancelled = false → (∀ id, Op.cancel id ∉ ops) →
      (s.run ops).console.cancelled = false := by
    clear h
    induction ops with
    | nil => intro s hs _; exact hs
    | cons op ops ih =>
      intro s hs hno
      refine ih _ ?_ (fun id hm => hno id (List.mem_cons_of_mem _ hm))
      cases op with
      | child p w => simp only [State.step]; split <;> exact hs
      | start id label total =>
        cases id with
        | zero =>
          simp only [State.step]
          unfold Console.start
          split
          · exact hs
          · rename_i c hc
            split at hc
            · cases hc
            · cases hc; exact hs
        | succ j =>
          simp only [State.step]
          split
          · exact hs
          · split
            · exact hs
            · rw [(progress_cancelled _ _ _ _).1]; exact hs
      | progress id w m => simp only [State.step]; rw [(progress_cancelled _ _ _ _).1]; exact hs
      | done id =>
        cases id with
        | zero => exact hs
        | succ j =>
          simp only [State.step]
          split
          · exact hs
          · rw [(progress_cancelled _ _ _ _).1]; exact hs
      | cancel id => exact absurd List.mem_cons_self (hno id)
  have hc := key {} rfl h
  have hwf : WF (State.run {} ops) := WF.init.run ops
  by_cases hex : (State.run {} ops).Exists other
  · rw [isCancelled_eq hwf other hex]; exact hc
  · unfold State.Exists at hex
    cases other with
    | zero => simp at hex
    | succ i =>
      rw [State.isCancelled]
      have : (State.run {} ops).children[i]? = none := by
        rw [List.getElem?_eq_none_iff]; omega
      simp [this]

example :
    let before : List Op := [.start 0 "t" (some 10), .child 0 5, .child 1 2, .start 2 "c" (some 3)]
    (State.run {} before).Exists 2 ∧ (State.run {} before).isCancelled 0 = false ∧
    (State.run {} (before ++ .cancel 2 :: [.child 1 7, .done 2])).isCancelled 3 = true := by
  refine ⟨?_, ?_, ?_⟩ <;> (try unfold State.Exists) <;> decide +kernel

/-! ## C21 — console progress -/

/-- The rounding used for percentages is to the nearest integer, ties to even. -/
theorem percentage_is_nearest (q : ℚ) : IsNearestEven q (pyRound q) := pyRound_nearest q

/-- **C21, what is printed.**  On a console started with a non-zero total, no sequence of progress
calls raises; the next call after any sequence prints a line iff what it displays differs from what
the previous call displayed (for the first call: iff there is a percentage or a changed message),
and the line shows the rounded percentage of all the work reported so far. -/
theorem line_printed_iff_changed (c0 : Console) (label : String) (total : ℚ) (c : Console)
    (hstart : c0.start label (some total) = .ok c) (h0 : total ≠ 0)
    (before : List Call) (call : Call) :
    ((c.calls before).progress call.1 call.2).2 = none ∧
    (c.calls (before ++ [call])).reports = (c.calls before).reports ++
      (let previous : Report := match before.getLast? with
        | none => ⟨none, c0.msg⟩
        | some last => display total before.dropLast last
       if display total before call = previous then [] else [display total before call]) := by
  have hc : c.total = some total ∧ c.worked = some 0 ∧ c.percentage = none ∧ c.msg = c0.msg := by
    unfold Console.start at hstart
    split at hstart
    · cases hstart
    · cases hstart; exact ⟨rfl, rfl, rfl, rfl⟩
  obtain ⟨h1, h2, h3, h4⟩ := hc
  have hst := calls_state h1 h0 h2 before
  rw [zero_add] at hst
  have hp := progress_started hst.1 h0 hst.2 call
  refine ⟨hp.1, ?_⟩
  have hprev : (match before.getLast? with
        | none => (⟨none, c0.msg⟩ : Report)
        | some last => display total before.dropLast last) =
      ⟨(c.calls before).percentage, (c.calls before).msg⟩ := by
    rcases List.eq_nil_or_concat before with rfl | ⟨l, x, rfl⟩
    · simp [Console.calls, h3, h4]
    · simp only [List.concat_eq_append, List.getLast?_concat, List.dropLast_concat]
      have hst' := calls_state h1 h0 h2 l
      rw [zero_add] at hst'
      have hp' := progress_started hst'.1 h0 hst'.2 x
      rw [calls_append]
      obtain ⟨xw, xm⟩ := x
      simp only [Console.calls, display]
      simp only at hp'
      rw [hp'.2.1, hp'.2.2.1]
  rw [hprev, calls_append]
  obtain ⟨w, m⟩ := call
  simp only [Console.calls]
  simp only at hp
  rw [hp.2.2.2]
  simp only [display, Report.mk.injEq]

/-- **C21, monotone and bounded.**  On a console started with a positive total, if no call reports
negative work and the sum does not exceed the total, the percentages printed are in 0..100 and never
decrease. -/
theorem percentages_monotone_bounded (c0 : Console) (label : String) (total : ℚ) (c : Console)
    (hstart : c0.start label (some total) = .ok c) (h0 : 0 < total) (calls : List Call)
    (hnn : ∀ x ∈ calls, ∀ w, x.1 = some w → 0 ≤ w) (hsum : workSum calls ≤ total) :
    ∃ new, (c.calls calls).reports = c.reports ++ new ∧
      (percentages new).Pairwise (· ≤ ·) ∧ ∀ p ∈ percentages new, 0 ≤ p ∧ p ≤ 100 := by
  have hc : c.total = some total ∧ c.worked = some 0 := by
    unfold Console.start at hstart
    split at hstart
    · cases hstart
    · cases hstart; exact ⟨rfl, rfl⟩
  have hne : total ≠ 0 := ne_of_gt h0
  -- every printed percentage is at most the rounded percentage of all work reported
  have key : ∃ new, (c.calls calls).reports = c.reports ++ new ∧
      (percentages new).Pairwise (· ≤ ·) ∧
      ∀ p ∈ percentages new, 0 ≤ p ∧ p ≤ pyRound (100 * workSum calls / total) := by
    clear hsum
    induction calls using List.reverseRecOn with
    | nil => exact ⟨[], by simp [Console.calls], by simp [percentages], by simp [percentages]⟩
    | append_singleton l x ih =>
      obtain ⟨new, e, hsorted, hb⟩ := ih (fun y hy => hnn y (List.mem_append_left _ hy))
      have hl : 0 ≤ workSum l := workSum_nonneg (fun y hy => hnn y (List.mem_append_left _ hy))
      have hst := calls_state hc.1 hne hc.2 l
      rw [zero_add] at hst
      have hp := progress_started hst.1 hne hst.2 x
      obtain ⟨w, m⟩ := x
      simp only at hp
      have hmono : ∀ v : ℚ, 0 ≤ v →
          pyRound (100 * workSum l / total) ≤ pyRound (100 * (workSum l + v) / total) := by
        intro v hv
        apply pyRound_mono
        apply div_le_div_of_nonneg_right _ (le_of_lt h0)
        linarith
      rw [calls_append]
      simp only [Console.calls, workSum_append, workSum, add_zero]
      rw [hp.2.2.2, e, List.append_assoc]
      refine ⟨_, rfl, ?_, ?_⟩
      · unfold percentages
        rw [List.filterMap_append, List.pairwise_append]
        refine ⟨hsorted, ?_, ?_⟩
        · split
          · simp
          · cases w <;> simp
        · intro a ha b hb'
          split at hb'
          · simp at hb'
          · cases w with
            | none => simp at hb'
            | some w =>
              have hw := hnn (some w, m) (by simp) w rfl
              simp at hb'
              subst hb'
              exact le_trans (hb a ha).2 (hmono w hw)
      · intro p hpm
        unfold percentages at hpm
        rw [List.filterMap_append, List.mem_append] at hpm
        have hw : 0 ≤ w.getD 0 := by
          cases w with
          | none => simp
          | some w => exact hnn (some w, m) (by simp) w rfl
        rcases hpm with hpm | hpm
        · exact ⟨(hb p hpm).1, le_trans (hb p hpm).2 (hmono _ hw)⟩
        · split at hpm
          · simp at hpm
          · cases w with
            | none => simp at hpm
            | some w =>
              simp at hpm
              subst hpm
              simp only [Option.getD_some] at hw ⊢
              refine ⟨?_, le_refl _⟩
              have : pyRound ((0 : ℤ) : ℚ) ≤ pyRound (100 * (workSum l + w) / total) := by
                apply pyRound_mono
                push_cast
                apply div_nonneg _ (le_of_lt h0)
                linarith
              rwa [pyRound_int] at this
  obtain ⟨new, e, hs, hb⟩ := key
  refine ⟨new, e, hs, fun p hp => ⟨(hb p hp).1, le_trans (hb p hp).2 ?_⟩⟩
  have : pyRound (100 * workSum calls / total) ≤ pyRound ((100 : ℤ) : ℚ) := by
    apply pyRound_mono
    rw [div_le_iff₀ h0]
    push_cast
    linarith
  rwa [pyRound_int] at this

/-- **C21, bar width.**  For a percentage in 0..100 the bar has exactly the configured number of
characters, none filled at 0 and all filled at 100. -/
theorem bar_has_constant_width (size : Nat) (pct : ℤ) (h0 : 0 ≤ pct) (h1 : pct ≤ 100) :
    (barCounts size pct).1 + (barCounts size pct).2 = size ∧
    (pct = 0 → (barCounts size pct).1 = 0) ∧ (pct = 100 → (barCounts size pct).1 = size) := by
  have hs : (0 : ℚ) ≤ size := Nat.cast_nonneg size
  have hp0 : (0 : ℚ) ≤ pct := by exact_mod_cast h0
  have hp1 : (pct : ℚ) ≤ 100 := by exact_mod_cast h1
  have hx : (0 : ℚ) ≤ size * pct / 100 + 1/2 := by positivity
  have hprod : (size : ℚ) * pct ≤ size * 100 := mul_le_mul_of_nonneg_left hp1 hs
  have hlo : 0 ≤ ⌊(size * pct / 100 + 1/2 : ℚ)⌋ := Int.floor_nonneg.2 hx
  have hhi : ⌊(size * pct / 100 + 1/2 : ℚ)⌋ ≤ size := by
    rw [← Int.lt_add_one_iff, Int.floor_lt]
    push_cast
    linarith
  unfold barCounts
  simp only [hx, if_true]
  refine ⟨by omega, ?_, ?_⟩
  · rintro rfl
    norm_num
  · rintro rfl
    have : ((size : ℚ) * ((100 : ℤ) : ℚ) / 100 + 1/2) = ((size : ℤ) : ℚ) + 1/2 := by push_cast; ring
    rw [this, Int.floor_intCast_add]
    norm_num

/-- The bar only fills up: more percent never means fewer `#`. -/
theorem bar_monotone (size : Nat) (p q : ℤ) (h0 : 0 ≤ p) (h : p ≤ q) :
    (barCounts size p).1 ≤ (barCounts size q).1 := by
  have hs : (0 : ℚ) ≤ size := Nat.cast_nonneg size
  have hp0 : (0 : ℚ) ≤ p := by exact_mod_cast h0
  have hq0 : (0 : ℚ) ≤ q := by exact_mod_cast le_trans h0 h
  have hpq : (p : ℚ) ≤ q := by exact_mod_cast h
  have hx : (0 : ℚ) ≤ size * p / 100 + 1/2 := by positivity
  have hy : (0 : ℚ) ≤ size * q / 100 + 1/2 := by positivity
  have hprod : (size : ℚ) * p ≤ size * q := mul_le_mul_of_nonneg_left hpq hs
  unfold barCounts
  simp only [hx, hy, if_true]
  have : ⌊(size * p / 100 + 1/2 : ℚ)⌋ ≤ ⌊(size * q / 100 + 1/2 : ℚ)⌋ :=
    Int.floor_le_floor (by linarith)
  omega

/-- Work beyond the total does break the width (outside the hypotheses of C21): 150 % of a bar of
size 10 prints 15 characters. -/
theorem bar_overflows_beyond_total : (barCounts 10 150).1 + (barCounts 10 150).2 = 15 := by
  decide +kernel

/-- Concrete case: three calls on a console with total 8; the third prints nothing. -/
example :
    let c0 : Console := {}
    let calls : List Call := [(some 1, none), (some 4, some "half"), (some 0, some "half")]
    ∃ c, c0.start "x" (some 8) = .ok c ∧ workSum calls ≤ 8 ∧
      (c.calls calls).reports =
        [⟨none, some "started"⟩, ⟨some 12, none⟩, ⟨some 62, some "half"⟩] := by
  refine ⟨_, rfl, ?_, ?_⟩
  · simp [workSum]; norm_num
  · decide +kernel

end Dedop.Monitor
