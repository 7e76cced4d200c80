import Verif.Whole.Refine
import Verif.Process.Props

/-!
# Runs of the whole processor are runs of the processing loop (lemmas)
-/
namespace Dedop.Whole

open Real Process

/-! ## Runs -/

/-- The states at the starts of the iterations (`processor.py:178`); after an exception the last one is
repeated. -/
noncomputable def stateAt (c : Conf) (o : World) (file : ℕ → Raw) (s0 : State) : ℕ → State
  | 0 => s0
  | k + 1 =>
    match step c o file (stateAt c o file s0 k) with
    | .ok s => s
    | .error _ => stateAt c o file s0 k

/-- The parameters of `Process` for the run which starts in a state (`processor.py:177-349`). -/
noncomputable def runEnv (c : Conf) (o : World) (file : ℕ → Raw) (s0 : State) : Env ℝ :=
  envOf c o file (stateAt c o file s0)

/-- A way a run ends and the corresponding one of `Process`. -/
def SameEnd (w : Outcome) (q : Process.Outcome ℝ) : Prop :=
  match w with
  | .finished s => q = .finished s.ctl
  | .failed e s => ∃ t, q = .failed e t ∧ t.trace = s.ctl.trace
  | .nan s => ∃ t, q = .failed (.other "nan") t ∧ t.trace = s.ctl.trace
  | .timeout s => q = .timeout s.ctl

/-- What holds at the start of each iteration of a run from `s0` on the given stream. -/
structure Good (c : Conf) (o : World) (file : ℕ → Raw) (s0 : State) (its : List (Item ℝ)) (s : State) : Prop where
  at_k : stateAt c o file s0 s.ctl.k = s
  loop : Process.Inv (runEnv c o file s0) its s.ctl
  inv : Inv s

theorem Good.sim {c : Conf} {o : World} {file : ℕ → Raw} {s0 : State} {its : List (Item ℝ)} {s : State}
    (h : Good c o file s0 its s) (hr : s.ctl.running = true) :
    Sim State.ctl (step c o file s) (Process.step (runEnv c o file s0) s.ctl) :=
  (step_sim c o file _ s h.at_k (fun hg => ((h.loop.ctl hr).resume hg).1) h.inv).1

theorem Good.next {c : Conf} {o : World} {file : ℕ → Raw} {s0 : State} {its : List (Item ℝ)} {s s' : State}
    (h : Good c o file s0 its s) (hr : s.ctl.running = true) (hs : step c o file s = .ok s') :
    Good c o file s0 its s' := by
  obtain ⟨h1, h2⟩ := step_sim c o file _ s h.at_k (fun hg => ((h.loop.ctl hr).resume hg).1) h.inv
  obtain ⟨h3, h4⟩ := h2 s' hs
  refine ⟨?_, ?_, h4⟩
  · rw [h3, stateAt, h.at_k, hs]
  · have hrel := step_rel (runEnv c o file s0) s.ctl
    rw [hs] at h1
    change Process.step (runEnv c o file s0) s.ctl = .ok s'.ctl at h1
    rw [h1] at hrel
    exact inv_step h.loop hr hrel

/-- An invariant of the iterations holds at the end. -/
theorem run_good (c : Conf) (o : World) (file : ℕ → Raw) (s0 : State) (its : List (Item ℝ)) (P : State → Prop)
    (E : Stop → Prop)
    (hP : ∀ s s', Good c o file s0 its s → P s → s.ctl.running = true → step c o file s = .ok s' → P s')
    (hE : ∀ s x, Good c o file s0 its s → P s → s.ctl.running = true → step c o file s = .error x → E x) :
    ∀ (fuel : ℕ) (s : State), Good c o file s0 its s → P s →
      SameEnd (run c o file fuel s) (Process.run (runEnv c o file s0) fuel s.ctl) ∧
      match run c o file fuel s with
      | .finished s' => ∃ s1, Good c o file s0 its s1 ∧ P s1 ∧ s' = { s1 with ctl := s1.ctl.log .closed }
      | .failed e s' => E (.raised e s') ∨ (Good c o file s0 its s' ∧ P s')
      | .nan s' => E (.nan s')
      | .timeout s' => Good c o file s0 its s' ∧ P s' := by
  intro fuel
  induction fuel with
  | zero => intro s hg hp; exact ⟨rfl, hg, hp⟩
  | succ fuel ih =>
    intro s hg hp
    rw [run, Process.run]
    by_cases hr : s.ctl.running = true
    · rw [if_pos hr, if_pos hr]
      have hsim := hg.sim hr
      revert hsim
      cases hs : step c o file s with
      | error x =>
        intro hsim
        have he := hE s x hg hp hr hs
        cases x with
        | raised e s' =>
          obtain ⟨t, h1, h2⟩ := hsim
          rw [h1]
          exact ⟨⟨t, rfl, h2⟩, Or.inl he⟩
        | nan s' =>
          obtain ⟨t, h1, h2⟩ := hsim
          rw [h1]
          exact ⟨⟨t, rfl, h2⟩, he⟩
      | ok s1 =>
        intro hsim
        change Process.step (runEnv c o file s0) s.ctl = .ok s1.ctl at hsim
        rw [hsim]
        exact ih s1 (hg.next hr hs) (hP s s1 hg hp hr hs)
    · rw [if_neg hr, if_neg hr]
      have hf : (runEnv c o file s0).finishFails s.ctl = o.finishFails := rfl
      rw [hf]
      cases o.finishFails with
      | some e => exact ⟨⟨_, rfl, rfl⟩, Or.inr ⟨hg, hp⟩⟩
      | none => exact ⟨rfl, s, hg, hp, rfl⟩

theorem good_start (c : Conf) (o : World) (file : ℕ → Raw) (alg : Surface.Alg) (its : List (Item ℝ)) :
    Good c o file (start alg its) its (start alg its) := by
  refine ⟨rfl, inv_start _ [] (by simp) its, ?_⟩
  constructor <;> simp [start, Process.start]

/-- The run on a stream is the run of the loop. -/
theorem run_same (c : Conf) (o : World) (file : ℕ → Raw) (alg : Surface.Alg) (its : List (Item ℝ)) :
    SameEnd (run c o file (3 * its.length + 2) (start alg its))
      (Process.process (runEnv c o file (start alg its)) its) :=
  (run_good c o file _ its (fun _ => True) (fun _ => True) (by simp) (by simp) _ _
    (good_start c o file alg its) trivial).1

/-- What holds of the trace of the loop holds of that of the whole processor. -/
theorem same_trace {w : Outcome} {q : Process.Outcome ℝ} (h : SameEnd w q) : q.trace = w.state.ctl.trace := by
  unfold SameEnd at h
  cases w with
  | finished s => cases h; rfl
  | failed e s => obtain ⟨t, rfl, h2⟩ := h; exact h2
  | nan s => obtain ⟨t, rfl, h2⟩ := h; exact h2
  | timeout s => cases h; rfl

end Dedop.Whole
