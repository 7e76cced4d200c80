import Verif.Whole.Steps
import Verif.Process.Causal

/-!
# The events of the whole processor are only ever added to (lemmas)
-/
namespace Dedop.Whole

open Real Process

variable {c : Conf} {o : World} {file : ℕ → Raw} {s0 : State} {its : List (Item ℝ)}

/-- The state after a piece of the program. -/
def endOf : Out State → State
  | .ok s => s
  | .error x => x.state

theorem sim_grows {r : Out State} {q : Res ℝ (St ℝ)} {t : List Event} (h : Sim State.ctl r q)
    (hq : Post q (fun s' => t <+: s'.trace) (fun _ s' => t <+: s'.trace)) : t <+: (endOf r).ctl.trace := by
  unfold Sim at h
  cases r with
  | ok s =>
    have h : q = .ok s.ctl := h
    rw [h] at hq
    exact hq
  | error x =>
    cases x with
    | raised e s =>
      obtain ⟨u, h1, h2⟩ := h
      rw [h1] at hq
      have hq : t <+: u.trace := hq
      show t <+: s.ctl.trace
      rw [← h2]
      exact hq
    | nan s =>
      obtain ⟨u, h1, h2⟩ := h
      rw [h1] at hq
      have hq : t <+: u.trace := hq
      show t <+: s.ctl.trace
      rw [← h2]
      exact hq

theorem step_grows {s s1 : State} {b : Bool} (h : Good c o file s0 its s) (hr : s.ctl.running = true)
    (hs : inputPhase c file (beginIteration o s) = .ok (b, s1)) : s1.ctl.trace <+: (endOf (step c o file s)).ctl.trace := by
  obtain ⟨m1, m2, _⟩ := h.input hr hs
  unfold step
  rw [hs]
  cases b with
  | true => exact List.prefix_refl _
  | false =>
    dsimp only
    have q := (surface_sim c o file (stateAt c o file s0) s1 m1.inv m2).1
    have q2 := sim_grows q (surf_ext (envOf c o file (stateAt c o file s0)) s1.ctl)
    revert q2
    cases surfacePhase c o file s1 with
    | error x => exact id
    | ok s2 =>
      intro q2
      have q3 := sim_grows (end_sim s2) (end_ext s2.ctl)
      exact List.IsPrefix.trans q2 q3

theorem run_grows (fuel : ℕ) {s : State} (h : Good c o file s0 its s) : s.ctl.trace <+: (run c o file fuel s).state.ctl.trace := by
  have q := (run_good c o file s0 its (fun _ => True) (fun _ => True) (by simp) (by simp) fuel s h trivial).1
  rw [← same_trace q]
  exact run_ext (runEnv c o file s0) fuel s.ctl

/-- What was recorded after the first part of an iteration is still recorded at the end of the run. -/
theorem input_recorded (fuel : ℕ) {s s1 : State} {b : Bool} (h : Good c o file s0 its s) (hr : s.ctl.running = true)
    (hs : inputPhase c file (beginIteration o s) = .ok (b, s1)) : s1.ctl.trace <+: (run c o file (fuel + 1) s).state.ctl.trace := by
  have q := step_grows h hr hs
  have q2 := fun s' => h.next (s' := s') hr
  rw [run, if_pos hr]
  revert q q2
  cases step c o file s with
  | error x =>
    intro q _
    cases x <;> exact q
  | ok s' =>
    intro q q2
    exact List.IsPrefix.trans q (run_grows fuel (q2 s' rfl))

theorem gapOf_mono {a b : List Event} (h : a <+: b) : gapOf a ⊆ gapOf b := by
  obtain ⟨t, rfl⟩ := h
  rw [gapOf_append]
  exact List.subset_append_left _ _

end Dedop.Whole
