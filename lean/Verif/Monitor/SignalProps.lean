import Verif.Monitor.Signal

/-! # `with monitor.starting(...)`: property C22 -/
namespace Dedop.Monitor.Signal

/-- **C22.**  Whatever properly nested code does (return, raise, catch, be interrupted), afterwards
the interrupt handler is the one installed before, and on every console `done` was called exactly
as often as `start` succeeded. -/
theorem handler_restored_and_done_balanced (b : Body) (s : Sys) (hn : b.ProperlyNested) :
    (s.exec b).1.handler = s.handler ∧
    ∀ i, ∃ n, (s.exec b).1.starts i = s.starts i + n ∧ (s.exec b).1.dones i = s.dones i + n :=
  exec_restores b s hn

/-- **C22, one block.**  `with monitor.starting(label): body` with a label, whose body does not use
this monitor for another block, starts and finishes the monitor exactly once, and its outcome
(normal or the exception) is the outcome of the body. -/
theorem done_exactly_once (i : Nat) (label : String) (body : Body) (s : Sys) (hl : label ≠ "")
    (hu : ¬ body.uses i) :
    let r := s.exec (.block i label body)
    r.1.starts i = s.starts i + 1 ∧ r.1.dones i = s.dones i + 1 ∧ r.1.handler = s.handler ∧
    ∃ s1, s.start i label = .ok s1 ∧ r.2 = (s1.exec body).2 := by
  have unused : ∀ (b : Body) (s : Sys), ¬ b.uses i →
      (s.exec b).1.starts i = s.starts i ∧ (s.exec b).1.dones i = s.dones i := by
    intro b
    induction b with
    | skip => intro s _; exact ⟨rfl, rfl⟩
    | raise => intro s _; exact ⟨rfl, rfl⟩
    | ctrlC => intro s _; simp only [Sys.exec]; split <;> exact ⟨rfl, rfl⟩
    | seq a b iha ihb =>
      intro s h
      simp only [Body.uses, not_or] at h
      simp only [Sys.exec]
      have ha := iha s h.1
      split
      · rename_i s' e he; rw [he] at ha; exact ha
      · rename_i s' he; rw [he] at ha
        exact ⟨(ihb s' h.2).1.trans ha.1, (ihb s' h.2).2.trans ha.2⟩
    | attempt a b iha ihb =>
      intro s h
      simp only [Body.uses, not_or] at h
      simp only [Sys.exec]
      have ha := iha s h.1
      split
      · rename_i s' e he; rw [he] at ha
        exact ⟨(ihb s' h.2).1.trans ha.1, (ihb s' h.2).2.trans ha.2⟩
      · rename_i s' he; rw [he] at ha; exact ha
    | block j label body ih =>
      intro s h
      simp only [Body.uses, not_or] at h
      have hij : i ≠ j := fun e => h.1 e.symm
      simp only [Sys.exec, Sys.start]
      split
      · exact ⟨rfl, rfl⟩
      · rename_i s1 h1
        split at h1
        · cases h1
        · cases h1
          have hb := ih { s with
            saved := upd s.saved j (some s.handler), handler := .console j,
            starts := upd s.starts j (s.starts j + 1) } h.2
          generalize hr : Sys.exec _ body = r at hb ⊢
          obtain ⟨s2, e⟩ := r
          simp only [Sys.done]
          simp only [upd, hij, if_false] at hb
          cases hsv : s2.saved j <;> simp [upd, hij, hb]
  intro r
  have hstart : s.start i label = .ok { s with
      saved := upd s.saved i (some s.handler), handler := .console i,
      starts := upd s.starts i (s.starts i + 1) } := by simp [Sys.start, hl]
  set s1 : Sys := { s with
      saved := upd s.saved i (some s.handler), handler := .console i,
      starts := upd s.starts i (s.starts i + 1) } with hs1
  have hsv := exec_saved body s1 i hu
  have hs1i : s1.saved i = some s.handler := by simp [hs1, upd]
  have hun := unused body s1 hu
  have hr : r = ({ (s1.exec body).1 with
      dones := upd (s1.exec body).1.dones i ((s1.exec body).1.dones i + 1),
      handler := s.handler }, (s1.exec body).2) := by
    simp only [r, Sys.exec, hstart]
    simp only [Sys.done, hsv, hs1i]
  rw [hr]
  refine ⟨?_, ?_, rfl, s1, hstart, rfl⟩
  · simp only; rw [hun.1]; simp [hs1, upd]
  · simp only [upd, if_true]; rw [hun.2]

/-- **C22, empty label.**  `start` is called outside the `try`, so a rejected label neither installs
a handler nor calls `done`. -/
theorem rejected_label_changes_nothing (i : Nat) (body : Body) (s : Sys) :
    s.exec (.block i "" body) = (s, some .valueError) := by
  simp [Sys.exec, Sys.start]

/-- Ctrl-C while a block of console `i` is innermost cancels exactly that console and does not
raise. -/
theorem ctrlC_cancels_innermost (i : Nat) (s : Sys) (h : s.handler = .console i) :
    (s.exec .ctrlC).2 = none ∧ (s.exec .ctrlC).1.cancelled i = true ∧
    ∀ j, j ≠ i → (s.exec .ctrlC).1.cancelled j = s.cancelled j := by
  simp only [Sys.exec, h]
  refine ⟨trivial, by simp [upd], fun j hj => by simp [upd, hj]⟩

/-- **C22 fails without proper nesting** (not excluded by the code): using one console monitor for a
block inside a block of the same monitor leaves its own handler installed for ever. -/
theorem handler_not_restored_when_reentered_violated :
    ∃ (b : Body) (s : Sys), (s.exec b).2 = none ∧ (s.exec b).1.handler ≠ s.handler := by
  refine ⟨.block 0 "outer" (.block 0 "inner" .skip), {}, ?_, ?_⟩ <;>
    simp [Sys.exec, Sys.start, Sys.done, upd]

/-- Concrete properly nested code: an inner console whose body is interrupted and then fails. -/
example : ∃ b : Body, b.ProperlyNested ∧
    (({} : Sys).exec b).2 = none ∧ (({} : Sys).exec b).1.dones 0 = 1 ∧
    (({} : Sys).exec b).1.cancelled 1 = true ∧ (({} : Sys).exec b).1.handler = .original := by
  refine ⟨.block 0 "a" (.attempt (.block 1 "b" (.seq .ctrlC (.raise .ioError))) .skip), ?_, ?_⟩
  · simp [Body.ProperlyNested, Body.uses]
  · simp [Sys.exec, Sys.start, Sys.done, upd]

end Dedop.Monitor.Signal
