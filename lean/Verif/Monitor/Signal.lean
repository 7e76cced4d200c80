import Verif.Basic.Tactics
import Verif.Monitor.Model

/-!
# `with monitor.starting(...)` and the interrupt handler (C22)

Models `Monitor.starting` (`monitor.py:72-87`) on console monitors: `start`
(`monitor.py:234-244`) installs the monitor's handler for SIGINT and remembers the previous one,
`done` (`monitor.py:257-264`) reinstalls the remembered one, `_on_ctrl_c` (`311-312`) cancels.
Simplification: the handler installed before is a value `signal.signal` accepts back.
-/
namespace Dedop.Monitor.Signal

/-- The process-wide SIGINT handler, and per console monitor the remembered handler
(`_old_ctrl_c_handler`, `monitor.py:231`), whether it is cancelled, and how often `start` succeeded
and `done` was called on it. -/
structure Sys where
  handler : Handler := .original
  saved : Nat → Option Handler := fun _ => none
  cancelled : Nat → Bool := fun _ => false
  starts : Nat → Nat := fun _ => 0
  dones : Nat → Nat := fun _ => 0

/-- Replace the value at one console. -/
def upd {α : Type} (f : Nat → α) (i : Nat) (a : α) : Nat → α := fun j => if j = i then a else f j

/-- `monitor.py:234-244`: `ValueError` on an empty label, before anything else. -/
def Sys.start (s : Sys) (i : Nat) (label : String) : Except PyErr Sys :=
  if label = "" then .error .valueError
  else .ok { s with
    saved := upd s.saved i (some s.handler), handler := .console i,
    starts := upd s.starts i (s.starts i + 1) }

/-- `monitor.py:257-264`; `done` without any `start` would hand `False` to `signal.signal`, here an
error. -/
def Sys.done (s : Sys) (i : Nat) : Sys × Option PyErr :=
  let s' := { s with dones := upd s.dones i (s.dones i + 1) }
  match s.saved i with
  | none => (s', some .typeError)
  | some h => ({ s' with handler := h }, none)

/-- Client code using console monitors: arbitrary nesting, failures, handlers for failures, and
Ctrl-C arriving at any place. -/
inductive Body where
  | skip
  | raise (e : PyErr)
  | ctrlC
  | seq (a b : Body)
  | attempt (a handler : Body)
  | block (i : Nat) (label : String) (body : Body)

/-- Execution; `block` is `with monitor.starting(label): body` (`monitor.py:83-87`). -/
def Sys.exec (s : Sys) : Body → Sys × Option PyErr
  | .skip => (s, none)
  | .raise e => (s, some e)
  | .ctrlC =>
    match s.handler with
    | .original => (s, some (.other "KeyboardInterrupt"))
    | .console i => ({ s with cancelled := upd s.cancelled i true }, none)
  | .seq a b =>
    match s.exec a with
    | (s', some e) => (s', some e)
    | (s', none) => s'.exec b
  | .attempt a b =>
    match s.exec a with
    | (s', some _) => s'.exec b
    | (s', none) => (s', none)
  | .block i label body =>
    match s.start i label with
    | .error e => (s, some e)
    | .ok s1 =>
      match s1.exec body with
      | (s2, e) =>
        match s2.done i with
        | (s3, some e') => (s3, some e')
        | (s3, none) => (s3, e)

/-- Consoles on which a block is opened somewhere in the code. -/
def Body.uses (i : Nat) : Body → Prop
  | .skip | .raise _ | .ctrlC => False
  | .seq a b | .attempt a b => a.uses i ∨ b.uses i
  | .block j _ body => j = i ∨ body.uses i

/-- No block is opened on a console inside a block on the same console. -/
def Body.ProperlyNested : Body → Prop
  | .skip | .raise _ | .ctrlC => True
  | .seq a b | .attempt a b => a.ProperlyNested ∧ b.ProperlyNested
  | .block i _ body => ¬ body.uses i ∧ body.ProperlyNested

/-- Number of times a block on console `i` is entered (its `start` succeeds) or left. -/
def Sys.balanced (s s' : Sys) (i : Nat) : Prop :=
  ∃ n, s'.starts i = s.starts i + n ∧ s'.dones i = s.dones i + n

theorem exec_saved (b : Body) (s : Sys) (i : Nat) (h : ¬ b.uses i) :
    (s.exec b).1.saved i = s.saved i := by
  induction b generalizing s with
  | skip => rfl
  | raise => rfl
  | ctrlC => simp only [Sys.exec]; split <;> rfl
  | seq a b iha ihb =>
    simp only [Body.uses, not_or] at h
    simp only [Sys.exec]
    have ha := iha s h.1
    split
    · rename_i s' e he; rw [he] at ha; exact ha
    · rename_i s' he; rw [he] at ha; rw [ihb s' h.2]; exact ha
  | attempt a b iha ihb =>
    simp only [Body.uses, not_or] at h
    simp only [Sys.exec]
    have ha := iha s h.1
    split
    · rename_i s' e he; rw [he] at ha; rw [ihb s' h.2]; exact ha
    · rename_i s' he; rw [he] at ha; exact ha
  | block j label body ih =>
    simp only [Body.uses, not_or] at h
    simp only [Sys.exec, Sys.start]
    split
    · rfl
    · rename_i s1 h1
      split at h1
      · cases h1
      · cases h1
        set s1 : Sys := { s with
          saved := upd s.saved j (some s.handler), handler := .console j,
          starts := upd s.starts j (s.starts j + 1) } with hs1
        have hb := ih s1 h.2
        have hij : i ≠ j := fun e => h.1 e.symm
        have h1i : s1.saved i = s.saved i := by simp [hs1, upd, hij]
        cases he : s1.exec body with
        | mk s2 e =>
          rw [he] at hb
          simp only [Sys.done]
          cases hsv : s2.saved j <;> simp only [] <;> rw [← h1i, ← hb]

theorem exec_restores (b : Body) (s : Sys) (hn : b.ProperlyNested) :
    (s.exec b).1.handler = s.handler ∧ ∀ i, s.balanced (s.exec b).1 i := by
  induction b generalizing s with
  | skip => exact ⟨rfl, fun i => ⟨0, rfl, rfl⟩⟩
  | raise => exact ⟨rfl, fun i => ⟨0, rfl, rfl⟩⟩
  | ctrlC =>
    simp only [Sys.exec]
    split
    · exact ⟨rfl, fun i => ⟨0, rfl, rfl⟩⟩
    · exact ⟨rfl, fun i => ⟨0, rfl, rfl⟩⟩
  | seq a b iha ihb =>
    simp only [Sys.exec]
    have ha := iha s hn.1
    split
    · rename_i s' e he; rw [he] at ha; exact ha
    · rename_i s' he
      rw [he] at ha
      have hb := ihb s' hn.2
      refine ⟨hb.1.trans ha.1, fun i => ?_⟩
      obtain ⟨n, h1, h2⟩ := ha.2 i
      obtain ⟨m, h3, h4⟩ := hb.2 i
      exact ⟨n + m, by rw [h3]; simp only at h1; rw [h1]; omega, by rw [h4]; simp only at h2; rw [h2]; omega⟩
  | attempt a b iha ihb =>
    simp only [Sys.exec]
    have ha := iha s hn.1
    split
    · rename_i s' e he
      rw [he] at ha
      have hb := ihb s' hn.2
      refine ⟨hb.1.trans ha.1, fun i => ?_⟩
      obtain ⟨n, h1, h2⟩ := ha.2 i
      obtain ⟨m, h3, h4⟩ := hb.2 i
      exact ⟨n + m, by rw [h3]; simp only at h1; rw [h1]; omega, by rw [h4]; simp only at h2; rw [h2]; omega⟩
    · rename_i s' he; rw [he] at ha; exact ha
  | block j label body ih =>
    simp only [Sys.exec, Sys.start]
    split
    · exact ⟨rfl, fun i => ⟨0, rfl, rfl⟩⟩
    · rename_i s1 h1
      split at h1
      · cases h1
      · cases h1
        set s1 : Sys := { s with
          saved := upd s.saved j (some s.handler), handler := .console j,
          starts := upd s.starts j (s.starts j + 1) } with hs1
        have hb := ih s1 hn.2
        have hsv := exec_saved body s1 j hn.1
        have hs1j : s1.saved j = some s.handler := by simp [hs1, upd]
        cases he : s1.exec body with
        | mk s2 e =>
          rw [he] at hb hsv
          simp only at hb hsv
          simp only [Sys.done, hsv, hs1j]
          refine ⟨trivial, fun i => ?_⟩
          obtain ⟨n, h1, h2⟩ := hb.2 i
          by_cases hij : i = j
          · subst hij
            refine ⟨n + 1, ?_, ?_⟩
            · simp only; rw [h1]; simp only [hs1, upd, if_true]; omega
            · simp only [upd, if_true]; rw [h2]; simp only [hs1]; omega
          · refine ⟨n, ?_, ?_⟩
            · simp only; rw [h1]; simp [hs1, upd, hij]
            · simp only [upd, hij, if_false]; rw [h2]


end Dedop.Monitor.Signal
