import Verif.Process.Model

/-! # An example environment and streams, used by the examples and counterexamples -/
namespace Dedop.Process

/-- Bursts see the surfaces with their own number and the two neighbours; every burst starts a surface. -/
def demo : Env ℚ where
  threshold := 3 / 2
  nPulses := 4
  nLooks := 2
  skipL1bs := false
  cancelled := fun _ => false
  calFails := fun _ _ => none
  found := fun _ => .ok true
  view := fun _ _ => ⟨-1, 1, 0⟩
  angle := fun _ p w => (w.counter : ℚ) - p.counter
  azimuthFails := fun _ _ => none
  gatherFails := fun _ => none
  algorithmFails := fun _ => none
  l1bFails := fun _ => none
  l1bsFails := fun _ => none
  finishFails := fun _ => none

/-- Nothing is ever raised in the example environment. -/
theorem demo_quiet (e : PyErr) : ¬ ((∃ s p, demo.calFails s p = some e) ∨ (∃ s, demo.found s = .error e) ∨
    (∃ s p, demo.azimuthFails s p = some e) ∨ (∃ s, demo.gatherFails s = some e) ∨
    (∃ s, demo.algorithmFails s = some e) ∨ (∃ s, demo.l1bFails s = some e) ∨
    (∃ s, demo.l1bsFails s = some e)) := by
  simp [demo]

/-- `n` records numbered from `a`, one per unit of time from `t`. -/
def recs (a n : Nat) (t : ℚ) : List (Item ℚ) :=
  (List.range n).map (fun i : Nat => .record ⟨a + i, t + i⟩)

/-- Two records, a gap, and two more. -/
def gappy : List (Item ℚ) := recs 0 2 0 ++ recs 2 2 10

end Dedop.Process
