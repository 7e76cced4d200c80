import Verif.Monitor.Model

/-! # Progress monitors (specification) -/
namespace Dedop.Monitor

/-- Work announced at the top level of a client program. -/
def Prog.amount : Prog → ℚ
  | .nil => 0
  | .progress w _ rest => w + rest.amount
  | .sub w _ _ _ rest => w + rest.amount

/-- Every sub-task, at every depth, has a label and reports exactly the total it announced. -/
def Prog.Complete : Prog → Prop
  | .nil => True
  | .progress _ _ rest => rest.Complete
  | .sub _ label total body rest =>
    label ≠ "" ∧ total ≠ 0 ∧ body.amount = total ∧ body.Complete ∧ rest.Complete

/-- Work effectively done by a program whose sub-tasks may be incomplete: a sub-task that did the
fraction `x / total` counts for this fraction of its share. -/
def Prog.effective : Prog → ℚ
  | .nil => 0
  | .progress w _ rest => w + rest.effective
  | .sub w _ total body rest => w * (body.effective / total) + rest.effective

/-- Every sub-task has a label and a non-zero total. -/
def Prog.Startable : Prog → Prop
  | .nil => True
  | .progress _ _ rest => rest.Startable
  | .sub _ label total body rest =>
    label ≠ "" ∧ total ≠ 0 ∧ body.Startable ∧ rest.Startable

/-- A monitor is ready for `progress` calls with a work amount: the console and all child monitors
on the way have been started, with non-zero totals. -/
inductive Ready (s : State) : Nat → Prop
  | console (w : ℚ) : s.console.worked = some w → s.console.total ≠ some 0 → Ready s 0
  | child (i : Nat) (ch : Child) (t : ℚ) : s.children[i]? = some ch → ch.parent ≤ i →
      ch.total = some t → t ≠ 0 → Ready s ch.parent → Ready s (i + 1)

/-- All monitors that exist. -/
def State.Exists (s : State) (id : Nat) : Prop := id ≤ s.children.length

end Dedop.Monitor
