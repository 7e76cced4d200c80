import Verif.Basic.Rounding

/-!
# Progress in floating-point numbers (C162, model)

The other files compute work amounts exactly.  Here every multiplication, division and addition of `/repo/dedop/util/monitor.py` is rounded.
-/
namespace Dedop.Monitor

/-! ## Model -/

/-- The amounts that arrive at the console when code is run on a monitor whose amounts arrive as `climb` (`monitor.py:189-204`): every child forwards
`partial_work * (work / total_work)`, each operation rounded, and `0.0` at its start and end. -/
def Prog.feed (fl : ℚ → ℚ) (climb : ℚ → ℚ) : Prog → List ℚ
  | .nil => []
  | .progress w _ rest => climb w :: rest.feed fl climb
  | .sub w _ total body rest =>
    climb 0 :: (body.feed fl (fun x => climb (fl (w * fl (x / total)))) ++ climb 0 :: rest.feed fl climb)

/-- `_worked` of the console after these amounts (`monitor.py:249`), the sum being rounded. -/
def addUp (fl : ℚ → ℚ) (worked : ℚ) : List ℚ → ℚ
  | [] => worked
  | w :: ws => addUp fl (fl (worked + w)) ws

/-- `_calc_percentage` (`monitor.py:300-302`), the product and the quotient being rounded. -/
def percent (fl : ℚ → ℚ) (total worked : ℚ) : ℤ := pyRound (fl (fl (100 * worked) / total))

/-- The percentages of the calls, in order (`monitor.py:246-255`). -/
def shown (fl : ℚ → ℚ) (total worked : ℚ) : List ℚ → List ℤ
  | [] => []
  | w :: ws => percent fl total (fl (worked + w)) :: shown fl total (fl (worked + w)) ws

/-! ## Specification: programs -/

/-- No amount is negative and every sub-task has a positive total. -/
def Prog.Positive : Prog → Prop
  | .nil => True
  | .progress w _ rest => 0 ≤ w ∧ rest.Positive
  | .sub w _ total body rest => 0 ≤ w ∧ 0 < total ∧ body.Positive ∧ rest.Positive

/-- How deep sub-tasks are nested. -/
def Prog.depth : Prog → Nat
  | .nil => 0
  | .progress _ _ rest => rest.depth
  | .sub _ _ _ body rest => max (body.depth + 1) rest.depth

/-- The number of calls that reach the console. -/
def Prog.size : Prog → Nat
  | .nil => 0
  | .progress _ _ rest => rest.size + 1
  | .sub _ _ _ body rest => body.size + rest.size + 2

end Dedop.Monitor
