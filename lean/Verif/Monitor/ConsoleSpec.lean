import Verif.Monitor.Model

/-! # Console progress (specification)

A call is the pair of arguments of `progress(work, msg)`. -/
namespace Dedop.Monitor

/-- A `progress(work, msg)` call. -/
abbrev Call := Option ℚ × Option String

/-- A sequence of `progress` calls on a console; every exception is swallowed. -/
def Console.calls (c : Console) : List Call → Console
  | [] => c
  | (w, m) :: rest => Console.calls (c.progress w m).1 rest

/-- Work reported by a sequence of calls (a missing work argument counts as nothing). -/
def workSum : List Call → ℚ
  | [] => 0
  | (w, _) :: rest => w.getD 0 + workSum rest

/-- The integer nearest to `q`; of two candidates, the even one. -/
def IsNearestEven (q : ℚ) (n : ℤ) : Prop :=
  |(n : ℚ) - q| ≤ 1/2 ∧ (|(n : ℚ) - q| = 1/2 → n % 2 = 0)

/-- What a call displays, given the calls before it: nothing for the percentage if no work
amount was passed, else the rounded percentage of all the work reported so far. -/
def display (total : ℚ) (before : List Call) (call : Call) : Report :=
  ⟨call.1.map (fun w => pyRound (100 * (workSum before + w) / total)), call.2⟩

/-- The percentages of a list of report lines. -/
def percentages (rs : List Report) : List ℤ := rs.filterMap Report.percentage

end Dedop.Monitor
