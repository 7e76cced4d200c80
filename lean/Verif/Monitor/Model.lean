import Verif.Basic.Dict
import Mathlib.Data.Rat.Floor
import Mathlib.Data.Rat.Defs

/-!
# Progress monitors (model)

Models `/repo/dedop/util/monitor.py`.  Work amounts are rationals (floats in the code).
-/
namespace Dedop.Monitor

/-- Python's built-in `round` on a number: round half to even.  Used by
`monitor.py:301` (`_calc_percentage`). -/
def pyRound (q : ℚ) : ℤ :=
  let f := ⌊q⌋
  let r := q - f
  if r < 1/2 then f
  else if 1/2 < r then f + 1
  else if f % 2 = 0 then f else f + 1

/-- Who handles SIGINT: whatever was installed before, or a console monitor's `_on_ctrl_c`.  `monitor.py:232-262`. -/
inductive Handler where
  | original
  | console (id : Nat)
  deriving DecidableEq, Repr

/-- A call of `_report_progress(percentage, msg)` (`monitor.py:266`). -/
structure Report where
  percentage : Option ℤ
  msg : Option String
  deriving DecidableEq, Repr

/-- Fields of `ConsoleMonitor` (`monitor.py:222-232`) plus the list of reports made so far.
`stay_in_line`, `_last_line_len` only affect terminal cosmetics and are dropped. -/
structure Console where
  label : Option String := none
  worked : Option ℚ := none
  total : Option ℚ := none
  percentage : Option ℤ := none
  cancelled : Bool := false
  msg : Option String := none
  reports : List Report := []
  deriving DecidableEq, Repr

/-- `monitor.py:300-302`, `_calc_percentage`; division by a zero total raises. -/
def Console.calcPercentage (c : Console) : Except PyErr (Option ℤ) :=
  match c.worked, c.total with
  | some w, some t => if t = 0 then .error .zeroDivision else .ok (some (pyRound (100 * w / t)))
  | _, _ => .ok none

/-- `monitor.py:234-244`, `start` (the signal handler part is in `Verif.Monitor.Signal`). -/
def Console.start (c : Console) (label : String) (total : Option ℚ) : Except PyErr Console :=
  if label = "" then .error .valueError
  else .ok { c with
    label := some label, worked := some 0, percentage := none, total := total,
    reports := c.reports ++ [⟨none, some "started"⟩] }

/-- `monitor.py:251-255`: report on change, remember percentage and message. -/
def Console.finish (c : Console) (p : Option ℤ) (msg : Option String) : Console :=
  { c with
    percentage := p, msg := msg,
    reports := if p ≠ c.percentage ∨ msg ≠ c.msg then c.reports ++ [⟨p, msg⟩] else c.reports }

/-- `monitor.py:246-255`, `progress`: the new state and the exception raised, if any.
`None += work` raises `TypeError` before `start`; a zero total raises after `_worked` was updated. -/
def Console.progress (c : Console) (work : Option ℚ) (msg : Option String) :
    Console × Option PyErr :=
  match work with
  | none => (c.finish none msg, none)
  | some w =>
    match c.worked with
    | none => (c, some .typeError)
    | some w0 =>
      let c' := { c with worked := some (w0 + w) }
      match c'.calcPercentage with
      | .error e => (c', some e)
      | .ok p => (c'.finish p msg, none)

/-- `monitor.py:257-264`, `done`. -/
def Console.done (c : Console) : Console :=
  { c with reports := c.reports ++ [⟨none, some
      (if c.cancelled then "cancelled" else match c.msg with | none => "done" | some m => m)⟩] }

/-- `monitor.py:304-305`. -/
def Console.cancel (c : Console) : Console := { c with cancelled := true }

/-- The bar of `monitor.py:273-276`: number of `#` and of `-` characters.
`int(x)` truncates towards zero and `'-' * n` is empty for negative `n`. -/
def barCounts (size : Nat) (pct : ℤ) : Nat × Nat :=
  let x : ℚ := size * pct / 100 + 1/2
  let doneCount : ℤ := if 0 ≤ x then ⌊x⌋ else ⌈x⌉
  let remaining : ℤ := size - doneCount
  (doneCount.toNat, remaining.toNat)

/-! ## Child monitors -/

/-- Fields of `ChildMonitor` (`monitor.py:183-187`); `parent = 0` is the console (root) monitor,
`parent = i + 1` the `i`-th child monitor created. -/
structure Child where
  parent : Nat
  partialWork : ℚ
  total : Option ℚ := none
  label : Option String := none
  deriving DecidableEq, Repr

/-- A console monitor and all (transitive) child monitors created from it.  Monitor `0` is the
console, monitor `i + 1` is `children[i]`. -/
structure State where
  console : Console := {}
  children : List Child := []
  deriving DecidableEq, Repr

/-- `Console.progress` / `ChildMonitor.progress` (`monitor.py:197-200`), following parents up to the
console.  `work / None` is a `TypeError`, `work / 0` a `ZeroDivisionError`.  The message is formatted
with `'%s: %s'`; a label of `None` prints as `None`. -/
def State.progress (s : State) : Nat → Option ℚ → Option String → State × Option PyErr
  | 0, work, msg =>
    let (c, e) := s.console.progress work msg
    ({ s with console := c }, e)
  | i + 1, work, msg =>
    match s.children[i]? with
    | none => (s, some (.other "no such monitor"))
    | some ch =>
      if _h : ch.parent ≤ i then
        let pmsg := msg.map (fun m => ch.label.getD "None" ++ ": " ++ m)
        match work with
        | none => State.progress s ch.parent none pmsg
        | some w =>
          match ch.total with
          | none => (s, some .typeError)
          | some t =>
            if t = 0 then (s, some .zeroDivision)
            else State.progress s ch.parent (some (ch.partialWork * (w / t))) pmsg
      else (s, some (.other "ill-formed parent"))

/-- `is_cancelled` (`monitor.py:209-210`, `307-308`), following parents up to the console. -/
def State.isCancelled (s : State) : Nat → Bool
  | 0 => s.console.cancelled
  | i + 1 =>
    match s.children[i]? with
    | none => false
    | some ch => if _h : ch.parent ≤ i then State.isCancelled s ch.parent else false

/-- `cancel` (`monitor.py:206-207`, `304-305`), following parents up to the console. -/
def State.cancel (s : State) : Nat → State
  | 0 => { s with console := s.console.cancel }
  | i + 1 =>
    match s.children[i]? with
    | none => s
    | some ch => if _h : ch.parent ≤ i then State.cancel s ch.parent else s

/-- Calls a client can make on any monitor of the family.  `monitor.py:60-312`. -/
inductive Op where
  | child (parent : Nat) (work : ℚ)
  | start (id : Nat) (label : String) (total : Option ℚ)
  | progress (id : Nat) (work : Option ℚ) (msg : Option String)
  | done (id : Nat)
  | cancel (id : Nat)
  deriving DecidableEq, Repr

/-- One call.  Errors (Python exceptions) leave the reached state of the objects: `start` on a child
stores label and total (`monitor.py:192-193`) before notifying its parent, so those stay updated. -/
def State.step (s : State) : Op → State × Option PyErr
  | .child p w =>
    -- `monitor.py:117-124`
    if p ≤ s.children.length then
      ({ s with children := s.children ++ [{ parent := p, partialWork := w }] }, none)
    else (s, some (.other "no such monitor"))
  | .start 0 label total =>
    match s.console.start label total with
    | .error e => (s, some e)
    | .ok c => ({ s with console := c }, none)
  | .start (i + 1) label total =>
    -- `monitor.py:189-195`
    match s.children[i]? with
    | none => (s, some (.other "no such monitor"))
    | some ch =>
      if label = "" then (s, some .valueError)
      else
        let s' := { s with children := s.children.set i { ch with label := some label, total := total } }
        s'.progress ch.parent (if total.isSome then some 0 else none) (some label)
  | .progress id w m => s.progress id w m
  | .done 0 => ({ s with console := s.console.done }, none)
  | .done (i + 1) =>
    -- `monitor.py:202-204`
    match s.children[i]? with
    | none => (s, some (.other "no such monitor"))
    | some ch => s.progress ch.parent (if ch.total.isSome then some 0 else none) ch.label
  | .cancel id => (s.cancel id, none)

/-- A history of calls, each exception being swallowed by the client.
Not a function of the code: any sequence of calls of `monitor.py:60-312`. -/
def State.run (s : State) : List Op → State
  | [] => s
  | op :: ops => State.run (s.step op).1 ops

/-- Client code written with child monitors, as recommended in the module documentation
(`monitor.py:6-23`): a sequence of `progress` calls and of sub-tasks run under
`monitor.child(work)` with `child.starting(label, total)`. -/
inductive Prog where
  | nil
  | progress (work : ℚ) (msg : Option String) (rest : Prog)
  | sub (work : ℚ) (label : String) (total : ℚ) (body rest : Prog)
  deriving DecidableEq, Repr

/-- Execution of such code on monitor `id`; `starting` (`monitor.py:72-87`) calls `done` also when
the body raised, and `start` is outside its `try`. -/
def State.exec (s : State) (id : Nat) : Prog → State × Option PyErr
  | .nil => (s, none)
  | .progress w m rest =>
    match s.step (.progress id (some w) m) with
    | (s', some e) => (s', some e)
    | (s', none) => State.exec s' id rest
  | .sub w label total body rest =>
    let cid := s.children.length + 1
    match s.step (.child id w) with
    | (s1, some e) => (s1, some e)
    | (s1, none) =>
      match s1.step (.start cid label (some total)) with
      | (s2, some e) => (s2, some e)
      | (s2, none) =>
        match State.exec s2 cid body with
        | (s3, some e) => ((s3.step (.done cid)).1, some e)
        | (s3, none) =>
          match s3.step (.done cid) with
          | (s4, some e) => (s4, some e)
          | (s4, none) => State.exec s4 id rest

end Dedop.Monitor
