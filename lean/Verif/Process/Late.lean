import Verif.Process.History

/-!
# Long runs: examples and counterexamples (C42, C47, C48, C49)

Surfaces are processed when eighty are in the queue or all input has been read, so these runs have more
than eighty records.
-/
namespace Dedop.Process

/-- One processor working on several files, as `dedop run` does with its inputs (`cli/main.py:196-198`):
each file comes with the environment of its call (the monitor differs), the queues are kept, an exception
ends the whole. -/
def processFiles {R : Type} [Field R] [LinearOrder R] (surfaces : List (Beams.Surf (Pk R)))
    (packets : List (Pk R × Bool)) : List (Env R × List (Item R)) → List (Outcome R)
  | [] => []
  | (env, items) :: fs =>
    match processWith env surfaces packets items with
    | .finished s => .finished s :: processFiles s.surfaces s.packets fs
    | o => [o]

/-- The traces of the calls. -/
def traces {R : Type} (os : List (Outcome R)) : List (List Event) := os.map (·.trace)

/-- The example with cancellation in the first iteration. -/
def cancelAtOnce : Env ℚ := { demo with cancelled := fun k => k == 0 }

/-- C49 is violated: after a cancelled file the next file of the same processor begins with the surface
that was left, and writes it as its own.  Here surface 0 is written twice to the second file, and no
surface is located at its first record. -/
theorem history_cancelled_violated :
    ∃ (env : Env ℚ) (items : List (Item ℚ)) (t : List Event),
      traces (processFiles [] [] [(cancelAtOnce, recs 0 1 0), (env, items)]) =
        [[.iteration, .cancelSeen, .read (some 0), .progress, .calibrated 0, .accepted 0, .created 0, .closed], t] ∧
      l1bOf t = [0, 0, 1] ∧ l1bOf (process env items).trace = [0, 1] := by
  refine ⟨demo, gappy, (processWith demo (process cancelAtOnce (recs 0 1 0)).state.surfaces
    (process cancelAtOnce (recs 0 1 0)).state.packets gappy).trace, ?_⟩
  decide +kernel

/-- The example in which the last records of a file start no surface, and burst 83 sees every surface. -/
def tail : Env ℚ := { demo with
  found := fun s => .ok (decide (s.count < 81))
  angle := fun _ p w => if p.counter = 83 then 0 else (w.counter : ℚ) - p.counter }

/-- C49 is violated without any cancellation: the first file is processed to its end, but its last record
was not needed and stays in the queue unprocessed; the second file takes it for one of its own bursts and
puts it into the stack of its first surface. -/
theorem history_violated :
    ∃ (env : Env ℚ) (first second : List (Item ℚ)) (t1 t2 : List Event),
      traces (processFiles [] [] [(env, first), (env, second)]) = [t1, t2] ∧
      (∀ n < 81, n ∈ l1bOf t1) ∧ .closed ∈ t1 ∧ .cancelSeen ∉ t1 ∧
      .l1b 0 [83, 0, 1] ∈ t2 ∧ .l1b 0 [0, 1] ∈ (process env second).trace := by
  refine ⟨tail, recs 0 84 0, gappy, (process tail (recs 0 84 0)).trace,
    (processWith tail (process tail (recs 0 84 0)).state.surfaces
      (process tail (recs 0 84 0)).state.packets gappy).trace, ?_⟩
  decide +kernel

/-- Whether a call ends with an exception, and which. -/
def raised {R : Type} : Outcome R → Option PyErr
  | .failed e _ => some e
  | _ => none

/-- C48 is violated: a file with more than eighty surfaces ends with "insufficient input records", with
the outputs not closed, if a gap comes so late that fewer than eighty surfaces follow it. -/
theorem completes_violated :
    ∃ (env : Env ℚ) (items : List (Item ℚ)),
      raised (process env items) = some (.other "insufficient input records") ∧
      (∀ n < 81, n ∈ l1bOf (process env items).trace) ∧ .closed ∉ (process env items).trace := by
  refine ⟨demo, recs 0 81 0 ++ recs 81 1 1000, ?_⟩
  decide +kernel

/-- A complete run, the case of `both_files`, `all_written_or_dropped`, `cancellation_closes` and
`completes_partial`: all surfaces are created, written to both files in order, and the files closed. -/
example : ∃ s, process demo (recs 0 81 0) = .finished s ∧ s.status = none ∧
    createdOf s.trace = List.range 81 ∧ l1bOf s.trace = List.range 81 ∧ l1bsOf s.trace = List.range 81 := by
  have h : raised (process demo (recs 0 81 0)) = none ∧ (process demo (recs 0 81 0)).state.status = none ∧
    createdOf (process demo (recs 0 81 0)).state.trace = List.range 81 ∧
    l1bOf (process demo (recs 0 81 0)).state.trace = List.range 81 ∧
    l1bsOf (process demo (recs 0 81 0)).state.trace = List.range 81 := by decide +kernel
  obtain ⟨h1, h2⟩ := h
  cases hs : process demo (recs 0 81 0) with
  | finished s => rw [hs] at h2; exact ⟨s, rfl, h2⟩
  | failed e s => rw [hs] at h1; cases h1
  | timeout s =>
    unfold process processWith at hs
    exact absurd hs (process_terminates demo [] [] (recs 0 81 0) s)

end Dedop.Process
