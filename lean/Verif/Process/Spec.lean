import Verif.Process.Model

/-!
# Reading a trace of the processing loop (specification)
-/
namespace Dedop.Process

/-- Surfaces created, in order. -/
def createdOf (t : List Event) : List Nat :=
  t.filterMap (fun | .created n => some n | _ => none)

/-- Surfaces written to the L1B file, in order. -/
def l1bOf (t : List Event) : List Nat :=
  t.filterMap (fun | .l1b n _ => some n | _ => none)

/-- Surfaces written to the L1B-S file, in order. -/
def l1bsOf (t : List Event) : List Nat :=
  t.filterMap (fun | .l1bs n => some n | _ => none)

/-- Surfaces written to the L1B file or dropped, in order. -/
def doneOf (t : List Event) : List Nat :=
  t.filterMap (fun | .l1b n _ => some n | .dropped n _ => some n | _ => none)

/-- Bursts whose beams were formed, in order. -/
def beamsOf (t : List Event) : List Nat :=
  t.filterMap (fun | .beams n => some n | _ => none)

/-- Records obtained from the input and valid, in order. -/
def readOf (t : List Event) : List Nat :=
  t.filterMap (fun | .read (some n) => some n | _ => none)

/-- Records entered into the queue of bursts, in order. -/
def acceptedOf (t : List Event) : List Nat :=
  t.filterMap (fun | .accepted n => some n | _ => none)

/-- Calibrations, in order. -/
def calibratedOf (t : List Event) : List Nat :=
  t.filterMap (fun | .calibrated n => some n | _ => none)

/-- Records found after a gap, in order. -/
def gapOf (t : List Event) : List Nat :=
  t.filterMap (fun | .gapStart n _ => some n | _ => none)

/-- Number of records obtained from the input. -/
def readCount (t : List Event) : Nat := t.countP (fun | .read _ => true | _ => false)

/-- Number of units reported to the monitor. -/
def progressCount (t : List Event) : Nat := t.countP (· == .progress)

/-- Number of iterations begun. -/
def iterations (t : List Event) : Nat := t.countP (· == .iteration)

/-- Account of the gaps: an event's effect. -/
def gapStep (acc : List (Nat × Nat)) : Event → List (Nat × Nat)
  | .gapStart _ n => (n, 0) :: acc
  | .gapProgress => match acc with
    | [] => []
    | (n, k) :: rest => (n, k + 1) :: rest
  | _ => acc

/-- The gaps met so far, latest first: announced number of surfaces, and units reported for it. -/
def gapsOf (t : List Event) : List (Nat × Nat) := t.foldl gapStep []

/-- The counters of the valid records of a stream. -/
def itemIds {R : Type} (items : List (Item R)) : List Nat :=
  items.filterMap (fun | .record p => some p.counter | _ => none)

end Dedop.Process
