import Verif.Basic.Dict
import Verif.Basic.Tactics
import Mathlib.Algebra.Order.Field.Basic
import Mathlib.Algebra.Order.Group.Abs

/-!
# Stack gathering (model)

Models `StackGatheringAlgorithm` of `/repo/dedop/proc/sar/algorithms/stack_gathering.py`.  Numbers are
exact (no NaN).  A focussed beam (a row of samples) is of an abstract type.
-/
namespace Dedop.Stack

variable {R C : Type} [Field R] [LinearOrder R]

/-- What is read from a burst (`stack_gathering.py:113-134`). -/
structure Burst (R C : Type) where
  id : Nat
  beamAngles : List R
  beams : List C
  doppler : R
  pitch : R
  t0 : R
  seqCount : Int
  rmc : Bool
  deriving DecidableEq, Repr

/-- An entry of the three parallel lists of a surface: beam index, absolute index, burst. -/
structure Entry (R C : Type) where
  index : Nat
  indexAbs : Int
  burst : Burst R C
  deriving DecidableEq, Repr

/-- One position of the arrays of a gathered stack (`stack_gathering.py:124-132`). -/
structure Row (R C : Type) where
  burst : Nat
  beam : C
  beamAngle : R
  t0 : R
  doppler : R
  look : R
  pointing : R
  lookIndex : Int
  lookCounter : Int
  deriving DecidableEq, Repr

/-- State of the algorithm after a call: `rows` are the positions filled; the arrays have `n_looks`
positions and keep their initial values in the others (`stack_gathering.py:75-101`). -/
structure Gathered (R C : Type) where
  size : Nat
  rows : List (Row R C)
  closest : Nat
  rmc : Bool
  deriving DecidableEq, Repr

/-- `look_angle_beam` (`stack_gathering.py:60-62`, `117`); `halfPi` is `cst.pi / 2`. -/
def lookAngle (halfPi : R) (e : Entry R C) : Except PyErr R :=
  match e.burst.beamAngles[e.index]? with
  | none => .error .indexError
  | some a => .ok (halfPi + e.burst.doppler - a)

/-- The loop over the whole stack (`stack_gathering.py:52-64`). -/
def allLooks (halfPi : R) : List (Entry R C) → Except PyErr (List R)
  | [] => .ok []
  | e :: rest =>
    match lookAngle halfPi e, allLooks halfPi rest with
    | .ok x, .ok xs => .ok (x :: xs)
    | .error err, _ => .error err
    | _, .error err => .error err

/-- The number of entries used and the offset of the first (`stack_gathering.py:35-73`).  The result of
`np.argsort` (whose order of equal elements is not specified) is a parameter; `np.min` of an empty
array raises `ValueError`. -/
def window (argsort : List R → List Nat) (n : Nat) (halfPi : R) (all : List (Entry R C)) :
    Except PyErr (Nat × Nat) :=
  if all.length < n then .ok (all.length, 0)
  else
    match allLooks halfPi all with
    | .error e => .error e
    | .ok looks =>
      match ((argsort (looks.map (|·|))).take n).min? with
      | none => .error .valueError
      | some off => .ok (n, off)

/-- One turn of the main loop, the values stored (`stack_gathering.py:106-132`). -/
def gatherRow (halfPi : R) (e : Entry R C) : Except PyErr (Row R C) :=
  match e.burst.beams[e.index]?, e.burst.beamAngles[e.index]? with
  | some beam, some a =>
    .ok { burst := e.burst.id, beam := beam, beamAngle := a, t0 := e.burst.t0
          doppler := e.burst.doppler, look := halfPi + e.burst.doppler - a
          pointing := halfPi + e.burst.doppler - a - e.burst.pitch
          lookIndex := e.indexAbs, lookCounter := e.burst.seqCount }
  | _, _ => .error .indexError

/-- The test for a closer burst (`stack_gathering.py:138-139`). -/
def closer (best : Option R) (d : R) : Bool :=
  match best with
  | none => true
  | some b => decide (d < b)

/-- The main loop (`stack_gathering.py:106-141`): `k` is `stack_index`, `best` is
`closest_burst_beam_angle`. -/
def gatherLoop (halfPi : R) (all : List (Entry R C)) (off : Nat) :
    Nat → Nat → Option R → Gathered R C → Except PyErr (Gathered R C)
  | 0, _, _, g => .ok g
  | m + 1, k, best, g =>
    match all[k + off]? with
    | none => .error .indexError
    | some e =>
      match gatherRow halfPi e with
      | .error err => .error err
      | .ok row =>
        let d := |row.beamAngle - halfPi|
        let better := closer best d
        gatherLoop halfPi all off m (k + 1) (if better then some d else best)
          { g with rows := g.rows ++ [row]
                   rmc := g.rmc || e.burst.rmc
                   closest := if better then k else g.closest }

/-- `__call__` (`stack_gathering.py:28-146`); `prevClosest` is the value of `closest_burst_index` before
the call. -/
def gather (argsort : List R → List Nat) (n : Nat) (halfPi : R) (prevClosest : Nat)
    (all : List (Entry R C)) : Except PyErr (Gathered R C) :=
  match window argsort n halfPi all with
  | .error e => .error e
  | .ok (size, off) => gatherLoop halfPi all off size 0 none ⟨size, [], prevClosest, false⟩

end Dedop.Stack
