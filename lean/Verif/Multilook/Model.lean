import Verif.Basic.Dict
import Verif.Basic.Tactics
import Mathlib.Algebra.Order.Field.Basic
import Mathlib.Algebra.Order.Floor.Defs

/-!
# Multilooking (model)

Models `MultilookingAlgorithm` of `/repo/dedop/proc/sar/algorithms/multilooking.py`, over exact numbers.
The Gaussian fit (scipy's `curve_fit`) is not modelled.
-/
namespace Dedop.Multilook

variable {R : Type} [Field R] [LinearOrder R]

/-- One beam of the stack as seen by `compute_multilooking`: its entry of the mask vector, its row of the
mask, its (weighted) powers, its angles, the sequence count of its burst.  `multilooking.py:221-323`. -/
structure Beam (R : Type) where
  vector : Nat
  mask : List Bool
  power : List R
  look : R
  doppler : R
  pointing : R
  beamAngle : R
  seqCount : Int
  deriving DecidableEq

/-- The attributes computed.  `waveform`: `none` is NaN.  `multilooking.py:45-68`. -/
structure Out (R : Type) where
  waveform : List (Option R)
  nBeams : Nat
  start : Option Nat
  stop : Option Nat
  nStartStop : Nat
  startLook : R
  stopLook : R
  startBurst : Int
  stopBurst : Int
  vectorStartStop : List Nat
  deriving DecidableEq

/-- State of the loop (`multilooking.py:228-264`). -/
structure Acc (R : Type) where
  sum : List R
  counter : List Nat
  nBeams : Nat
  start : Option Nat
  stop : Option Nat

/-- What is added to the sample counter for one beam: the mask or 1 (`multilooking.py:268-273`). -/
def increments (avoidZeros : Bool) (samples : Nat) (b : Beam R) : List Nat :=
  if avoidZeros then b.mask.map (fun m => if m then 1 else 0) else List.replicate samples 1

/-- One turn of the loop (`multilooking.py:257-273`). -/
def turn (avoidZeros : Bool) (samples : Nat) (a : Acc R) (i : Nat) (b : Beam R) : Acc R :=
  if b.vector ≠ 0 then
    let inc := increments avoidZeros samples b
    { sum := List.zipWith (· + ·) a.sum (List.zipWith (fun p (m : Nat) => p * (m : R)) b.power inc)
      counter := List.zipWith (· + ·) a.counter inc
      nBeams := a.nBeams + 1
      start := match a.start with | none => some i | some s => some s
      stop := some i }
  else a

/-- The loop over the beams; `i` is the index of the next one.  `multilooking.py:255-273`. -/
def loop (avoidZeros : Bool) (samples : Nat) : Nat → Acc R → List (Beam R) → Acc R
  | _, a, [] => a
  | i, a, b :: rest => loop avoidZeros samples (i + 1) (turn avoidZeros samples a i b) rest

/-- Division of a sample by its counter: 0/0 is NaN (`multilooking.py:275`). -/
def divide (s : R) (n : Nat) : Option R := if n = 0 then none else some (s / n)

/-- `compute_multilooking` (`multilooking.py:221-323`) for the first `max_stack` beams of the stack;
`nLooks` is the length of the output arrays.  For an empty stack the loop does nothing. -/
def compute (avoidZeros : Bool) (samples nLooks : Nat) (beams : List (Beam R)) : Out R :=
  let a := loop avoidZeros samples 0
    ⟨List.replicate samples 0, List.replicate samples 0, 0, none, none⟩ beams
  let waveform := List.zipWith divide a.sum a.counter
  match a.start, a.stop with
  | some start, some stop =>
    let n := stop + 1 - start
    { waveform := waveform, nBeams := a.nBeams, start := some start, stop := some stop
      nStartStop := n
      startLook := (beams[start]?.map (·.look)).getD 0
      stopLook := (beams[stop]?.map (·.look)).getD 0
      startBurst := (beams[0]?.map (·.seqCount)).getD 0
      stopBurst := (beams[beams.length - 1]?.map (·.seqCount)).getD 0
      vectorStartStop := ((beams.map (·.vector)).drop start).take n ++ List.replicate (nLooks - n) 0 }
  | _, _ =>
    { waveform := waveform, nBeams := a.nBeams, start := none, stop := none, nStartStop := 0
      startLook := 0, stopLook := 0, startBurst := 0, stopBurst := 0
      vectorStartStop := List.replicate nLooks 0 }

/-- `_select_weight_from_angle` (`multilooking.py:192-219`): the tables `antenna_angles`,
`antenna_weights` and `antenna_angles_spacing`; `int` of a positive number is its floor. -/
def selectWeight [FloorRing R] (angles weights : List R) (spacing angle : R) : Except PyErr R :=
  match angles.head?, angles.getLast?, weights.head?, weights.getLast? with
  | some a0, some a1, some w0, some w1 =>
    if angle ≤ a0 then .ok w0
    else if angle ≥ a1 then .ok w1
    else
      let i := ⌊(angle - a0) / spacing⌋.toNat
      match weights[i]?, weights[i + 1]? with
      | some wl, some wr =>
        let alpha := (angle - wl) / spacing
        .ok (wl + alpha * (wr - wl))
      | _, _ => .error .indexError
  | _, _, _, _ => .error .indexError

/-- The beams used for the Gaussian fit (`multilooking.py:112-119`): first, last and their number, for
the index of the beam closest to nadir. -/
def fitWindow (closest maxStack : Int) : Int × Int × Int :=
  let last := min (closest + 124) (maxStack - 1)
  let first := max (closest - 124) 0
  (first, last, last - first + 1)

end Dedop.Multilook
