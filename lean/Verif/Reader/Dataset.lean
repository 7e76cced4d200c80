import Verif.Reader.Model
import Verif.Basic.Tactics
import Mathlib.Algebra.Order.Field.Basic

/-!
# Iteration over an L1A product (model)

Models `L1ADataset` of `/repo/dedop/data/input/l1a/l1a_dataset.py` and `InputDataset` of
`/repo/dedop/data/input/input_dataset.py`.  Positions are exact numbers (no NaN); a record is
represented by its index, the fields are read through the reader of `Verif.Reader.Model`.
-/
namespace Dedop.Reader

variable {R : Type} [Field R] [LinearOrder R]

/-- The region of interest in the configuration (`cnf.min_lat`, …), `none` for a missing bound;
degrees. -/
structure Bounds (R : Type) where
  minLat : Option R
  maxLat : Option R
  minLon : Option R
  maxLon : Option R

/-- `_roi_enabled` (`l1a_dataset.py:127-131`). -/
def roiEnabled (b : Bounds R) : Bool :=
  b.minLat.isSome || b.minLon.isSome || b.maxLat.isSome || b.maxLon.isSome

/-- `np.logical_and(roi_filter, cmp)` if the bound is given (`l1a_dataset.py:100-115`). -/
def andBound (filter : List Bool) (bound : Option R) (cmp : R → R → Bool) (xs : List R) : List Bool :=
  match bound with
  | none => filter
  | some m => List.zipWith (· && ·) filter (xs.map (fun x => cmp x m))

/-- The filter array (`l1a_dataset.py:96-116`). -/
def roiFilter (b : Bounds R) (lats lons : List R) : List Bool :=
  let f := List.replicate lats.length true
  let f := andBound f b.minLat (fun x m => decide (x ≥ m)) lats
  let f := andBound f b.minLon (fun x m => decide (x ≥ m)) lons
  let f := andBound f b.maxLat (fun x m => decide (x ≤ m)) lats
  andBound f b.maxLon (fun x m => decide (x ≤ m)) lons

/-- `np.argwhere(filter)`: positions of the true entries, in order. -/
def argwhere (filter : List Bool) : List Nat :=
  (List.range filter.length).filter (fun i => filter.getD i false)

/-- The product: positions of its records, in degrees. -/
structure Product (R : Type) where
  lats : List R
  lons : List R

/-- State of an `L1ADataset` (`l1a_dataset.py:116-125`). -/
structure Dataset where
  filter : Option (List Bool)
  start : Nat
  final : Nat
  last : Nat
  deriving DecidableEq, Repr

/-- `L1ADataset.__init__` (`l1a_dataset.py:86-125`); `min` and `max` of an empty array raise
`ValueError`. -/
def openDataset (b : Bounds R) (p : Product R) : Except PyErr Dataset :=
  if roiEnabled b then
    let f := roiFilter b p.lats p.lons
    match (argwhere f).min?, (argwhere f).max? with
    | some lo, some hi => .ok ⟨some f, lo, hi, lo⟩
    | _, _ => .error .valueError
  else .ok ⟨none, 0, p.lats.length, 0⟩

/-- `_check_roi` (`l1a_dataset.py:133-136`). -/
def checkRoi (d : Dataset) (i : Nat) : Bool :=
  match d.filter with
  | none => true
  | some f => f.getD i false

/-- `is_valid` (`input_dataset.py:18-27`): `isclose(x, 0.)` with the default tolerances holds only for
`x = 0`, and `radians(x) = 0` only for `x = 0`. -/
def isValid (p : Product R) (i : Nat) : Bool :=
  !(decide (p.lats.getD i 0 = 0) && decide (p.lons.getD i 0 = 0))

/-- `__len__` and `max_index` (`l1a_dataset.py:148-160`). -/
def Dataset.len (d : Dataset) : Nat := d.final - d.start

/-- `__next__` (`l1a_dataset.py:248-263`): `none` is `StopIteration`, `some none` a returned `None`. -/
def next (p : Product R) (d : Dataset) : Option (Option Nat) × Dataset :=
  if d.last ≥ d.final then (none, d)
  else if ¬ checkRoi d d.last then (some none, { d with last := d.last + 1 })
  else if ¬ isValid p d.last then (some none, { d with last := d.last + 1 })
  else (some (some d.last), { d with last := d.last + 1 })

/-- `n` calls of `next`. -/
def nexts (p : Product R) : Nat → Dataset → List (Option (Option Nat))
  | 0, _ => []
  | n + 1, d => (next p d).1 :: nexts p n (next p d).2

/-- `__iter__` (`l1a_dataset.py:241-246`). -/
def iterate (p : Product R) (d : Dataset) : List (Option Nat) :=
  (List.range' d.start (d.final - d.start)).map
    (fun i => if checkRoi d i && isValid p i then some i else none)

/-- `in_range` (`input_dataset.py:29-45`): positions and bounds in radians; `toRad` is the factor
`π/180`. -/
def inRange (toRad : R) (b : Bounds R) (p : Product R) (i : Nat) : Bool :=
  let lat := toRad * p.lats.getD i 0
  let lon := toRad * p.lons.getD i 0
  if b.minLat.any (fun m => decide (lat < toRad * m)) then false
  else if b.maxLat.any (fun m => decide (lat > toRad * m)) then false
  else if b.minLon.any (fun m => decide (lon < toRad * m)) then false
  else if b.maxLon.any (fun m => decide (lon > toRad * m)) then false
  else isValid p i

end Dedop.Reader
