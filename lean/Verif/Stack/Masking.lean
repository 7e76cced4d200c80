import Verif.Basic.Dict
import Verif.Basic.Tactics
import Mathlib.Algebra.Order.Field.Basic

/-!
# Stack masking (model)

Models `StackMaskingAlgorithm` of `/repo/dedop/proc/sar/algorithms/stack_masking.py`.  A mask holds only
0 and 1 and is a list of rows of Booleans; powers and angles are exact numbers.
-/
namespace Dedop.Stack

variable {R : Type} [Field R] [LinearOrder R]

/-- Parameters: `n_looks_stack`, `n_samples_sar`, `zp_fact_range`, the flag and the bounds. -/
structure MaskConf (R : Type) where
  nLooks : Nat
  nSamples : Nat
  zp : Nat
  enabled : Bool
  angleMin : Option R
  angleMax : Option R

/-- The attributes of the working surface used: size of the stack; per beam the sum of the Doppler,
slant range and window delay corrections and the look angle; the compressed beams (one row per beam
of the stack, `n_samples_sar * zp_fact_range` columns). -/
structure MaskInput (R : Type) where
  stackSize : Nat
  shift : Nat → R
  look : Nat → R
  beams : List (List R)

/-- `default_mask` (`stack_masking.py:36-50`). -/
def defaultMask (c : MaskConf R) : List (List Bool) × List Nat :=
  (List.replicate c.nLooks (List.replicate (c.nSamples * c.zp) true),
   List.replicate c.nLooks (c.nSamples * c.zp - 1))

/-- The limits computed for one beam (`stack_masking.py:69-77`); `k` is `shift_coarse`. -/
def geomLimits (c : MaskConf R) (k : Int) : Int × Int :=
  if k > 0 then (k * c.zp, c.nSamples * c.zp) else (0, (c.nSamples - |k|) * c.zp)

/-- One row of the geometry mask (`stack_masking.py:78-79`). -/
def geomRow (c : MaskConf R) (k : Int) : List Bool :=
  let lim := geomLimits c k
  (List.range (c.nSamples * c.zp)).map (fun col : Nat =>
    if lim.1 < lim.2 then decide (lim.1 ≤ (col : Int) ∧ (col : Int) < lim.2) else false)

/-- `compute_geometry_mask` (`stack_masking.py:52-81`); `np.round` is a parameter. -/
def geometryMask (round : R → Int) (c : MaskConf R) (x : MaskInput R) : List (List Bool) :=
  (List.range c.nLooks).map (fun b =>
    if b < min x.stackSize c.nLooks then geomRow c (round (x.shift b))
    else List.replicate (c.nSamples * c.zp) false)

/-- `compute_ambiguity_mask` (`stack_masking.py:83-97`). -/
def ambiguityMask (c : MaskConf R) : List (List Bool) :=
  List.replicate c.nLooks (List.replicate (c.nSamples * c.zp) true)

/-- `compute_angle_mask` (`stack_masking.py:99-117`). -/
def angleMask (c : MaskConf R) (x : MaskInput R) : List (List Bool) :=
  match c.angleMin, c.angleMax with
  | some lo, some hi =>
    (List.range c.nLooks).map (fun b =>
      List.replicate (c.nSamples * c.zp)
        (if b < min x.stackSize c.nLooks then decide (lo < x.look b ∧ x.look b < hi) else true))
  | _, _ => List.replicate c.nLooks (List.replicate (c.nSamples * c.zp) true)

/-- The search through the reversed row (`stack_masking.py:146-153`): `i` is the position. -/
def searchBack (beamSize : Nat) : Nat → List Bool → Nat
  | _, [] => 0
  | i, b :: rest => if b then beamSize - i else searchBack beamSize (i + 1) rest

/-- The entry of the mask vector for one row (`stack_masking.py:133-153`). -/
def maskEntry (row : List Bool) : Except PyErr Nat :=
  match row.getLast? with
  | none => .error .indexError
  | some true => .ok (row.length - 1)
  | some false => .ok (searchBack row.length 0 row.reverse)

/-- The product of three rows (`stack_masking.py:126-127`). -/
def mulRows (a b c : List Bool) : List Bool :=
  List.zipWith (· && ·) (List.zipWith (· && ·) a b) c

/-- `combine_masks` (`stack_masking.py:119-155`). -/
def combineMasks : List (List Bool) → List (List Bool) → List (List Bool) →
    Except PyErr (List (List Bool) × List Nat)
  | g :: gs, a :: as, n :: ns =>
    match maskEntry (mulRows g a n), combineMasks gs as ns with
    | .ok v, .ok (ms, vs) => .ok (mulRows g a n :: ms, v :: vs)
    | .error e, _ => .error e
    | _, .error e => .error e
  | _, _, _ => .ok ([], [])

/-- `apply_mask` (`stack_masking.py:157-162`). -/
def applyMask (x : MaskInput R) (mask : List (List Bool)) : List (List R) :=
  List.zipWith (List.zipWith (fun v (b : Bool) => v * (if b then 1 else 0)))
    x.beams (mask.take x.stackSize)

/-- Result of the algorithm: the masked beams, the mask, the mask vector. -/
structure Masked (R : Type) where
  beams : List (List R)
  mask : List (List Bool)
  vector : List Nat
  deriving DecidableEq

/-- `__call__` (`stack_masking.py:12-34`). -/
def masking (round : R → Int) (c : MaskConf R) (x : MaskInput R) : Except PyErr (Masked R) :=
  if c.enabled then
    match combineMasks (geometryMask round c x) (ambiguityMask c) (angleMask c x) with
    | .error e => .error e
    | .ok (m, v) => .ok ⟨applyMask x m, m, v⟩
  else .ok ⟨x.beams, (defaultMask c).1, (defaultMask c).2⟩

end Dedop.Stack
