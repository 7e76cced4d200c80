import Verif.Chain.Model

/-!
# Antenna weighting of the looks (model)

With `flag_antenna_weighting_cnf` the looks are multiplied by weights taken from the characterisation file before they are averaged.
-/
namespace Dedop.Chain

open Stack

/-- The antenna pattern of the characterisation file, as far as it is there (`/repo/dedop/conf/characterization.py:68-81`). -/
structure Pattern where
  angles : Option (List ℝ)
  weights : Option (List ℝ)
  spacing : Option ℝ

/-- Reading one of the two arrays: a missing parameter raises, so does a list which has not the shape (250,)
(`/repo/dedop/conf/auxiliary_parameter.py:62-73`, `99-118`). -/
def table (x : Option (List ℝ)) : Except PyErr (List ℝ) :=
  match x with
  | none => .error (.other "MissingParameterError")
  | some l => if l.length = 250 then .ok l else .error .valueError

/-- `_select_weight_from_angle` (`/repo/dedop/proc/sar/algorithms/multilooking.py:192-219`) with the reading of the parameters it
uses.  The spacing is taken to be positive, so that `int` is the floor; with spacing 0 `int` raises for an infinite quotient. -/
noncomputable def weightOf (p : Pattern) (angle : ℝ) : Except PyErr ℝ :=
  match table p.angles with
  | .error e => .error e
  | .ok angles =>
    if angle ≤ angles.headD 0 then
      match table p.weights with
      | .error e => .error e
      | .ok weights => .ok (weights.headD 0)
    else if angle ≥ angles.getLastD 0 then
      match table p.weights with
      | .error e => .error e
      | .ok weights => .ok (weights.getLastD 0)
    else
      match p.spacing with
      | none => .error (.other "MissingParameterError")
      | some spacing =>
        if spacing = 0 then .error (.other "OverflowError")
        else
          match table p.weights with
          | .error e => .error e
          | .ok weights => Multilook.selectWeight angles weights spacing angle

/-- The loop of `apply_antenna_weighting` (`multilooking.py:177-185`). -/
noncomputable def weigh (p : Pattern) : List (Multilook.Beam ℝ) → Except PyErr (List (Multilook.Beam ℝ))
  | [] => .ok []
  | b :: rest =>
    match weightOf p b.pointing with
    | .error e => .error e
    | .ok w =>
      match weigh p rest with
      | .error e => .error e
      | .ok bs => .ok ({ b with power := b.power.map (· * w) } :: bs)

/-- `apply_antenna_weighting` (`multilooking.py:168-190`). -/
noncomputable def applyWeighting (on : Bool) (p : Pattern) (beams : List (Multilook.Beam ℝ)) :
    Except PyErr (List (Multilook.Beam ℝ)) :=
  if on then weigh p beams else .ok beams

/-- The steps for one surface (`/repo/dedop/proc/sar/processor.py:246-258`) with the flag of the antenna weighting and the antenna
pattern.  The weighting is the last step before the average (`multilooking.py:69-81`), which cannot fail, so it is put after the model
without weighting and the average is done again. -/
noncomputable def surfaceAw (on : Bool) (p : Pattern) (argsort : List ℝ → List ℕ) (round : ℝ → ℤ) (junk : ℕ → ℂ) (c : Conf)
    (bursts : ℕ → L1A) (s : Surf) (prev : ℕ) (looks : Looks) : Except PyErr (Option Result) :=
  match surface argsort round junk c bursts s prev looks with
  | .error e => .error e
  | .ok none => .ok none
  | .ok (some r) =>
    match applyWeighting on p (lookBeams r.gathered.rows r.masked) with
    | .error e => .error e
    | .ok beams => .ok (some { r with out := Multilook.compute c.avoidZeros (c.samples * c.zp) c.looks beams })

end Dedop.Chain
