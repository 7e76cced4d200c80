import Verif.Basic.Tactics
import Mathlib.Algebra.Order.Field.Basic

/-!
# Beam angles of a burst and the bookkeeping of stacks (model)

Models `BeamAnglesAlgorithm` (`/repo/dedop/proc/sar/algorithms/beam_angles.py`),
`L1AProcessingData.calculate_beam_angles_trend` (`/repo/dedop/model/l1a_processing_data.py`),
`SurfaceData.add_stack_beam_index`, `add_stack_burst` (`/repo/dedop/model/surface_data.py`) and
`L1BProcessor.beam_angles` (`/repo/dedop/proc/sar/processor.py`).  Angles are exact numbers; the angle
between the line of sight to a surface and the velocity (`beam_angles.py:62-74`, an arc cosine) is a
parameter.
-/
namespace Dedop.Beams

variable {R : Type} [Field R] [LinearOrder R]
variable {S B : Type}

/-- What `compute_beam_angle` needs to know about a burst: the limits `q_min`, `q_max`
(`beam_angles.py:31-33`) and its Doppler angle. -/
structure View (R : Type) where
  qMin : R
  qMax : R
  doppler : R

/-- `location_seen` of `compute_beam_angle` (`beam_angles.py:76-81`). -/
def locationSeen (v : View R) (beamAngle : R) : Bool :=
  decide (v.qMin ≤ beamAngle - v.doppler ∧ beamAngle - v.doppler ≤ v.qMax)

/-- The attributes of the algorithm (`beam_angles.py:25-27`). -/
structure Seen (R : Type) where
  workSeen : Bool
  angles : List R
  counters : List Nat
  deriving DecidableEq, Repr

/-- The loop of `__call__` (`beam_angles.py:35-53`): `n` is `n_ku_pulses_burst`, `angle` the beam angle
of a surface, `isWork` the comparison with the working location.  Between iterations only the flag
`curr_location_seen` is carried. -/
def anglesLoop (n : Nat) (v : View R) (angle : S → R) (counter : S → Nat) (isWork : S → Bool) :
    Bool → Seen R → List S → Seen R
  | _, out, [] => out
  | prev, out, s :: rest =>
    let a := angle s
    if locationSeen v a then
      let angles := out.angles ++ [a]
      let counters := out.counters ++ [counter s]
      let full := decide (angles.length > n)
      let out : Seen R :=
        { workSeen := if isWork s then true else out.workSeen
          angles := if full then angles.tail else angles
          counters := if full then counters.tail else counters }
      anglesLoop n v angle counter isWork true out rest
    else if prev then out
    else anglesLoop n v angle counter isWork false out rest

/-- `BeamAnglesAlgorithm.__call__` (`beam_angles.py:16-53`). -/
def beamAngles (n : Nat) (v : View R) (angle : S → R) (counter : S → Nat) (isWork : S → Bool)
    (surfaces : List S) : Seen R :=
  anglesLoop n v angle counter isWork false ⟨false, [], []⟩ surfaces

/-- `calculate_beam_angles_trend` (`l1a_processing_data.py:879-898`); `-1` stands for "no previous
burst". -/
def trend (n : Nat) (prevSize prevTrend : Int) (size : Nat) : Int :=
  if size = n then 0
  else if prevSize = -1 ∨ (size : Int) > prevSize then 1
  else if (size : Int) < prevSize then -1
  else prevTrend

/-- The trends of a sequence of bursts whose lists have the given sizes
(`processor.py:386-393`). -/
def trends (n : Nat) : Int → Int → List Nat → List Int
  | _, _, [] => []
  | ps, pt, size :: rest => trend n ps pt size :: trends n size (trend n ps pt size) rest

/-- The attributes of a surface concerned (`surface_data.py:1125-1139`): `stack_all_beams_indices`,
`stack_all_beams_indices_abs`, `stack_all_bursts`. -/
structure Surf (B : Type) where
  counter : Nat
  indices : List Nat
  indicesAbs : List Int
  bursts : List B
  deriving DecidableEq, Repr

/-- The appended absolute index (`surface_data.py:1128-1136`). -/
def absIndex (n : Nat) (tr : Int) (size index : Nat) : Int :=
  if tr = 1 then (index : Int) + n - size - ((n / 2 : Nat) : Int)
  else (index : Int) - ((n / 2 : Nat) : Int)

/-- `add_stack_beam_index` and `add_stack_burst` (`surface_data.py:1125-1139`). -/
def addStack (n : Nat) (tr : Int) (size index : Nat) (packet : B) (s : Surf B) : Surf B :=
  { s with
    indices := s.indices ++ [index]
    indicesAbs := s.indicesAbs ++ [absIndex n tr size index]
    bursts := s.bursts ++ [packet] }

/-- The inner loop (`processor.py:397-409`) over `surfaces[last_index:]`: the remaining surfaces, after
the call, and how far `last_index` has moved. -/
def inner (upd : Surf B → Surf B) (counter : Nat) : List (Surf B) → List (Surf B) × Nat
  | [] => ([], 0)
  | s :: rest =>
    if s.counter = counter then (upd s :: rest, 1)
    else
      let r := inner upd counter rest
      (s :: r.1, r.2 + 1)

/-- The outer loop (`processor.py:395-409`): `k` is `seen_surface_index`, `last` is `last_index`. -/
def outer (n : Nat) (tr : Int) (size : Nat) (packet : B) :
    Nat → Nat → List Nat → List (Surf B) → List (Surf B)
  | _, _, [], surfaces => surfaces
  | k, last, c :: rest, surfaces =>
    let r := inner (addStack n tr size k packet) c (surfaces.drop last)
    outer n tr size packet (k + 1) (last + r.2) rest (surfaces.take last ++ r.1)

/-- `processor.beam_angles` (`processor.py:375-409`) for one burst; `ps`, `pt` are the size and trend of
the previous burst.  Gives the algorithm's result, the trend and the surfaces afterwards. -/
def processBurst (n : Nat) (v : View R) (angle : Surf B → R) (isWork : Surf B → Bool) (packet : B)
    (ps pt : Int) (surfaces : List (Surf B)) : Seen R × Int × List (Surf B) :=
  let out := beamAngles n v angle (·.counter) isWork surfaces
  let tr := trend n ps pt out.angles.length
  (out, tr, outer n tr out.angles.length packet 0 0 out.counters surfaces)

end Dedop.Beams
