import Verif.Multilook.Model
import Mathlib.Probability.Distributions.Gaussian.Real
/-!
# The statistics of a stack (C112)

Model of `compute_stack_characterization_params` (multilooking.py 83-166): a Gaussian curve is fitted to the powers of the beams;
its parameters and the skewness and kurtosis of its values go into the products.  SciPy's `curve_fit` is left open: any function
of the points.  Over real numbers; what is not finite in floating point is `none`.
-/
namespace Dedop.Multilook.Stats

/-- `gauss` (multilooking.py 12-17). -/
noncomputable def gauss (a b c x : ℝ) : ℝ := a * Real.exp (-(x - b) ^ 2 / c ^ 2)

/-- `curve_fit(gauss, x, y)` (multilooking.py 33-35): the parameters, `none` for one of the exceptions caught at line 36, or
another exception.  Left open. -/
abbrev Fitter := List (ℝ × ℝ) → Except PyErr (Option (ℝ × ℝ × ℝ))

/-- `gauss_fit` after the selection of finite points (multilooking.py 29-39). -/
def gaussFit (fit : Fitter) (points : List (ℝ × ℝ)) : Except PyErr (ℝ × ℝ × ℝ) :=
  match fit points with
  | .ok (some p) => .ok p
  | .ok none => .ok (1, 1, 1)
  | .error e => .error e

/-- What the statistics are computed from: the masked beams with their angles, as in the attributes `beams_masked`,
`beam_angles_surf`, `look_angles_surf` and `pointing_angles_surf` of a surface (multilooking.py 89-133), and the settings
`n_samples_sar`, `zp_fact_range` and `n_looks_stack`. -/
structure Input where
  samples : Nat
  padding : Nat
  looks : Nat
  beams : List (List ℝ)
  beamAngles : List ℝ
  lookAngles : List ℝ
  pointingAngles : List ℝ

/-- `max_stack` (multilooking.py 103); the number of beams is `data_stack_size`. -/
def Input.maxStack (s : Input) : Nat := min s.looks s.beams.length

/-- The power of a beam: the sum of its first `beam_length` samples (multilooking.py 101, 105-108). -/
def Input.power (s : Input) (row : List ℝ) : ℝ := (row.take (s.samples / 2 * s.padding)).sum

/-- `beam_power` (multilooking.py 89, 104-108), the entries up to `max_stack`. -/
def Input.powers (s : Input) : List ℝ := (s.beams.take s.maxStack).map s.power

/-- `max_beam_power` (multilooking.py 91, 109-110). -/
noncomputable def largest (l : List ℝ) : ℝ := l.foldl (fun m p => if p > m then p else m) 0

/-- `beam_power[i] / max_beam_power` (multilooking.py 128-129): not finite if no beam has power. -/
noncomputable def normalised (most p : ℝ) : Option ℝ := if most = 0 then none else some (p / most)

/-- `np.argmin` (multilooking.py 98-99): the first index of the smallest element. -/
noncomputable def argmin (l : List ℝ) : Nat := l.findIdx fun x => decide (∀ y ∈ l, x ≤ y)

/-- `min_beam_angle_complementary_index` (multilooking.py 93-99). -/
noncomputable def Input.closest (s : Input) : Nat := argmin (s.beamAngles.map fun x => |Real.pi / 2 - x|)

/-- `first_left_beam` and `n_samples_fitting` (multilooking.py 114-119; the same arithmetic as `fitWindow`). -/
noncomputable def Input.window (s : Input) : Nat × Nat :=
  (s.closest - 124, min (s.closest + 124) (s.maxStack - 1) + 1 - (s.closest - 124))

/-- The part of an array inside the window (multilooking.py 125-133). -/
noncomputable def Input.centre {α : Type} (s : Input) (l : List α) : List α := (l.drop s.window.1).take s.window.2

/-- `beam_power_center` (multilooking.py 128-129). -/
noncomputable def Input.heights (s : Input) : List (Option ℝ) :=
  s.centre (s.powers.map (normalised (largest s.powers)))

/-- The points of a fit: those which are finite (multilooking.py 25-27). -/
def points (xs : List ℝ) (ys : List (Option ℝ)) : List (ℝ × ℝ) := (xs.zip ys).filterMap fun e => e.2.map fun y => (e.1, y)

/-- `np.mean`; 0 for an empty list, which does not occur (multilooking.py 149-151). -/
noncomputable def mean (l : List ℝ) : ℝ := l.sum / l.length

/-- `np.std` (multilooking.py 152-154). -/
noncomputable def std (l : List ℝ) : ℝ := √(mean (l.map fun x => (x - mean l) ^ 2))

/-- The mean of a power of the standardised values, as in the loop for skewness and kurtosis (multilooking.py 156-166); 0/0 is
not a number. -/
noncomputable def moment (l : List ℝ) (k : Nat) : Option ℝ :=
  if std l = 0 then none else some (mean (l.map fun x => ((x - mean l) / std l) ^ k))

/-- The statistics of a stack (multilooking.py 137-166). -/
structure Stats where
  max : ℝ
  lookCentre : ℝ
  std : ℝ
  pointingCentre : ℝ
  skewness : Option ℝ
  kurtosis : Option ℝ

/-- `compute_stack_characterization_params` (multilooking.py 83-166). -/
noncomputable def characterise (fit : Fitter) (s : Input) : Except PyErr Stats :=
  match gaussFit fit (points (s.centre s.lookAngles) s.heights) with
  | .error e => .error e
  | .ok (la, lb, lc) =>
    match gaussFit fit (points (s.centre s.pointingAngles) s.heights) with
    | .error e => .error e
    | .ok (_, pb, _) =>
      match gaussFit fit (points ((List.range s.window.2).map fun i : Nat => (i : ℝ)) s.heights) with
      | .error e => .error e
      | .ok (a, b, c) =>
        let fitted := (List.range s.window.2).map fun i : Nat => gauss a b c (i : ℝ)
        .ok ⟨la, lb, lc / 2, pb, moment fitted 3, (moment fitted 4).map fun m => m - 3⟩

end Dedop.Multilook.Stats
