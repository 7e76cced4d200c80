import Verif.Reader.Model
import Verif.Signal.DFT

/-!
# Azimuth processing (model)

Models `AzimuthProcessingAlgorithm` of `/repo/dedop/proc/sar/algorithms/azimuth_processing.py` over the
real and complex numbers; `cst.pi` is `π`.
-/
namespace Dedop.Azimuth

open Signal

/-- `AzimuthWindowingMethod` (`/repo/dedop/conf/enums.py`).  Lines 4-8. -/
inductive Windowing where
  | disabled | boxcar | hamming | hanning
  deriving DecidableEq, Repr

/-- `np.cos((2. * pi * n) / (width - 1))`; `none` is NaN (0/0 for `width = 1`). -/
noncomputable def cosTerm (width n : ℕ) : Option ℝ :=
  if width = 1 then none else some (Real.cos (2 * Real.pi * n / ((width : ℝ) - 1)))

/-- The values assigned inside the window for the two cosine shapes
(`azimuth_processing.py:60-65`). -/
noncomputable def hammingValue (width n : ℕ) : Option ℝ :=
  (cosTerm width n).map (fun c => 5/10 - 5/10 * c)
/-- The value of the Hanning window (`azimuth_processing.py:61-66`). -/
noncomputable def hanningValue (width n : ℕ) : Option ℝ :=
  (cosTerm width n).map (fun c => 54/100 - 46/100 * c)

/-- `window[start:end] = values` for a window of length `n`: `values` must have the length of the slice,
or length 1. -/
def assignSlice (n : ℕ) (start stop : ℤ) (values : List (Option ℝ)) (window : List (Option ℝ)) :
    Except PyErr (List (Option ℝ)) :=
  let a := Reader.sliceBound n start
  let b := Reader.sliceBound n stop
  if values.length = b - a then
    .ok (window.take a ++ values ++ window.drop (max a b))
  else if values.length = 1 then
    .ok (window.take a ++ List.replicate (b - a) (values.headD none) ++ window.drop (max a b))
  else .error .valueError

/-- `construct_azimuth_window` (`azimuth_processing.py:49-72`); `n` is `n_ku_pulses_burst`.  A
scalar is assigned as a list of length 1. -/
noncomputable def azimuthWindow (n : ℕ) (shape : Windowing) (width : ℕ) :
    Except PyErr (List (Option ℝ)) :=
  let window := List.replicate n (some (0 : ℝ))
  let start : ℤ := (n / 2 : ℕ) - (width / 2 : ℕ)
  let stop := start + width
  match shape with
  | .disabled => .ok (List.replicate n (some 1))
  | .boxcar => assignSlice n start stop [some 1] window
  | .hamming => assignSlice n start stop ((List.range width).map (hammingValue width)) window
  | .hanning => assignSlice n start stop ((List.range width).map (hanningValue width)) window

/-- What is used of a burst: list of beam angles, trend, `4 π / λ |v| pri` (the factor of
`cos(beam_angle) * pulse_index` in the phase). -/
structure Burst where
  angles : List ℝ
  trend : ℤ
  factor : ℝ

/-- Python list indexing with a possibly negative index.
Python semantics, for the indexing in `azimuth_processing.py:189-230`. -/
def pyIndex {A : Type} (l : List A) (i : ℤ) : Except PyErr A :=
  let j := if i < 0 then i + l.length else i
  if j < 0 then .error .indexError
  else match l[j.toNat]? with
    | none => .error .indexError
    | some a => .ok a

/-- The index chosen by `get_nadir_beam_angle` (`azimuth_processing.py:195-226`) for a list of the given
size. -/
def nadirIndex (n : ℕ) (trend : ℤ) (size : ℕ) : Except PyErr ℤ :=
  let half := n / 2
  if trend = 1 then (if size < half then .ok 0 else .ok (-(half : ℤ)))
  else if trend = -1 then (if size ≤ half then .ok (-1) else .ok half)
  else if trend = 0 then .ok half
  else .error (.other "Exception")

/-- `get_nadir_beam_angle` (`azimuth_processing.py:189-230`). -/
def nadirAngle {A : Type} (n : ℕ) (trend : ℤ) (angles : List A) : Except PyErr A :=
  match nadirIndex n trend angles.length with
  | .error e => .error e
  | .ok i => pyIndex angles i

/-- `compute_phase_shift` (`azimuth_processing.py:144-170`): pulse `p`, sample `s`. -/
noncomputable def phaseShift (factor angle : ℝ) (wfm : ℕ → ℕ → ℂ) (p s : ℕ) : ℂ :=
  Complex.exp (-(Complex.I * (factor * Real.cos angle * p : ℝ))) * wfm p s

/-- `compute_fft_azimuth_dimension` (`azimuth_processing.py:172-187`): row `k`, sample `s`. -/
noncomputable def fftAzimuth (n : ℕ) (x : ℕ → ℕ → ℂ) (k s : ℕ) : ℂ :=
  fftshift n (dft n (fun p => x p s)) k

/-- The beam matrix: `none` is a row of `np.empty` never written.  `azimuth_processing.py:29-33`. -/
abbrev Beams := ℕ → Option (ℕ → ℂ)

/-- `compute_approximate_method` (`azimuth_processing.py:74-112`); `wfm` is the windowed waveform with
`n` pulses, the list of angles has at most `n` entries. -/
noncomputable def approximate (n : ℕ) (b : Burst) (wfm : ℕ → ℕ → ℂ) : Except PyErr Beams :=
  match nadirAngle n b.trend b.angles with
  | .error e => .error e
  | .ok a =>
    let fft := fftAzimuth n (phaseShift b.factor a wfm)
    let offset := if b.trend = 1 then n - b.angles.length else 0
    let copyEnd := n - offset
    .ok (fun j => if j < copyEnd then some (fft (j + offset)) else none)

/-- `compute_exact_method` (`azimuth_processing.py:114-142`). -/
noncomputable def exact (n : ℕ) (b : Burst) (wfm : ℕ → ℕ → ℂ) : Beams :=
  fun j => match b.angles[j]? with
    | none => none
    | some a => some (fftAzimuth n (phaseShift b.factor a wfm) (n / 2))

end Dedop.Azimuth
