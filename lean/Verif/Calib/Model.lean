import Verif.Signal.DFT
import Verif.Geo.Model
import Mathlib.Analysis.SpecialFunctions.Log.Base
import Mathlib.LinearAlgebra.CrossProduct
/-!
# From the input record to calibrated echoes; the sigma0 factor; the Doppler angle

Model of `L1ADataset.__getitem__` (the values it computes), `CAL1Algorithm`, `CAL2Algorithm`,
`Sigma0ScalingFactorAlgorithm` and `L1AProcessingData.compute_doppler_angle`.  Numbers are real and complex (the code computes
in double precision).
-/
namespace Dedop.Calib
open Complex (I exp)
open Finset (range)

/-! ## The input record -/

/-- `10 ** x`. -/
noncomputable def pow10 (x : ℝ) : ℝ := (10 : ℝ) ^ x

/-- A sample of the echo of a packet (dedop/data/input/l1a/l1a_dataset.py 163-168): the stored counts divided by
`pow(10., -agc / 20.)`. -/
noncomputable def echo (agc : ℝ) (i q : ℝ) : ℂ := ((i : ℂ) + I * q) / (pow10 (-agc / 20) : ℝ)

/-- The window delay of a packet (l1a_dataset.py 169-171, 204): the cosine is taken of the stored number. -/
noncomputable def winDelay (c pitch cogCor range : ℝ) : ℝ := (range + Real.cos pitch * cogCor) * 2 / c

/-! ## CAL1 and CAL2 -/

/-- `CAL1Algorithm.__call__` (dedop/proc/sar/cal/cal1_algorithm.py 8-18) on the echoes of a burst, by pulse and sample; the
powers are not negative. -/
noncomputable def cal1 (on : Bool) (agc sig0Cal : ℝ) (power phase : ℕ → ℝ) (w : ℕ → ℕ → ℂ) (p s : ℕ) : ℂ :=
  if on then
    w p s * ((√(power p) : ℝ) * exp (I * phase p) / (√(pow10 ((agc - sig0Cal) / 10)) : ℝ))
  else w p s

/-- `numpy.fft.fft` without normalisation.  Used in `cal2_algorithm.py:14`. -/
noncomputable def fft (N : ℕ) (x : ℕ → ℂ) (k : ℕ) : ℂ := ∑ n ∈ range N, x n * Signal.twiddle N k n

/-- `numpy.fft.ifft`.  Used in `cal2_algorithm.py:15`. -/
noncomputable def ifft (N : ℕ) (y : ℕ → ℂ) (n : ℕ) : ℂ := (∑ k ∈ range N, y k * Signal.twiddle N k (-(n : ℤ))) / N

/-- `numpy.fft.ifftshift`: rolled back by `N // 2`. -/
def ifftshift {A : Type} (N : ℕ) (x : ℕ → A) (k : ℕ) : A := x ((k + N / 2) % N)

/-- `CAL2Algorithm.__call__` (dedop/proc/sar/cal/cal2_algorithm.py 8-16); the gains are positive. -/
noncomputable def cal2 (on : Bool) (N : ℕ) (gain : ℕ → ℝ) (w : ℕ → ℕ → ℂ) (p s : ℕ) : ℂ :=
  if on then
    ifft N (ifftshift N fun k => Signal.fftshift N (fft N (w p)) k / (√(gain k) : ℝ)) s
  else w p s

/-- The two calibrations of a packet (dedop/proc/sar/processor.py 205-206). -/
noncomputable def calibrate (on1 on2 : Bool) (N : ℕ) (agc sig0Cal : ℝ) (power phase gain : ℕ → ℝ) (w : ℕ → ℕ → ℂ) : ℕ → ℕ → ℂ :=
  cal2 on2 N gain (cal1 on1 agc sig0Cal power phase w)

/-! ## The sigma0 scaling factor -/

/-- The constants and parameters used by the algorithm.  `sigma_zero_scaling.py:22-31`. -/
structure Radar where
  powerTx : ℝ
  antennaGain : ℝ
  wavelength : ℝ
  ratioTrc : ℝ
  nPulses : ℕ
  earthRadius : ℝ
  c : ℝ
  ptrWidth : ℝ

/-- What is used of a beam: range, velocity and pulse repetition interval of its burst.
`sigma_zero_scaling.py:40-51`. -/
structure Look where
  range : ℝ
  vel : ℝ
  pri : ℝ

open Classical in
/-- `math.log10`; `none` is the exception. -/
noncomputable def log10 (x : ℝ) : Option ℝ := if 0 < x then some (Real.logb 10 x) else none

open Classical in
/-- `math.sqrt`; `none` is the exception.  Used in `sigma_zero_scaling.py:49`. -/
noncomputable def pySqrt (x : ℝ) : Option ℝ := if 0 ≤ x then some √x else none

/-- `sigma0_offset` (dedop/proc/sar/algorithms/sigma_zero_scaling.py 24-31). -/
noncomputable def offset (r : Radar) : Option ℝ := do
  let a ← log10 64
  let b ← log10 Real.pi
  let p ← log10 r.powerTx
  let w ← log10 r.wavelength
  let n ← log10 r.nPulses
  return 10 * a + 30 * b - 10 * p - 2 * r.antennaGain - 20 * w + r.ratioTrc + 10 * n

/-- `azimuth_distance` (sigma_zero_scaling.py 44-48). -/
noncomputable def azimuthDistance (r : Radar) (l : Look) : ℝ :=
  (1 + l.range / r.earthRadius) * r.wavelength * l.range / l.pri / (2 * l.vel * r.nPulses)

/-- `range_distance` (sigma_zero_scaling.py 49-52). -/
noncomputable def rangeDistance (r : Radar) (l : Look) : Option ℝ :=
  (pySqrt (r.c * l.range * r.ptrWidth * r.earthRadius / (r.earthRadius + l.range))).map (2 * ·)

/-- One turn of the loop (sigma_zero_scaling.py 34-58).  A division by zero gives an infinite number in numpy; here the look
must have a velocity and an interval other than 0. -/
noncomputable def beamFactor (r : Radar) (agc : ℝ) (l : Look) : Option ℝ := do
  let off ← offset r
  let d ← rangeDistance r l
  let lr ← log10 l.range
  let la ← log10 (azimuthDistance r l * d * 0.886)
  return -1 * (off + 40 * lr - 10 * la - agc)

/-- `Sigma0ScalingFactorAlgorithm.__call__` (sigma_zero_scaling.py 9-61) for a stack of at most `n_looks_stack` looks, which is
what stack gathering delivers: the factors of the beams and their mean; `none` also stands for the NaN of an empty stack. -/
noncomputable def sigma0 (r : Radar) (agc : ℝ) (looks : List Look) : Option (List ℝ × ℝ) :=
  match looks.mapM (beamFactor r agc) with
  | none => none
  | some fs => if fs = [] then none else some (fs, fs.sum / fs.length)

/-! ## The Doppler angle -/

/-- A vector of three numbers.  For `l1a_processing_data.py:900-927`. -/
abbrev Vec := EuclideanSpace ℝ (Fin 3)

/-- `numpy.cross`.  Used in `l1a_processing_data.py:920-922`. -/
noncomputable def cross (a b : Vec) : Vec :=
  WithLp.toLp 2 ![a 1 * b 2 - a 2 * b 1, a 2 * b 0 - a 0 * b 2, a 0 * b 1 - a 1 * b 0]

open Classical in
/-- `compute_doppler_angle` (dedop/model/l1a_processing_data.py 899-927) for the vector `n` from the satellite to the point below
it and the velocity `v`; `fl` is the rounding of the quotient in `angle_between`.  `none` is NaN. -/
noncomputable def dopplerAngle (fl : ℝ → ℝ) (n v : Vec) : Option ℝ :=
  (Geo.angleBetween fl v (cross (cross n v) n)).map fun a => if a < Real.pi / 2 then a * -1 else a

end Dedop.Calib
