import Verif.Signal.DFT

/-!
# Geometry corrections and range compression of a beam (model)

Models `GeometryCorrectionsAlgorithm` (`/repo/dedop/proc/sar/algorithms/geometry_corrections.py`) and
`RangeCompressionAlgorithm` (`/repo/dedop/proc/sar/algorithms/range_compression.py`) for one beam, over
the real and complex numbers.  The loops over the beams treat each beam alike and independently.
-/
namespace Dedop.Signal

open Finset

/-- What the corrections of one beam depend on.  Flags `flag_doppler_range_correction`,
`flag_slant_range_correction`. -/
structure GeoInput where
  dopplerOn : Bool
  slantOn : Bool
  c : ℝ
  wavelength : ℝ
  velocity : ℝ
  beamAngle : ℝ
  pulseLength : ℝ
  bandwidth : ℝ
  t0 : ℝ
  winDelaySurf : ℝ
  winDelayBurst : ℝ
  sat : Fin 3 → ℝ
  surf : Fin 3 → ℝ

/-- `range_sat_surf` (`geometry_corrections.py:95-99`). -/
noncomputable def rangeSatSurf (g : GeoInput) : ℝ :=
  Real.sqrt ((g.sat 0 - g.surf 0) ^ 2 + (g.sat 1 - g.surf 1) ^ 2 + (g.sat 2 - g.surf 2) ^ 2)

/-- `compute_doppler_correction` (`geometry_corrections.py:64-84`). -/
noncomputable def dopplerCorrection (g : GeoInput) : ℝ :=
  if g.dopplerOn then
    2 / g.c * (-g.c / g.wavelength * g.velocity * Real.cos g.beamAngle * g.pulseLength / g.bandwidth) / g.t0
  else 0

/-- `compute_slant_range_correction` (`geometry_corrections.py:86-108`). -/
noncomputable def slantCorrection (g : GeoInput) : ℝ :=
  if g.slantOn then (g.winDelaySurf - rangeSatSurf g * 2 / g.c) / g.t0 else 0

/-- `compute_win_delay_misalignments_correction` (`geometry_corrections.py:110-123`). -/
noncomputable def winDelayCorrection (g : GeoInput) : ℝ :=
  -(g.winDelaySurf - g.winDelayBurst) / g.t0

/-- `shift` (`geometry_corrections.py:134-136`). -/
noncomputable def totalShift (g : GeoInput) : ℝ :=
  dopplerCorrection g + slantCorrection g + winDelayCorrection g

/-- `apply_corrections` (`geometry_corrections.py:125-144`): `ns` is `n_samples_sar`. -/
noncomputable def applyShift (ns : ℕ) (shift : ℝ) (beam : ℕ → ℂ) (i : ℕ) : ℂ :=
  Complex.exp (2 * Complex.I * Real.pi / ns * shift * i) * beam i

/-- A vector of length `ns` padded with zeros, as `fft(…, n=padded_size)` does. -/
def pad (ns : ℕ) (x : ℕ → ℂ) (i : ℕ) : ℂ := if i < ns then x i else 0

/-- `beam_range_compr_iq` (`range_compression.py:31-44`): `zp` is `zp_fact_range`. -/
noncomputable def compressIq (zp ns : ℕ) (beam : ℕ → ℂ) (k : ℕ) : ℂ :=
  fftshift (zp * ns) (dft (zp * ns) (pad ns beam)) k

/-- `beam_range_compr` (`range_compression.py:47-48`). -/
noncomputable def compress (zp ns : ℕ) (beam : ℕ → ℂ) (k : ℕ) : ℝ := ‖compressIq zp ns beam k‖ ^ 2

end Dedop.Signal
