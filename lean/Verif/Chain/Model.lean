import Verif.Azimuth.Model
import Verif.Stack.Gathering
import Verif.Stack.Masking
import Verif.Signal.Range
import Verif.Multilook.Model
import Mathlib.Data.List.MinMax

/-!
# From the pulses of the bursts to the waveform of a surface (model)

Models the sequence of steps which `L1BProcessor.process`
(`/repo/dedop/proc/sar/processor.py:196-266`) applies to the bursts and to a surface: azimuth processing
of each burst, then stack gathering, geometry corrections, range compression, stack masking and
multilooking of the surface.  Each step is the model of its algorithm made elsewhere; here are the
assignments between them (`processor.py:411-529`).  Numbers are exact.  The antenna weighting is off and
the Gaussian fit is left out except for the number of beams it is made with.
-/
namespace Dedop.Chain

/-- Attributes of a burst used by the steps (`L1AProcessingData`, `/repo/dedop/model/l1a_processing_data.py`):
calibrated samples of the pulses, angles of the beams to the surfaces seen, trend of their number, norm
of the velocity, pulse repetition interval, Doppler angle, pitch, duration of a sample, counter, RMC
flag, window delay, position. -/
structure L1A where
  wfm : ℕ → ℕ → ℂ
  angles : List ℝ
  trend : ℤ
  velocity : ℝ
  pri : ℝ
  doppler : ℝ
  pitch : ℝ
  t0 : ℝ
  seqCount : ℤ
  rmc : Bool
  winDelay : ℝ
  sat : Fin 3 → ℝ

/-- Constants, characterisation and configuration used by the steps: numbers of pulses, samples and looks,
padding factor, azimuth window (see `Azimuth.azimuthWindow`), azimuth method, flags, speed of light,
wavelength, pulse length, bandwidth, bounds of the look angle (`processor.py:59-95`). -/
structure Conf where
  pulses : ℕ
  samples : ℕ
  zp : ℕ
  looks : ℕ
  window : ℕ → ℝ
  exactMethod : Bool
  dopplerOn : Bool
  slantOn : Bool
  maskOn : Bool
  avoidZeros : Bool
  c : ℝ
  wavelength : ℝ
  pulseLength : ℝ
  bandwidth : ℝ
  angleMin : Option ℝ
  angleMax : Option ℝ

/-- Attributes of the surface known before its stack is processed: position and window delay
(`/repo/dedop/model/surface_data.py:90-150`). -/
structure Surf where
  pos : Fin 3 → ℝ
  winDelay : ℝ

/-- The burst as seen by the azimuth processing; the factor is that of `cos(beam_angle) * pulse_index`
(`azimuth_processing.py:164-166`). -/
noncomputable def azBurst (c : Conf) (b : L1A) : Azimuth.Burst :=
  ⟨b.angles, b.trend, 4 * Real.pi / c.wavelength * b.velocity * b.pri⟩

/-- `AzimuthProcessingAlgorithm.__call__` (`azimuth_processing.py:22-46`) with `azimuth_processing`
(`processor.py:411-416`). -/
noncomputable def azimuth (c : Conf) (b : L1A) : Except PyErr Azimuth.Beams :=
  let windowed : ℕ → ℕ → ℂ := fun p s => b.wfm p s * (c.window p : ℂ)
  if c.exactMethod then .ok (Azimuth.exact c.pulses (azBurst c b) windowed)
  else Azimuth.approximate c.pulses (azBurst c b) windowed

/-- The burst as seen by the stack gathering: `id` stands for the object, rows of the beam matrix which
were not written hold `junk` (`azimuth_processing.py:29-33`, `stack_gathering.py:106-134`). -/
def stackBurst (junk : ℕ → ℂ) (c : Conf) (id : ℕ) (b : L1A) (beams : Azimuth.Beams) :
    Stack.Burst ℝ (ℕ → ℂ) :=
  { id := id, beamAngles := b.angles, beams := (List.range c.pulses).map (fun j => (beams j).getD junk)
    doppler := b.doppler, pitch := b.pitch, t0 := b.t0, seqCount := b.seqCount, rmc := b.rmc }

/-- The stack of a surface: beam index, absolute index and burst of each look
(`processor.py:361-409`). -/
abbrev Looks := List (ℕ × ℤ × ℕ)

/-- The three lists of a surface with the processed bursts (`processor.py:227-240`, `361-409`).  The code
processes each burst once, before any surface that needs it; here it is processed for each look. -/
noncomputable def entries (junk : ℕ → ℂ) (c : Conf) (bursts : ℕ → L1A) :
    Looks → Except PyErr (List (Stack.Entry ℝ (ℕ → ℂ)))
  | [] => .ok []
  | (i, a, id) :: rest =>
    match azimuth c (bursts id), entries junk c bursts rest with
    | .error e, _ => .error e
    | _, .error e => .error e
    | .ok beams, .ok es => .ok (⟨i, a, stackBurst junk c id (bursts id) beams⟩ :: es)

/-- What the geometry corrections of one look read (`geometry_corrections.py:65-129`). -/
def geo (c : Conf) (s : Surf) (b : L1A) (row : Stack.Row ℝ (ℕ → ℂ)) : Signal.GeoInput :=
  { dopplerOn := c.dopplerOn, slantOn := c.slantOn, c := c.c, wavelength := c.wavelength
    velocity := b.velocity, beamAngle := row.beamAngle, pulseLength := c.pulseLength
    bandwidth := c.bandwidth, t0 := row.t0, winDelaySurf := s.winDelay, winDelayBurst := b.winDelay
    sat := b.sat, surf := s.pos }

/-- The total shift of a look (`geometry_corrections.py:141-143`, `stack_masking.py:62-67`). -/
noncomputable def shiftOf (c : Conf) (bursts : ℕ → L1A) (s : Surf) (row : Stack.Row ℝ (ℕ → ℂ)) : ℝ :=
  Signal.totalShift (geo c s (bursts row.burst) row)

/-- Geometry corrections and range compression of a look (`processor.py:418-446`). -/
noncomputable def compressed (c : Conf) (bursts : ℕ → L1A) (s : Surf) (row : Stack.Row ℝ (ℕ → ℂ)) :
    List ℝ :=
  (List.range (c.samples * c.zp)).map
    (Signal.compress c.zp c.samples (Signal.applyShift c.samples (shiftOf c bursts s row) row.beam))

/-- The configuration of the masking (`stack_masking.py:12-34`). -/
def maskConf (c : Conf) : Stack.MaskConf ℝ :=
  ⟨c.looks, c.samples, c.zp, c.maskOn, c.angleMin, c.angleMax⟩

/-- What the masking reads (`stack_masking.py:52-162`). -/
noncomputable def maskInput (c : Conf) (bursts : ℕ → L1A) (s : Surf) (rows : List (Stack.Row ℝ (ℕ → ℂ))) :
    Stack.MaskInput ℝ :=
  { stackSize := rows.length
    shift := fun i => ((rows[i]?).map (shiftOf c bursts s)).getD 0
    look := fun i => ((rows[i]?).map (·.look)).getD 0
    beams := rows.map (compressed c bursts s) }

/-- What the multilooking reads of the looks (`multilooking.py:251-272`, `processor.py:484-497`). -/
def lookBeams (rows : List (Stack.Row ℝ (ℕ → ℂ))) (m : Stack.Masked ℝ) : List (Multilook.Beam ℝ) :=
  rows.zipIdx.map (fun x =>
    { vector := m.vector.getD x.2 0, mask := m.mask.getD x.2 [], power := m.beams.getD x.2 []
      look := x.1.look, doppler := x.1.doppler, pointing := x.1.pointing, beamAngle := x.1.beamAngle
      seqCount := x.1.lookCounter })

/-- The number of beams used for the Gaussian fit (`multilooking.py:93-119`): `np.argmin` is taken over
the `n_looks_stack` entries of the array, of which those beyond the stack are zero. -/
noncomputable def fitCount (c : Conf) (rows : List (Stack.Row ℝ (ℕ → ℂ))) : ℤ :=
  let angle : ℕ → ℝ := fun i => ((rows[i]?).map (·.beamAngle)).getD 0
  let i := ((List.range c.looks).argmin (fun i => |Real.pi / 2 - angle i|)).getD 0
  (Multilook.fitWindow i (min c.looks rows.length)).2.2

/-- What is computed for a surface, as stored in it before its record is written (`processor.py:246-258`). -/
structure Result where
  gathered : Stack.Gathered ℝ (ℕ → ℂ)
  shifts : List ℝ
  masked : Stack.Masked ℝ
  out : Multilook.Out ℝ

/-- The steps for one surface (`processor.py:246-258`).  `prev` is the index of the closest burst left in
the gathering algorithm by the surface before: the only attribute of an algorithm which a call may
leave as it was.  `none`: too few looks, no record is written (`processor.py:250-251`).  A fit with no
beams ends, at the latest, in the division of 0 by 0 (`multilooking.py:165`), one with a negative number of beams in
`np.empty` (`multilooking.py:121`). -/
noncomputable def surface (argsort : List ℝ → List ℕ) (round : ℝ → ℤ) (junk : ℕ → ℂ) (c : Conf)
    (bursts : ℕ → L1A) (s : Surf) (prev : ℕ) (looks : Looks) : Except PyErr (Option Result) :=
  match entries junk c bursts looks with
  | .error e => .error e
  | .ok es =>
    match Stack.gather argsort c.looks (Real.pi / 2) prev es with
    | .error e => .error e
    | .ok g =>
      if g.size < c.looks / 2 then .ok none
      else
        match Stack.masking round (maskConf c) (maskInput c bursts s g.rows) with
        | .error e => .error e
        | .ok m =>
          if fitCount c g.rows = 0 then .error .zeroDivision
          else if fitCount c g.rows < 0 then .error .valueError
          else .ok (some
            ⟨g, g.rows.map (shiftOf c bursts s), m,
              Multilook.compute c.avoidZeros (c.samples * c.zp) c.looks (lookBeams g.rows m)⟩)

end Dedop.Chain
