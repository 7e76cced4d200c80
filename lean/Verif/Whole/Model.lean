import Verif.Process.Model
import Verif.Surface.Meridian
import Verif.Chain.AntennaModel
import Verif.Reader.Dataset

/-!
# The whole processor: from the records of the L1A file to the records of the L1B file (model)

Models `L1BProcessor.process` (`/repo/dedop/proc/sar/processor.py`) with everything it calls for a record: the
values computed when it is read, the calibrations, the surface locations, the beam angles, the azimuth
processing, the algorithms applied to a surface and the sigma0 factor.  The algorithms are the models made
elsewhere (`Calib`, `Surface`, `Beams`, `Chain`); the state of the loop is that of `Process`.  Here are the
objects passed between them.  Numbers are exact; `pi` of the constants file is π; the
Gaussian fit is left out as in `Chain`.  Where the position of a surface would not be a number the
model says `nan` and ends.
-/
namespace Dedop.Whole

open Real Process

/-- Values of the three configuration files, under the names of `Surface.Conf`, `Chain.Conf`, `Calib.Radar` and
`Reader.Bounds`; `meanAlt` is `mean_sat_alt`, `bri` is `bri_sar`, `t0` is `t0_nom`, `table` is
`flag_cal2_table_index`, `weighting` is `flag_antenna_weighting`, `pattern` the antenna pattern.
(`/repo/dedop/conf/characterisation.py`, `constants.py`, `configuration.py`.) -/
structure Conf where
  cst : Geo.Cst
  c : ℝ
  secInDay : ℝ
  earthRadius : ℝ
  freq : ℝ
  wavelength : ℝ
  pulses : ℕ
  samples : ℕ
  pri : ℝ
  bri : ℝ
  t0 : ℝ
  meanAlt : ℝ
  pulseLength : ℝ
  bandwidth : ℝ
  powerTx : ℝ
  antennaGain : ℝ
  ratioTrc : ℝ
  ptrWidth : ℝ
  focusing : Bool
  latT : ℝ
  lonT : ℝ
  altT : ℝ
  cal1 : Bool
  cal2 : Bool
  table : ℕ
  zp : ℕ
  looks : ℕ
  window : ℕ → ℝ
  exactMethod : Bool
  dopplerOn : Bool
  slantOn : Bool
  maskOn : Bool
  avoidZeros : Bool
  angleMin : Option ℝ
  angleMax : Option ℝ
  weighting : Bool
  pattern : Chain.Pattern
  bounds : Reader.Bounds ℝ

/-- What the surface locations use (`surface_locations.py:78-328`). -/
noncomputable def Conf.surface (c : Conf) : Surface.Conf :=
  { cst := c.cst, pi := π, c := c.c, secInDay := c.secInDay, freq := c.freq, pulses := c.pulses, pri := c.pri
    focusing := c.focusing, latT := c.latT, lonT := c.lonT, altT := c.altT }

/-- What the algorithms from the azimuth processing to the multilooking use (`processor.py:411-529`). -/
def Conf.chain (c : Conf) : Chain.Conf :=
  { pulses := c.pulses, samples := c.samples, zp := c.zp, looks := c.looks, window := c.window
    exactMethod := c.exactMethod, dopplerOn := c.dopplerOn, slantOn := c.slantOn, maskOn := c.maskOn
    avoidZeros := c.avoidZeros, c := c.c, wavelength := c.wavelength, pulseLength := c.pulseLength
    bandwidth := c.bandwidth, angleMin := c.angleMin, angleMax := c.angleMax }

/-- What the sigma0 factor uses (`sigma_zero_scaling.py:24-58`). -/
def Conf.radar (c : Conf) : Calib.Radar :=
  { powerTx := c.powerTx, antennaGain := c.antennaGain, wavelength := c.wavelength, ratioTrc := c.ratioTrc
    nPulses := c.pulses, earthRadius := c.earthRadius, c := c.c, ptrWidth := c.ptrWidth }

/-- The variables of the L1A file at an index, as far as the values computed here depend on them
(`/repo/dedop/data/input/l1a/l1a_dataset.py:158-239`): angles are in degrees; `roll`, `pitch`, `yaw` are the
mispointing angles, `pitchSat` is that of the satellite; `i`, `q` are the counts by pulse and sample; `power`,
`phase` the CAL1 corrections, `gprw` the CAL2 tables. -/
structure Raw where
  time : ℝ
  days : ℝ
  secs : ℝ
  lat : ℝ
  lon : ℝ
  alt : ℝ
  altRate : ℝ
  vel : Surface.V
  roll : ℝ
  pitch : ℝ
  yaw : ℝ
  pitchSat : ℝ
  cogCor : ℝ
  range : ℝ
  agc : ℝ
  sig0Cal : ℝ
  i : ℕ → ℕ → ℝ
  q : ℕ → ℕ → ℝ
  power : ℕ → ℝ
  phase : ℕ → ℝ
  gprw : ℕ → ℕ → ℝ

/-- `math.radians`, as used in `l1a_dataset.py:186-195`. -/
noncomputable def radians (x : ℝ) : ℝ := x * π / 180

/-- The window delay of a record (`l1a_dataset.py:167-169`, `206`). -/
noncomputable def delay (c : Conf) (r : Raw) : ℝ := Calib.winDelay c.c r.pitchSat r.cogCor r.range

/-- The attributes of a record used by the surface locations (`l1a_dataset.py:171-239`,
`l1a_processing_data.py:792-793`, `856-877`). -/
noncomputable def burst (c : Conf) (r : Raw) : Surface.Burst :=
  let lat := radians r.lat
  let lon := radians r.lon
  { time := r.time
    surf := Surface.ecef c.surface lat lon (r.alt - delay c r * c.c / 2)
    sat := Surface.ecef c.surface lat lon r.alt
    lat := lat, lon := lon, alt := r.alt, vel := r.vel, altRate := r.altRate
    roll := radians r.roll, pitch := radians r.pitch, yaw := radians r.yaw, win := delay c r
    days := r.days, secs := r.secs, leap := r.time - (r.days * c.secInDay + r.secs) }

/-- `compute_doppler_angle` (`l1a_processing_data.py:900-927`); `none` is NaN. -/
noncomputable def doppler (c : Conf) (r : Raw) : Option ℝ :=
  Calib.dopplerAngle id
    (Surface.ecef c.surface (radians r.lat) (radians r.lon) (r.alt - c.meanAlt) - (burst c r).sat) r.vel

/-- The attributes of a new record used by the azimuth processing and later (`l1a_dataset.py:158-239`,
`l1a_processing_data.py:822-846`): it has no beams yet.  A Doppler angle which is NaN is never used, because
such a burst sees no surface (`burstBeams`). -/
noncomputable def fresh (c : Conf) (index : ℕ) (r : Raw) : Chain.L1A :=
  { wfm := fun p s => Calib.echo r.agc (r.i p s) (r.q p s)
    angles := [], trend := 0, velocity := ‖r.vel‖, pri := c.pri, doppler := (doppler c r).getD 0
    pitch := radians r.pitch, t0 := c.t0, seqCount := index, rmc := false, winDelay := delay c r
    sat := (burst c r).sat.ofLp }

/-- The calibrations of a burst (`processor.py:205-206`). -/
noncomputable def calibrated (c : Conf) (r : Raw) (b : Chain.L1A) : Chain.L1A :=
  { b with wfm := Calib.calibrate c.cal1 c.cal2 c.samples r.agc r.sig0Cal r.power r.phase (r.gprw c.table) b.wfm }

/-- What is written for a surface, as far as it is modelled here: number, location, results of the algorithms,
sigma0 factors (`processor.py:246-262`). -/
structure Record where
  counter : ℕ
  loc : Surface.Loc
  result : Chain.Result
  sigma0 : List ℝ × ℝ

/-- The processor while a file is processed.  `ctl` are the variables of the loop, the queues of surfaces (with
their stacks) and of bursts; `surfs` are the other attributes of the surfaces in the queue, in the same order;
`mem` holds the attributes of the burst objects by their counter; `alg` is the surface location algorithm;
`closest` the attribute of the stack gathering which outlives a call; `l1b`, `l1bs` are the records written
(`processor.py:62-104`, `127-176`). -/
structure State where
  ctl : St ℝ
  surfs : List Surface.Surf
  mem : ℕ → Chain.L1A
  alg : Surface.Alg
  closest : ℕ
  l1b : List Record
  l1bs : List Record

/-- What is not determined by configuration and input: order of equal elements in `np.argsort`, rounding of
`round`, content of memory not written, cancellation at the start of an iteration, failures of writing a record
and of finishing the files; whether the second product is wanted (`processor.py:177-349`). -/
structure World where
  argsort : List ℝ → List ℕ
  round : ℝ → ℤ
  junk : ℕ → ℂ
  cancelled : ℕ → Bool
  l1bFails : Record → Option PyErr
  l1bsFails : Record → Option PyErr
  finishFails : Option PyErr
  skipL1bs : Bool

/-- Why a piece of the program ended early: an exception, or values which are not numbers.
For `processor.py:127-349`. -/
inductive Stop where
  | raised (e : PyErr) (s : State)
  | nan (s : State)

/-- Result of a piece of the program.  For `processor.py:127-349`. -/
abbrev Out (A : Type) := Except Stop A

/-- Reading the next record (`processor.py:192-201`): a new object is made. -/
noncomputable def readNext (c : Conf) (file : ℕ → Raw) (s : State) : Out State :=
  match Process.readNext s.ctl with
  | .error (e, t) => .error (.raised e { s with ctl := t })
  | .ok t =>
    match s.ctl.rest with
    | .record p :: _ =>
      .ok { s with ctl := t, mem := Function.update s.mem p.counter (fresh c p.counter (file p.counter)) }
    | _ => .ok { s with ctl := t }

/-- `surface_locations` and `new_surface` (`processor.py:363-373`, `551-565`). -/
noncomputable def surfaceLocations (c : Conf) (file : ℕ → Raw) (s : State) (p : Pk ℝ) (force : Bool) :
    Out (Bool × State) :=
  let old := s.ctl.packets.map (fun x => burst c (file x.1.counter))
  let t := { s.ctl with packets := s.ctl.packets ++ [(p, false)] }.log (.accepted p.counter)
  match Surface.step c.surface s.alg s.surfs old (burst c (file p.counter)) force with
  | .err e => .error (.raised e { s with ctl := t })
  | .nan => .error (.nan { s with ctl := t })
  | .ok alg surfs false => .ok (false, { s with ctl := t, alg := alg, surfs := surfs })
  | .ok alg surfs true =>
    .ok (true, { s with
      ctl := { t with surfaces := t.surfaces ++ [(⟨t.count, [], [], []⟩ : Beams.Surf (Pk ℝ))]
                      count := t.count + 1 }.log (.created t.count)
      alg := alg, surfs := surfs })

/-- The test for a gap (`processor.py:98-99`, `209`). -/
noncomputable def inTime (c : Conf) (s : St ℝ) (p : Pk ℝ) : Bool :=
  match s.prevTime with
  | none => true
  | some t => decide (p.time - t < c.bri * 1.5)

/-- Treatment of the current packet (`processor.py:203-223`): it is calibrated, even if that was done before a
gap.  The result tells whether `continue` was executed. -/
noncomputable def handlePacket (c : Conf) (file : ℕ → Raw) (s : State) (p : Pk ℝ) : Out (Bool × State) :=
  let s := { s with
    ctl := s.ctl.log (.calibrated p.counter)
    mem := Function.update s.mem p.counter (calibrated c (file p.counter) (s.mem p.counter)) }
  if inTime c s.ctl p then
    match surfaceLocations c file { s with ctl := { s.ctl with prevTime := some p.time } } p s.ctl.gapResume with
    | .error x => .error x
    | .ok (new, s) => .ok (!new, { s with ctl := { s.ctl with gapResume := false } })
  else
    .ok (false, { s with
      ctl := ({ s.ctl with gapProcessing := true, prevTime := none, hasSub := true } : St ℝ).log
        (.gapStart p.counter s.ctl.surfaces.length) })

/-- The first part of an iteration (`processor.py:184-226`). -/
noncomputable def inputPhase (c : Conf) (file : ℕ → Raw) (s : State) : Out (Bool × State) :=
  if s.ctl.gapProcessing then
    (if s.ctl.hasSub then .ok (false, { s with ctl := s.ctl.log .gapProgress }) else .ok (false, s))
  else
    match (if s.ctl.gapResume then .ok s else readNext c file s) with
    | .error x => .error x
    | .ok s =>
      match s.ctl.input with
      | none => .ok (false, s)
      | some p => handlePacket c file s p

/-- `q_min` (`beam_angles.py:31-32`) for the norm of the velocity: `acos` raises outside [-1, 1]; a division of
a Python number by zero raises, that by a NumPy number which is zero gives infinity. -/
noncomputable def qMin (c : Conf) (v : ℝ) : Except PyErr ℝ :=
  open Classical in
  if c.pri = 0 ∨ c.freq = 0 then .error .zeroDivision
  else if v = 0 then .error .valueError
  else if -1 ≤ c.c / c.pri / 4 / c.freq / v ∧ c.c / c.pri / 4 / c.freq / v ≤ 1 then
    .ok (arccos (c.c / c.pri / 4 / c.freq / v))
  else .error .valueError

/-- The limits of view of a burst and its Doppler angle (`beam_angles.py:29-33`, `76-81`).  If the Doppler angle
is NaN, both comparisons are false: nothing is seen. -/
noncomputable def view (q : ℝ) (d : Option ℝ) : Beams.View ℝ :=
  match d with
  | some d => ⟨q, π - q, d⟩
  | none => ⟨1, 0, 0⟩

/-- The beam angle of the surface at a position of the queue (`beam_angles.py:62-74`).  NaN is in no interval;
it is replaced by a number which is not in that of the burst. -/
noncomputable def angle (b : Surface.Burst) (v : Beams.View ℝ) (surfs : List Surface.Surf) (k : ℕ) : ℝ :=
  match surfs[k]?.bind (fun f => Surface.beamAngle f.loc.surf b.sat b.vel) with
  | some a => a
  | none => v.doppler + v.qMax + 1

/-- `beam_angles` (`processor.py:375-409`) for one burst; the working location is the surface at position 0.
The event `beams` says that the burst was begun. -/
noncomputable def burstBeams (c : Conf) (file : ℕ → Raw) (s : State) (p : Pk ℝ) : Out (Bool × State) :=
  match qMin c ‖(file p.counter).vel‖ with
  | .error e => .error (.raised e { s with ctl := s.ctl.log (.beams p.counter) })
  | .ok q =>
    let v := view q (doppler c (file p.counter))
    let out := Beams.beamAngles c.pulses v (fun x => angle (burst c (file p.counter)) v s.surfs x.2)
      (fun x : Beams.Surf (Pk ℝ) × ℕ => x.1.counter) (fun x => x.2 == 0) s.ctl.surfaces.zipIdx
    let tr := Beams.trend c.pulses s.ctl.sizePrev s.ctl.trendPrev out.angles.length
    .ok (out.workSeen,
      { s with
        ctl := { s.ctl with
          sizePrev := out.angles.length
          trendPrev := tr
          surfaces := Beams.outer c.pulses tr out.angles.length p 0 0 out.counters s.ctl.surfaces }
        mem := Function.update s.mem p.counter { s.mem p.counter with angles := out.angles, trend := tr } })

/-- The loop over the packets (`processor.py:233-243`): `done` are those passed already.  The focused beams are
not stored: `Chain.surface` computes them from the attributes of the burst. -/
noncomputable def packetLoop (c : Conf) (file : ℕ → Raw) :
    List (Pk ℝ × Bool) → List (Pk ℝ × Bool) → State → Out State
  | _, [], s => .ok s
  | done, (p, true) :: todo, s => packetLoop c file (done ++ [(p, true)]) todo s
  | done, (p, false) :: todo, s =>
    match burstBeams c file s p with
    | .error x => .error x
    | .ok (seen, s) =>
      let s := { s with ctl := s.ctl.log (.beams p.counter) }
      match Chain.azimuth c.chain (s.mem p.counter) with
      | .error e => .error (.raised e s)
      | .ok _ =>
        let s := { s with ctl := { s.ctl with packets := done ++ (p, true) :: todo } }
        if seen then packetLoop c file (done ++ [(p, true)]) todo s else .ok s

/-- The three lists of the stack of a surface (`surface_data.py:1080-1082`). -/
def looksOf (w : Beams.Surf (Pk ℝ)) : Chain.Looks :=
  List.zipWith (fun i x => (i, x.1, x.2.counter)) w.indices (List.zip w.indicesAbs w.bursts)

/-- The attributes of a surface used by the algorithms (`geometry_corrections.py:46`, `95-99`). -/
def place (f : Surface.Surf) : Chain.Surf := ⟨f.loc.surf.ofLp, f.loc.win⟩

/-- `closest_burst_index` after the stack gathering (`stack_gathering.py:106-141`), which is also left behind
if the surface is not written. -/
noncomputable def nextClosest (c : Conf) (o : World) (s : State) (looks : Chain.Looks) : ℕ :=
  match Chain.entries o.junk c.chain s.mem looks with
  | .error _ => s.closest
  | .ok es =>
    match Stack.gather o.argsort c.looks (π / 2) s.closest es with
    | .error _ => s.closest
    | .ok g => g.closest

/-- The sigma0 factors (`sigma_zero_scaling.py:9-61`, `processor.py:540-549`) from the results for a surface;
the gain setting is that of the closest burst.  `none`: the logarithm or root of a number which has none. -/
noncomputable def sigma0 (c : Conf) (file : ℕ → Raw) (mem : ℕ → Chain.L1A) (f : Surface.Surf) (r : Chain.Result) :
    Option (List ℝ × ℝ) :=
  Calib.sigma0 c.radar (((r.gathered.rows[r.gathered.closest]?).map (fun row => (file row.burst).agc)).getD 0)
    (r.gathered.rows.map (fun row =>
      ⟨Signal.rangeSatSurf (Chain.geo c.chain (place f) (mem row.burst) row), (mem row.burst).velocity,
        (mem row.burst).pri⟩))

/-- `clear_old_records` (`processor.py:351-361`). -/
noncomputable def clearOld (w : Beams.Surf (Pk ℝ)) (s : State) : Out State :=
  match Process.clearOld w s.ctl with
  | .error (e, t) => .error (.raised e { s with ctl := t })
  | .ok t => .ok { s with ctl := t, surfs := s.surfs.tail }

/-- Writing to the L1B-S file if there is one (`processor.py:261-262`). -/
noncomputable def writeL1bs (o : World) (rec : Record) (s : State) : Out State :=
  if o.skipL1bs then .ok s
  else match o.l1bsFails rec with
    | some e => .error (.raised e s)
    | none => .ok { s with ctl := s.ctl.log (.l1bs rec.counter), l1bs := s.l1bs ++ [rec] }

/-- Writing of a surface for which the algorithms gave a result (`processor.py:257-264`). -/
noncomputable def writeSurface (o : World) (w : Beams.Surf (Pk ℝ)) (rec : Record) (s : State) : Out State :=
  match o.l1bFails rec with
  | some e => .error (.raised e s)
  | none =>
    match writeL1bs o rec { s with ctl := s.ctl.log (.l1b w.counter (stackIds w)), l1b := s.l1b ++ [rec] } with
    | .error x => .error x
    | .ok s => clearOld w s

/-- The algorithms applied to the first surface of the queue (`processor.py:245-264`). -/
noncomputable def finishSurface (c : Conf) (o : World) (file : ℕ → Raw) (s : State) : Out State :=
  match s.ctl.surfaces, s.surfs with
  | w :: rest, f :: _ =>
    match Chain.surfaceAw c.weighting c.pattern o.argsort o.round o.junk c.chain s.mem (place f) s.closest (looksOf w) with
    | .error e => .error (.raised e s)
    | .ok none =>
      .ok { s with ctl := { s.ctl with surfaces := rest }.log (.dropped w.counter (stackIds w))
                   surfs := s.surfs.tail, closest := nextClosest c o s (looksOf w) }
    | .ok (some r) =>
      match sigma0 c file s.mem f r with
      | none => .error (.raised .valueError s)
      | some g =>
        writeSurface o w ⟨w.counter, f.loc, r, g⟩ { s with closest := nextClosest c o s (looksOf w) }
  | _, _ => .error (.raised .indexError s)

/-- The assignment to `surface_processing` (`processor.py:230`). -/
def State.begun (s : State) : State := { s with ctl := { s.ctl with surfaceProcessing := true } }

/-- The second part of an iteration (`processor.py:228-264`). -/
noncomputable def surfacePhase (c : Conf) (o : World) (file : ℕ → Raw) (s : State) : Out State :=
  if s.ctl.surfaceProcessing ∨ minSurfs ≤ s.ctl.surfaces.length ∨ s.ctl.gapProcessing then
    match s.ctl.surfaces with
    | [] => .error (.raised .indexError s.begun)
    | _ :: _ =>
      match packetLoop c file [] s.ctl.packets s.begun with
      | .error x => .error x
      | .ok s => finishSurface c o file s
  else .ok s

/-- The last part of an iteration (`processor.py:266-276`). -/
noncomputable def endPhase (s : State) : Out State :=
  match Process.endPhase s.ctl with
  | .error (e, t) => .error (.raised e { s with ctl := t })
  | .ok t => .ok { s with ctl := t }

/-- The test for cancellation (`processor.py:178-182`). -/
def beginIteration (o : World) (s : State) : State :=
  let t := { s.ctl with k := s.ctl.k + 1 }.log .iteration
  { s with ctl := if o.cancelled s.ctl.k then { t with running := false }.log .cancelSeen else t }

/-- One iteration of the loop (`processor.py:178-276`). -/
noncomputable def step (c : Conf) (o : World) (file : ℕ → Raw) (s : State) : Out State :=
  match inputPhase c file (beginIteration o s) with
  | .error x => .error x
  | .ok (true, s) => .ok s
  | .ok (false, s) =>
    match surfacePhase c o file s with
    | .error x => .error x
    | .ok s => endPhase s

/-- How the processing of a file ends.  `timeout` only says that the given number of iterations was not enough
(`processor.py:127-349`). -/
inductive Outcome where
  | finished (s : State)
  | failed (e : PyErr) (s : State)
  | nan (s : State)
  | timeout (s : State)

/-- The state at the end.  Not in the code: for statements about `processor.py:127-349`. -/
def Outcome.state : Outcome → State
  | .finished s => s
  | .failed _ s => s
  | .nan s => s
  | .timeout s => s

/-- The whole loop with the code after it (`processor.py:178-349`), with at most the given number of
iterations. -/
noncomputable def run (c : Conf) (o : World) (file : ℕ → Raw) : ℕ → State → Outcome
  | 0, s => .timeout s
  | fuel + 1, s =>
    if s.ctl.running then
      match step c o file s with
      | .error (.raised e s) => .failed e s
      | .error (.nan s) => .nan s
      | .ok s => run c o file fuel s
    else
      match o.finishFails with
      | some e => .failed e s
      | none => .finished { s with ctl := s.ctl.log .closed }

/-- A burst object with no attributes: the content of `mem`, but for the counter, where there is no object yet
(`l1a_processing_data.py:822-846`). -/
def blank : Chain.L1A :=
  { wfm := fun _ _ => 0, angles := [], trend := 0, velocity := 0, pri := 0, doppler := 0, pitch := 0, t0 := 0
    seqCount := 0, rmc := false, winDelay := 0, sat := fun _ => 0 }

/-- The state of a new processor at the start of `_process` (`processor.py:62-104`, `129-176`).  The attributes of
the location algorithm are set by the first surface before they are used, except those of the time before it. -/
def start (alg : Surface.Alg) (items : List (Item ℝ)) : State :=
  { ctl := Process.start [] [] items, surfs := [], mem := fun id => { blank with seqCount := id }, alg := alg, closest := 0, l1b := [], l1bs := [] }

/-- The positions in a file of `n` records (`l1a_dataset.py:96-98`). -/
def positions (file : ℕ → Raw) (n : ℕ) : Reader.Product ℝ :=
  ⟨(List.range n).map (fun i => (file i).lat), (List.range n).map (fun i => (file i).lon)⟩

/-- What the iteration over the file gives (`l1a_dataset.py:248-263`, `Reader.iterate`). -/
noncomputable def items (file : ℕ → Raw) (n : ℕ) (d : Reader.Dataset) : List (Item ℝ) :=
  (Reader.iterate (positions file n) d).map (fun
    | some i => .record ⟨i, (file i).time⟩
    | none => .invalid)

/-- `process` of a new processor on a file of `n` records (`processor.py:106-349`).  The number of iterations is
enough (`whole_terminates`). -/
noncomputable def process (c : Conf) (o : World) (alg : Surface.Alg) (file : ℕ → Raw) (n : ℕ) : Outcome :=
  match Reader.openDataset c.bounds (positions file n) with
  | .error e => .failed e (start alg [])
  | .ok d => run c o file (3 * (items file n d).length + 2) (start alg (items file n d))

end Dedop.Whole
