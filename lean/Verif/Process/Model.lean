import Verif.Beams.Model
import Verif.Basic.Dict

/-!
# The L1B processing loop (model)

Models `L1BProcessor._process` and the methods it calls to manage its two queues
(`/repo/dedop/proc/sar/processor.py`), together with `SurfaceLocationAlgorithm.__call__`
(`/repo/dedop/proc/sar/algorithms/surface_locations.py:198-230`) as far as it decides whether a surface
is created, and `BeamAnglesAlgorithm` (`Verif.Beams.Model`).  What the signal algorithms compute is
irrelevant here; that they may raise is not: every call that may raise does so according to an
arbitrary function of the state.

Every observable action is recorded in a trace.
-/
namespace Dedop.Process

variable {R : Type} [Field R] [LinearOrder R]

/-- A valid record (`L1AProcessingData`): `counter` is its index in the file
(`l1a_dataset.py:173-174`), `time` is `time_sar_ku`. -/
structure Pk (R : Type) where
  counter : Nat
  time : R
  deriving DecidableEq, Repr

/-- What `next(self.l1a_file)` may give: a record, `None` (a record not valid or outside the region), or
an exception. -/
inductive Item (R : Type) where
  | record (p : Pk R)
  | invalid
  | failure (e : PyErr)
  deriving DecidableEq, Repr

/-- Observable actions.  `beams id` is the beam angles and azimuth processing of a burst; `l1b n stack`
writing surface `n`, which has the bursts `stack`, to the L1B file; `dropped n stack` not doing so for
lack of looks. -/
inductive Event where
  | iteration
  | cancelSeen
  | read (id : Option Nat)
  | endOfInput
  | progress
  | calibrated (id : Nat)
  | accepted (id : Nat)
  | created (n : Nat)
  | gapStart (id : Nat) (total : Nat)
  | gapProgress
  | gapDone
  | beams (id : Nat)
  | dropped (n : Nat) (stack : List Nat)
  | l1b (n : Nat) (stack : List Nat)
  | l1bs (n : Nat)
  | closed
  deriving DecidableEq, Repr

/-- The variables of `_process` and the attributes of the processor.  `packets` is `_packets` with the
flag `burst_processed`; `hasSub` tells that `sub_monitor` is not `None`; `rest` is what the input has
still to give; `k` counts the iterations.  `processor.py:62-75, 127-176`. -/
structure St (R : Type) where
  k : Nat
  running : Bool
  surfaceProcessing : Bool
  status : Option Int
  prevTime : Option R
  gapProcessing : Bool
  gapResume : Bool
  hasSub : Bool
  input : Option (Pk R)
  rest : List (Item R)
  surfaces : List (Beams.Surf (Pk R))
  packets : List (Pk R × Bool)
  count : Nat
  sizePrev : Int
  trendPrev : Int
  trace : List Event
  deriving DecidableEq

/-- Parameters and the behaviour of everything not modelled.  The calls are those of `processor.py:177-349`. -/
structure Env (R : Type) where
  threshold : R
  nPulses : Nat
  nLooks : Nat
  skipL1bs : Bool
  /-- `monitor.is_cancelled()` at the start of iteration `k`. -/
  cancelled : Nat → Bool
  /-- `cal1_algorithm`, `cal2_algorithm` raise. -/
  calFails : St R → Pk R → Option PyErr
  /-- `find_new_location`. -/
  found : St R → Except PyErr Bool
  /-- What a burst sees. -/
  view : St R → Pk R → Beams.View R
  angle : St R → Pk R → Beams.Surf (Pk R) → R
  /-- `azimuth_processing` raises. -/
  azimuthFails : St R → Pk R → Option PyErr
  /-- `stack_gathering` raises. -/
  gatherFails : St R → Option PyErr
  /-- geometry corrections … sigma zero scaling raise. -/
  algorithmFails : St R → Option PyErr
  /-- `write_record` of the two files raises. -/
  l1bFails : St R → Option PyErr
  l1bsFails : St R → Option PyErr
  /-- reading the globals, writing them or closing raises. -/
  finishFails : St R → Option PyErr

/-- Result of a piece of the program: an exception keeps the state in which it was raised.
For `processor.py:127-349`. -/
abbrev Res (R A : Type) := Except (PyErr × St R) A

/-- Adds an event.  Not in the code: it records what happens (`processor.py:127-349`). -/
def St.log (s : St R) (e : Event) : St R := { s with trace := s.trace ++ [e] }

/-- A call that may raise.  The calls are those of `processor.py:177-349`. -/
def call (o : Option PyErr) (s : St R) : Res R (St R) :=
  match o with
  | none => .ok s
  | some e => .error (e, s)

/-- `min_surfs` (`processor.py:71`). -/
def minSurfs : Nat := 64 + 16

/-- Reading the next record (`processor.py:192-201`). -/
def readNext (s : St R) : Res R (St R) :=
  match s.rest with
  | [] =>
    let s' := { s with input := none }.log .endOfInput
    if s.surfaceProcessing then .ok s' else .error (.other "insufficient input records", s')
  | .failure e :: rest => .error (e, { s with rest := rest })
  | .invalid :: rest => .ok (({ s with rest := rest, input := none }.log (.read none)).log .progress)
  | .record p :: rest =>
    .ok (({ s with rest := rest, input := some p }.log (.read (some p.counter))).log .progress)

/-- Whether a new location is found (`surface_locations.py:208-215`). -/
def locate (env : Env R) (s : St R) (forceNew : Bool) : Except PyErr Bool :=
  if s.surfaces.isEmpty || forceNew then .ok true else env.found s

/-- `surface_locations` and `new_surface` (`processor.py:363-373`, `551-565`); the new surface has
empty stacks.  Tells whether a surface was created. -/
def surfaceLocations (env : Env R) (s : St R) (p : Pk R) (forceNew : Bool) : Res R (Bool × St R) :=
  let s := { s with packets := s.packets ++ [(p, false)] }.log (.accepted p.counter)
  match locate env s forceNew with
  | .error e => .error (e, s)
  | .ok false => .ok (false, s)
  | .ok true =>
    .ok (true, { s with surfaces := s.surfaces ++ [(⟨s.count, [], [], []⟩ : Beams.Surf (Pk R))]
                        count := s.count + 1 }.log (.created s.count))

/-- The test for a gap (`processor.py:209`). -/
def inTime (env : Env R) (s : St R) (p : Pk R) : Bool :=
  match s.prevTime with
  | none => true
  | some t => decide (p.time - t < env.threshold)

/-- Treatment of the current packet (`processor.py:203-223`).  The result tells whether `continue` was
executed. -/
def handlePacket (env : Env R) (s : St R) (p : Pk R) : Res R (Bool × St R) :=
  match call (env.calFails s p) s with
  | .error x => .error x
  | .ok s =>
    let s := s.log (.calibrated p.counter)
    if inTime env s p then
      match surfaceLocations env { s with prevTime := some p.time } p s.gapResume with
      | .error x => .error x
      | .ok (new, s) => .ok (!new, { s with gapResume := false })
    else
      .ok (false, { s with gapProcessing := true, prevTime := none, hasSub := true }.log
        (.gapStart p.counter s.surfaces.length))

/-- The first part of an iteration (`processor.py:184-226`). -/
def inputPhase (env : Env R) (s : St R) : Res R (Bool × St R) :=
  if s.gapProcessing then
    (if s.hasSub then .ok (false, s.log .gapProgress) else .ok (false, s))
  else
    match (if s.gapResume then .ok s else readNext s) with
    | .error x => .error x
    | .ok s =>
      match s.input with
      | none => .ok (false, s)
      | some p => handlePacket env s p

/-- `beam_angles` (`processor.py:375-409`) for one burst.  The working location is compared by identity:
it is the surface at position 0.  Gives also `work_location_seen`. -/
def burstBeams (env : Env R) (s : St R) (p : Pk R) : Bool × St R :=
  let out := Beams.beamAngles env.nPulses (env.view s p) (fun x => env.angle s p x.1)
    (fun x => x.1.counter) (fun x => x.2 == 0) s.surfaces.zipIdx
  let tr := Beams.trend env.nPulses s.sizePrev s.trendPrev out.angles.length
  (out.workSeen,
   { s with sizePrev := out.angles.length
            trendPrev := tr
            surfaces := Beams.outer env.nPulses tr out.angles.length p 0 0 out.counters s.surfaces })

/-- The loop over the packets (`processor.py:233-243`): `done` are those passed already. -/
def packetLoop (env : Env R) : List (Pk R × Bool) → List (Pk R × Bool) → St R → Res R (St R)
  | _, [], s => .ok s
  | done, (p, true) :: todo, s => packetLoop env (done ++ [(p, true)]) todo s
  | done, (p, false) :: todo, s =>
    let r := burstBeams env s p
    let s := r.2.log (.beams p.counter)
    match call (env.azimuthFails s p) s with
    | .error x => .error x
    | .ok s =>
      let s := { s with packets := done ++ (p, true) :: todo }
      if r.1 then packetLoop env (done ++ [(p, true)]) todo s else .ok s

/-- `clear_old_records` (`processor.py:351-361`) for the surface at the head of the queue. -/
def clearOld (w : Beams.Surf (Pk R)) (s : St R) : Res R (St R) :=
  match s.packets, w.bursts with
  | [], _ => .ok { s with surfaces := s.surfaces.tail }
  | _ :: _, [] => .error (.indexError, s)
  | _ :: _, b :: _ =>
    .ok { s with packets := s.packets.dropWhile (fun x => x.1.counter != b.counter)
                 surfaces := s.surfaces.tail }

/-- The bursts of a surface's stack.  `surface_data.py`: `stack_all_bursts`, used in `processor.py:355-357`. -/
def stackIds (w : Beams.Surf (Pk R)) : List Nat := w.bursts.map (·.counter)

/-- Writing to the L1B-S file if there is one (`processor.py:261-262`). -/
def writeL1bs (env : Env R) (n : Nat) (s : St R) : Res R (St R) :=
  if env.skipL1bs then .ok s
  else match call (env.l1bsFails s) s with
    | .error x => .error x
    | .ok s => .ok (s.log (.l1bs n))

/-- Processing of a surface with enough looks (`processor.py:253-264`). -/
def writeSurface (env : Env R) (w : Beams.Surf (Pk R)) (s : St R) : Res R (St R) :=
  match call (env.algorithmFails s) s with
  | .error x => .error x
  | .ok s =>
    match call (env.l1bFails s) s with
    | .error x => .error x
    | .ok s =>
      match writeL1bs env w.counter (s.log (.l1b w.counter (stackIds w))) with
      | .error x => .error x
      | .ok s => clearOld w s

/-- Stack gathering and the test for enough looks (`processor.py:245-252`); the size of the gathered
stack is the smaller of the number of bursts and `n_looks_stack` (`Stack.gather_contiguous`). -/
def finishSurface (env : Env R) (s : St R) : Res R (St R) :=
  match call (env.gatherFails s) s with
  | .error x => .error x
  | .ok s =>
    match s.surfaces with
    | [] => .error (.indexError, s)
    | w :: rest =>
      if min w.bursts.length env.nLooks < env.nLooks / 2 then
        .ok ({ s with surfaces := rest }.log (.dropped w.counter (stackIds w)))
      else writeSurface env w s

/-- The second part of an iteration (`processor.py:228-264`). -/
def surfacePhase (env : Env R) (s : St R) : Res R (St R) :=
  if s.surfaceProcessing ∨ minSurfs ≤ s.surfaces.length ∨ s.gapProcessing then
    let s := { s with surfaceProcessing := true }
    match s.surfaces with
    | [] => .error (.indexError, s)
    | _ :: _ =>
      match packetLoop env [] s.packets s with
      | .error x => .error x
      | .ok s => finishSurface env s
  else .ok s

/-- The last part of an iteration (`processor.py:266-276`). -/
def endPhase (s : St R) : Res R (St R) :=
  if s.surfaces = [] then
    if s.gapProcessing then
      let s := { s with gapProcessing := false, gapResume := true, surfaceProcessing := false }
      if s.hasSub then .ok (s.log .gapDone) else .error (.other "AttributeError", s)
    else .ok { s with running := false, status := none }
  else .ok s

/-- The test for cancellation (`processor.py:178-182`). -/
def beginIteration (env : Env R) (s : St R) : St R :=
  let s1 := { s with k := s.k + 1 }.log .iteration
  if env.cancelled s.k then { s1 with running := false }.log .cancelSeen else s1

/-- One iteration of the loop (`processor.py:178-276`). -/
def step (env : Env R) (s : St R) : Res R (St R) :=
  match inputPhase env (beginIteration env s) with
  | .error x => .error x
  | .ok (true, s) => .ok s
  | .ok (false, s) =>
    match surfacePhase env s with
    | .error x => .error x
    | .ok s => endPhase s

/-- How a call of `_process` ends.  `timeout` only says that the given number of iterations was not
enough.  `processor.py:127-349`. -/
inductive Outcome (R : Type) where
  | finished (s : St R)
  | failed (e : PyErr) (s : St R)
  | timeout (s : St R)

/-- The state at the end.  Not in the code: for statements about `processor.py:127-349`. -/
def Outcome.state : Outcome R → St R
  | .finished s => s
  | .failed _ s => s
  | .timeout s => s

/-- The whole loop with the code after it (`processor.py:178-349`), with at most the given number of
iterations. -/
def run (env : Env R) : Nat → St R → Outcome R
  | 0, s => .timeout s
  | fuel + 1, s =>
    if s.running then
      match step env s with
      | .error (e, s) => .failed e s
      | .ok s => run env fuel s
    else
      match env.finishFails s with
      | some e => .failed e s
      | none => .finished (s.log .closed)

/-- State at the start of `_process` (`processor.py:129-176`): the queues are those left by earlier
calls. -/
def start (surfaces : List (Beams.Surf (Pk R))) (packets : List (Pk R × Bool))
    (items : List (Item R)) : St R where
  k := 0
  running := true
  surfaceProcessing := false
  status := some (-1)
  prevTime := none
  gapProcessing := false
  gapResume := false
  hasSub := false
  input := none
  rest := items
  surfaces := surfaces
  packets := packets
  count := 0
  sizePrev := -1
  trendPrev := -1
  trace := []

/-- `_process` on a processor with the given queues.  The number of iterations is enough
(`process_terminates`).  `processor.py:127-349`. -/
def processWith (env : Env R) (surfaces : List (Beams.Surf (Pk R))) (packets : List (Pk R × Bool))
    (items : List (Item R)) : Outcome R :=
  run env (3 * items.length + surfaces.length + 2) (start surfaces packets items)

/-- `_process` on a new processor.  `processor.py:32-104, 127-349`. -/
def process (env : Env R) (items : List (Item R)) : Outcome R := processWith env [] [] items

end Dedop.Process
