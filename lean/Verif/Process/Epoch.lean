import Verif.Process.Causal

/-!
# The origin of the clock (C138): the processing loop

The times of all records get later by the same amount.  Nothing the processor does depends on it: it reads, accepts, calibrates, creates,
processes and writes the same things in the same order.
-/
namespace Dedop.Process.Epoch

set_option linter.unusedSectionVars false

variable {R : Type} [Field R] [LinearOrder R]

/-! ## Specification -/

/-- The same record, measured later. -/
def laterPk (d : R) (p : Pk R) : Pk R := { p with time := p.time + d }

/-- What the input gives, measured later. -/
def laterItem (d : R) : Item R → Item R
  | .record p => .record (laterPk d p)
  | .invalid => .invalid
  | .failure e => .failure e

/-- A surface whose bursts were measured later. -/
def laterSurf (d : R) (x : Beams.Surf (Pk R)) : Beams.Surf (Pk R) := { x with bursts := x.bursts.map (laterPk d) }

/-- The state in which everything was measured later. -/
def later (d : R) (s : St R) : St R :=
  { s with
    prevTime := s.prevTime.map (· + d)
    input := s.input.map (laterPk d)
    rest := s.rest.map (laterItem d)
    surfaces := s.surfaces.map (laterSurf d)
    packets := s.packets.map fun x => (laterPk d x.1, x.2) }

/-- The algorithms and writers do the same with what was measured later (for the surface locations, the only algorithm which is given times:
`Surface.Epoch.epoch_track`). -/
structure Same (d : R) (env env' : Env R) : Prop where
  threshold : env'.threshold = env.threshold
  pulses : env'.nPulses = env.nPulses
  looks : env'.nLooks = env.nLooks
  skip : env'.skipL1bs = env.skipL1bs
  cancelled : ∀ k, env'.cancelled k = env.cancelled k
  cal : ∀ s p, env'.calFails (later d s) (laterPk d p) = env.calFails s p
  found : ∀ s, env'.found (later d s) = env.found s
  view : ∀ s p, env'.view (later d s) (laterPk d p) = env.view s p
  angle : ∀ s p x, env'.angle (later d s) (laterPk d p) (laterSurf d x) = env.angle s p x
  azimuth : ∀ s p, env'.azimuthFails (later d s) (laterPk d p) = env.azimuthFails s p
  gather : ∀ s, env'.gatherFails (later d s) = env.gatherFails s
  algorithm : ∀ s, env'.algorithmFails (later d s) = env.algorithmFails s
  l1b : ∀ s, env'.l1bFails (later d s) = env.l1bFails s
  l1bs : ∀ s, env'.l1bsFails (later d s) = env.l1bsFails s
  finish : ∀ s, env'.finishFails (later d s) = env.finishFails s

/-! ## Lemmas -/

theorem later_log (d : R) (s : St R) (e : Event) : (later d s).log e = later d (s.log e) := rfl

theorem call_later (d : R) (o : Option PyErr) (s : St R) : call o (later d s) = mapRes (later d) (later d) (call o s) := by
  cases o <;> rfl

theorem begin_later {d : R} {env env' : Env R} (hu : Same d env env') (s : St R) :
    beginIteration env' (later d s) = later d (beginIteration env s) := by
  unfold beginIteration
  show (if env'.cancelled s.k = true then _ else _) = _
  rw [hu.cancelled]
  dsimp only
  split <;> rfl

theorem read_later (d : R) (s : St R) : readNext (later d s) = mapRes (later d) (later d) (readNext s) := by
  obtain ⟨k, running, sp, status, prev, gp, gr, sub, input, rest, surfaces, packets, count, size, trend, trace⟩ := s
  cases rest with
  | nil => cases sp <;> rfl
  | cons x rest => cases x <;> rfl

theorem inTime_later {d : R} {env env' : Env R} (hu : Same d env env') (s : St R) (p : Pk R) :
    inTime env' (later d s) (laterPk d p) = inTime env s p := by
  unfold inTime
  show (match s.prevTime.map (· + d) with | none => true | some t => decide (p.time + d - t < env'.threshold)) = _
  rw [hu.threshold]
  cases s.prevTime with
  | none => rfl
  | some t =>
    show decide (p.time + d - (t + d) < env.threshold) = decide (p.time - t < env.threshold)
    rw [add_sub_add_right_eq_sub]

/-- The bursts in the queue, measured later. -/
abbrev laterQ (d : R) (x : Pk R × Bool) : Pk R × Bool := (laterPk d x.1, x.2)

theorem locations_later {d : R} {env env' : Env R} (hu : Same d env env') (s : St R) (p : Pk R) (f : Bool) :
    surfaceLocations env' (later d s) (laterPk d p) f = mapRes (later d) (fun x => (x.1, later d x.2)) (surfaceLocations env s p f) := by
  obtain ⟨k, running, sp, status, prev, gp, gr, sub, input, rest, surfaces, packets, count, size, trend, trace⟩ := s
  have he : packets.map (laterQ d) ++ [(laterPk d p, false)] = (packets ++ [(p, false)]).map (laterQ d) := by simp
  have hc : surfaces.map (laterSurf d) ++ [(⟨count, [], [], []⟩ : Beams.Surf (Pk R))] =
      (surfaces ++ [(⟨count, [], [], []⟩ : Beams.Surf (Pk R))]).map (laterSurf d) := by
    simp [laterSurf]
  unfold surfaceLocations
  simp only [later]
  rw [he]
  set s1 : St R := ⟨k, running, sp, status, prev, gp, gr, sub, input, rest, surfaces, packets ++ [(p, false)], count, size, trend,
    trace ++ [.accepted p.counter]⟩ with hs1
  have hloc : locate env' (later d s1) f = locate env s1 f := by
    unfold locate
    show (if ((s1.surfaces.map (laterSurf d)).isEmpty || f) = true then _ else _) = _
    rw [hu.found s1, List.isEmpty_map]
  change (match locate env' (later d s1) f with
    | .error e => (Except.error (e, _) : Res R (Bool × St R)) | .ok false => .ok (false, _) | .ok true => .ok (true, _)) = _
  rw [hloc]
  change _ = mapRes _ _ (match locate env s1 f with
    | .error e => (Except.error (e, _) : Res R (Bool × St R)) | .ok false => .ok (false, _) | .ok true => .ok (true, _))
  cases locate env s1 f with
  | error e => rfl
  | ok b =>
    cases b with
    | false => rfl
    | true =>
      exact congrArg (fun q => (Except.ok (true,
        (⟨k, running, sp, status, prev.map (· + d), gp, gr, sub, input.map (laterPk d), rest.map (laterItem d), q,
          (packets ++ [(p, false)]).map (laterQ d), count + 1, size, trend, trace ++ [.accepted p.counter] ++ [.created count]⟩ : St R)) :
        Res R (Bool × St R))) hc

theorem packet_later {d : R} {env env' : Env R} (hu : Same d env env') (s : St R) (p : Pk R) :
    handlePacket env' (later d s) (laterPk d p) = mapRes (later d) (fun x => (x.1, later d x.2)) (handlePacket env s p) := by
  unfold handlePacket
  rw [hu.cal s p, call_later]
  cases env.calFails s p with
  | some e => rfl
  | none =>
    simp only [call, mapRes]
    rw [later_log]
    have h1 : inTime env' (later d (s.log (.calibrated p.counter))) (laterPk d p) = inTime env (s.log (.calibrated p.counter)) p :=
      inTime_later hu _ p
    change (if inTime env' (later d (s.log (.calibrated p.counter))) (laterPk d p) = true then _ else _) = _
    rw [h1]
    by_cases ht : inTime env (s.log (.calibrated p.counter)) p = true
    · rw [if_pos ht, if_pos ht]
      have := locations_later hu ({ s.log (.calibrated p.counter) with prevTime := some p.time } : St R) p s.gapResume
      change (match surfaceLocations env' (later d ({ s.log (.calibrated p.counter) with prevTime := some p.time } : St R))
        (laterPk d p) s.gapResume with
        | .error x => (Except.error x : Res R (Bool × St R))
        | .ok (new, s) => .ok (!new, { s with gapResume := false })) = _
      rw [this]
      change _ = mapRes _ _ (match surfaceLocations env ({ s.log (.calibrated p.counter) with prevTime := some p.time } : St R)
        p s.gapResume with
        | .error x => (Except.error x : Res R (Bool × St R))
        | .ok (new, s) => .ok (!new, { s with gapResume := false }))
      cases surfaceLocations env ({ s.log (.calibrated p.counter) with prevTime := some p.time } : St R) p s.gapResume with
      | error x => rfl
      | ok x => rfl
    · rw [if_neg ht, if_neg ht]
      unfold later St.log
      simp [laterPk]

theorem input_later {d : R} {env env' : Env R} (hu : Same d env env') (s : St R) :
    inputPhase env' (later d s) = mapRes (later d) (fun x => (x.1, later d x.2)) (inputPhase env s) := by
  unfold inputPhase
  show (if s.gapProcessing = true then (if s.hasSub = true then _ else _) else
    match (if s.gapResume = true then (Except.ok (later d s) : Res R (St R)) else readNext (later d s)) with
    | .error x => _ | .ok s => _) = _
  by_cases hg : s.gapProcessing = true
  · rw [if_pos hg, if_pos hg]
    by_cases hs : s.hasSub = true
    · rw [if_pos hs, if_pos hs]; rfl
    · rw [if_neg hs, if_neg hs]; rfl
  · rw [if_neg hg, if_neg hg]
    have h1 : (if s.gapResume = true then (Except.ok (later d s) : Res R (St R)) else readNext (later d s)) =
        mapRes (later d) (later d) (if s.gapResume = true then (Except.ok s : Res R (St R)) else readNext s) := by
      by_cases hr : s.gapResume = true
      · rw [if_pos hr, if_pos hr]; rfl
      · rw [if_neg hr, if_neg hr]
        exact read_later d s
    rw [h1]
    generalize (if s.gapResume = true then (Except.ok s : Res R (St R)) else readNext s) = q
    cases q with
    | error x => rfl
    | ok s1 =>
      simp only [mapRes]
      show (match s1.input.map (laterPk d) with | none => _ | some p => _) = _
      cases s1.input with
      | none => rfl
      | some p => exact packet_later hu s1 p

theorem anglesLoop_map {S T : Type} (n : Nat) (v : Beams.View R) (g : S → T) (angle : T → R) (counter : T → Nat) (isWork : T → Bool)
    (l : List S) : ∀ prev out, Beams.anglesLoop n v angle counter isWork prev out (l.map g) =
      Beams.anglesLoop n v (fun x => angle (g x)) (fun x => counter (g x)) (fun x => isWork (g x)) prev out l := by
  induction l with
  | nil => intro _ _; rfl
  | cons x l ih =>
    intro prev out
    rw [List.map_cons, Beams.anglesLoop, Beams.anglesLoop]
    dsimp only
    split
    · exact ih _ _
    · split
      · rfl
      · exact ih _ _

theorem inner_later (d : R) (n : Nat) (tr : Int) (size k : Nat) (p : Pk R) (c : Nat) (l : List (Beams.Surf (Pk R))) :
    Beams.inner (Beams.addStack n tr size k (laterPk d p)) c (l.map (laterSurf d)) =
      ((Beams.inner (Beams.addStack n tr size k p) c l).1.map (laterSurf d), (Beams.inner (Beams.addStack n tr size k p) c l).2) := by
  induction l with
  | nil => rfl
  | cons x l ih =>
    rw [List.map_cons, Beams.inner, Beams.inner]
    show (if x.counter = c then _ else _) = _
    by_cases h : x.counter = c
    · rw [if_pos h, if_pos h, List.map_cons]
      congr 2
      unfold Beams.addStack laterSurf
      simp
    · rw [if_neg h, if_neg h]
      dsimp only
      rw [ih]
      rfl

theorem outer_later (d : R) (n : Nat) (tr : Int) (size : Nat) (p : Pk R) (cs : List Nat) :
    ∀ (k last : Nat) (l : List (Beams.Surf (Pk R))),
      Beams.outer n tr size (laterPk d p) k last cs (l.map (laterSurf d)) = (Beams.outer n tr size p k last cs l).map (laterSurf d) := by
  induction cs with
  | nil => intro _ _ _; rfl
  | cons c cs ih =>
    intro k last l
    rw [Beams.outer, Beams.outer]
    rw [← List.map_drop, inner_later, ← List.map_take, ← List.map_append]
    exact ih _ _ _

theorem burst_later {d : R} {env env' : Env R} (hu : Same d env env') (s : St R) (p : Pk R) :
    burstBeams env' (later d s) (laterPk d p) = ((burstBeams env s p).1, later d (burstBeams env s p).2) := by
  unfold burstBeams
  rw [hu.view s p, hu.pulses]
  have h1 : (later d s).surfaces.zipIdx = s.surfaces.zipIdx.map (fun x => (laterSurf d x.1, x.2)) := by
    show (s.surfaces.map (laterSurf d)).zipIdx = _
    rw [List.zipIdx_map]
    rfl
  have h2 : Beams.beamAngles env.nPulses (env.view s p) (fun x => env'.angle (later d s) (laterPk d p) x.1)
      (fun x => x.1.counter) (fun x => x.2 == 0) (later d s).surfaces.zipIdx =
      Beams.beamAngles env.nPulses (env.view s p) (fun x => env.angle s p x.1)
      (fun x => x.1.counter) (fun x => x.2 == 0) s.surfaces.zipIdx := by
    rw [h1]
    unfold Beams.beamAngles
    rw [anglesLoop_map]
    have : (fun x : Beams.Surf (Pk R) × Nat => env'.angle (later d s) (laterPk d p) (laterSurf d x.1)) = fun x => env.angle s p x.1 := by
      funext x
      exact hu.angle s p x.1
    dsimp only
    rw [this]
    rfl
  dsimp only
  rw [h2]
  refine Prod.ext rfl ?_
  show _ = later d _
  have h3 := outer_later d env.nPulses
    (Beams.trend env.nPulses s.sizePrev s.trendPrev (Beams.beamAngles env.nPulses (env.view s p) (fun x => env.angle s p x.1)
      (fun x => x.1.counter) (fun x => x.2 == 0) s.surfaces.zipIdx).angles.length)
    (Beams.beamAngles env.nPulses (env.view s p) (fun x => env.angle s p x.1)
      (fun x => x.1.counter) (fun x => x.2 == 0) s.surfaces.zipIdx).angles.length p
    (Beams.beamAngles env.nPulses (env.view s p) (fun x => env.angle s p x.1)
      (fun x => x.1.counter) (fun x => x.2 == 0) s.surfaces.zipIdx).counters 0 0 s.surfaces
  unfold later at h3 ⊢
  dsimp only
  rw [h3]

theorem loop_later {d : R} {env env' : Env R} (hu : Same d env env') (todo : List (Pk R × Bool)) :
    ∀ (done : List (Pk R × Bool)) (s : St R),
      packetLoop env' (done.map fun x => (laterPk d x.1, x.2)) (todo.map fun x => (laterPk d x.1, x.2)) (later d s) =
        mapRes (later d) (later d) (packetLoop env done todo s) := by
  induction todo with
  | nil => intro done s; rfl
  | cons x todo ih =>
    intro done s
    obtain ⟨p, f⟩ := x
    rw [List.map_cons]
    dsimp only
    cases f with
    | true =>
      rw [packetLoop, packetLoop]
      have := ih (done ++ [(p, true)]) s
      rw [List.map_append] at this
      exact this
    | false =>
      rw [packetLoop, packetLoop, burst_later hu]
      dsimp only
      rw [show (laterPk d p).counter = p.counter from rfl, later_log, hu.azimuth _ p, call_later]
      cases env.azimuthFails ((burstBeams env s p).2.log (.beams p.counter)) p with
      | some e => rfl
      | none =>
        simp only [call, mapRes]
        have he : ({ later d ((burstBeams env s p).2.log (.beams p.counter)) with
            packets := (done.map fun x => (laterPk d x.1, x.2)) ++ (laterPk d p, true) :: todo.map fun x => (laterPk d x.1, x.2) } : St R) =
            later d ({ (burstBeams env s p).2.log (.beams p.counter) with packets := done ++ (p, true) :: todo } : St R) := by
          unfold later
          simp
        by_cases hw : (burstBeams env s p).1 = true
        · rw [if_pos hw, if_pos hw, he]
          have := ih (done ++ [(p, true)])
            ({ (burstBeams env s p).2.log (.beams p.counter) with packets := done ++ (p, true) :: todo } : St R)
          rw [List.map_append] at this
          exact this
        · rw [if_neg hw, if_neg hw, he]

theorem clear_later (d : R) (w : Beams.Surf (Pk R)) (s : St R) :
    clearOld (laterSurf d w) (later d s) = mapRes (later d) (later d) (clearOld w s) := by
  obtain ⟨k, running, sp, status, prev, gp, gr, sub, input, rest, surfaces, packets, count, size, trend, trace⟩ := s
  obtain ⟨n, l1, l2, bursts⟩ := w
  cases packets with
  | nil =>
    unfold clearOld later laterSurf
    simp [mapRes, List.map_tail]
  | cons x packets =>
    cases bursts with
    | nil => rfl
    | cons b bursts =>
      have hd : (((x :: packets).map fun x => (laterPk d x.1, x.2)).dropWhile fun y => y.1.counter != (laterPk d b).counter) =
          ((x :: packets).dropWhile fun y => y.1.counter != b.counter).map fun x => (laterPk d x.1, x.2) := by
        rw [List.dropWhile_map]
        rfl
      show Except.ok _ = Except.ok _
      congr 1
      unfold later
      dsimp only
      congr 1
      exact List.map_tail.symm

theorem stackIds_later (d : R) (w : Beams.Surf (Pk R)) : stackIds (laterSurf d w) = stackIds w := by
  unfold stackIds laterSurf
  rw [List.map_map]
  rfl

theorem finish_later {d : R} {env env' : Env R} (hu : Same d env env') (s : St R) :
    finishSurface env' (later d s) = mapRes (later d) (later d) (finishSurface env s) := by
  unfold finishSurface
  rw [hu.gather, call_later]
  cases env.gatherFails s with
  | some e => rfl
  | none =>
    simp only [call, mapRes]
    show (match s.surfaces.map (laterSurf d) with | [] => _ | w :: rest => _) = _
    rw [hu.looks]
    cases s.surfaces with
    | nil => rfl
    | cons w rest =>
      rw [List.map_cons]
      dsimp only
      have hl : (laterSurf d w).bursts.length = w.bursts.length := by simp [laterSurf]
      rw [hl, stackIds_later]
      by_cases hf : min w.bursts.length env.nLooks < env.nLooks / 2
      · rw [if_pos hf, if_pos hf]; rfl
      · rw [if_neg hf, if_neg hf]
        unfold writeSurface
        rw [hu.algorithm, call_later, stackIds_later]
        cases env.algorithmFails s with
        | some e => rfl
        | none =>
          simp only [call, mapRes]
          rw [hu.l1b]
          cases env.l1bFails s with
          | some e => rfl
          | none =>
            dsimp only
            rw [show (laterSurf d w).counter = w.counter from rfl, later_log]
            unfold writeL1bs
            rw [hu.skip]
            by_cases hk : env.skipL1bs = true
            · rw [if_pos hk, if_pos hk]
              exact clear_later d w _
            · rw [if_neg hk, if_neg hk, hu.l1bs]
              cases env.l1bsFails (s.log (.l1b w.counter (stackIds w))) with
              | some e => rfl
              | none =>
                simp only [call]
                exact clear_later d w ((s.log (.l1b w.counter (stackIds w))).log (.l1bs w.counter))

theorem surface_later {d : R} {env env' : Env R} (hu : Same d env env') (s : St R) :
    surfacePhase env' (later d s) = mapRes (later d) (later d) (surfacePhase env s) := by
  unfold surfacePhase
  have hlen : (later d s).surfaces.length = s.surfaces.length := List.length_map _
  rw [hlen]
  show (if s.surfaceProcessing = true ∨ minSurfs ≤ s.surfaces.length ∨ s.gapProcessing = true
    then match s.surfaces.map (laterSurf d) with
      | [] => _
      | _ :: _ => _ else _) = _
  by_cases hc : s.surfaceProcessing = true ∨ minSurfs ≤ s.surfaces.length ∨ s.gapProcessing = true
  · rw [if_pos hc, if_pos hc]
    dsimp only
    cases hs : s.surfaces with
    | nil =>
      obtain ⟨k, running, sp, status, prev, gp, gr, sub, input, rest, surfaces, packets, count, size, trend, trace⟩ := s
      cases hs
      rfl
    | cons w0 r0 =>
      rw [List.map_cons]
      dsimp only
      rw [← hs]
      have := loop_later hu s.packets [] s.begun
      show (match packetLoop env' [] (s.packets.map fun x => (laterPk d x.1, x.2)) (later d s.begun) with
        | .error x => _ | .ok s => finishSurface env' s) = _
      rw [List.map_nil] at this
      rw [this]
      show _ = mapRes _ _ (match packetLoop env [] s.packets _ with | .error x => _ | .ok s => finishSurface env s)
      rw [show ({ s with surfaceProcessing := true } : St R) = s.begun from rfl]
      cases packetLoop env [] s.packets s.begun with
      | error x => rfl
      | ok s1 => exact finish_later hu s1
  · rw [if_neg hc, if_neg hc]; rfl

theorem end_later (d : R) (s : St R) : endPhase (later d s) = mapRes (later d) (later d) (endPhase s) := by
  unfold endPhase
  have hn : (later d s).surfaces = [] ↔ s.surfaces = [] := List.map_eq_nil_iff
  by_cases h : s.surfaces = []
  · rw [if_pos h, if_pos (hn.2 h)]
    show (if s.gapProcessing = true then (if s.hasSub = true then _ else _) else _) = _
    by_cases hg : s.gapProcessing = true
    · rw [if_pos hg, if_pos hg]
      by_cases hs : s.hasSub = true
      · rw [if_pos hs]; dsimp only; rw [if_pos hs]; rfl
      · rw [if_neg hs]; dsimp only; rw [if_neg hs]; rfl
    · rw [if_neg hg, if_neg hg]; rfl
  · rw [if_neg h, if_neg (fun x => h (hn.1 x))]; rfl

theorem step_later {d : R} {env env' : Env R} (hu : Same d env env') (s : St R) :
    step env' (later d s) = mapRes (later d) (later d) (step env s) := by
  unfold step
  rw [begin_later hu, input_later hu]
  cases inputPhase env (beginIteration env s) with
  | error x => rfl
  | ok x =>
    obtain ⟨b, s1⟩ := x
    cases b with
    | true => rfl
    | false =>
      simp only [mapRes]
      rw [surface_later hu]
      cases surfacePhase env s1 with
      | error x => rfl
      | ok s2 => exact end_later d s2

/-- The same end of a run, with everything later. -/
def laterOutcome (d : R) : Outcome R → Outcome R
  | .finished s => .finished (later d s)
  | .failed e s => .failed e (later d s)
  | .timeout s => .timeout (later d s)

theorem run_later {d : R} {env env' : Env R} (hu : Same d env env') :
    ∀ (fuel : Nat) (s : St R), run env' fuel (later d s) = laterOutcome d (run env fuel s) := by
  intro fuel
  induction fuel with
  | zero => intro s; rfl
  | succ fuel ih =>
    intro s
    rw [run, run]
    show (if s.running = true then _ else _) = _
    by_cases hr : s.running = true
    · rw [if_pos hr, if_pos hr, step_later hu]
      cases step env s with
      | error x => rfl
      | ok s1 => exact ih s1
    · rw [if_neg hr, if_neg hr, hu.finish]
      cases env.finishFails s <;> rfl

/-- **C138, the run.**  A run on records measured later ends in the same way, has done exactly the same actions in the same order
(so that both products have the same records with the same stacks), and leaves the same queues with later times. -/
theorem epoch_process (d : R) (env env' : Env R) (hu : Same d env env') (items : List (Item R)) :
    process env' (items.map (laterItem d)) = laterOutcome d (process env items) ∧
      (process env' (items.map (laterItem d))).state.trace = (process env items).state.trace := by
  have h : process env' (items.map (laterItem d)) = laterOutcome d (process env items) := by
    unfold process processWith
    rw [List.length_map]
    exact run_later hu _ (start [] [] items)
  refine ⟨h, ?_⟩
  rw [h]
  cases process env items <;> rfl

/-- The example environment meets the hypotheses for every change of the clock. -/
theorem demo_same (d : ℚ) : Same d demo demo := ⟨rfl, rfl, rfl, rfl, fun _ => rfl, fun _ _ => rfl, fun _ => rfl, fun _ _ => rfl, fun _ _ _ => rfl,
  fun _ _ => rfl, fun _ => rfl, fun _ => rfl, fun _ => rfl, fun _ => rfl, fun _ => rfl⟩

/-- A run with gaps, a thousand time units later. -/
example : l1bOf (process demo ((gappy ++ recs 4 2 20).map (laterItem 1000))).state.trace = l1bOf (process demo (gappy ++ recs 4 2 20)).state.trace ∧
    l1bOf (process demo (gappy ++ recs 4 2 20)).state.trace ≠ [] :=
  ⟨by rw [(epoch_process 1000 demo demo (demo_same _) _).2], by decide +kernel⟩

end Dedop.Process.Epoch
