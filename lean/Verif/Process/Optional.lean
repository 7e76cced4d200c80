import Verif.Process.Causal

/-!
# The second product is an option (C139)

The processor writes an L1B-S file only if it is not told to skip it.  Whether it does makes no difference to anything else it does.
-/
namespace Dedop.Process.Optional

set_option linter.unusedSectionVars false

variable {R : Type} [Field R] [LinearOrder R]

/-! ## Specification -/

/-- Actions other than writing to the L1B-S file. -/
def other : Event → Bool
  | .l1bs _ => false
  | _ => true

/-- The state without the memory of what was written to the L1B-S file. -/
def strip (s : St R) : St R := { s with trace := s.trace.filter other }

/-- The same processor without the L1B-S file. -/
def without (env : Env R) : Env R := { env with skipL1bs := true }

/-- The algorithms and the writer of the L1B file do not depend on what is in the L1B-S file. -/
structure Apart (env : Env R) : Prop where
  cal : ∀ s p, env.calFails (strip s) p = env.calFails s p
  found : ∀ s, env.found (strip s) = env.found s
  view : ∀ s p, env.view (strip s) p = env.view s p
  angle : ∀ s p x, env.angle (strip s) p x = env.angle s p x
  azimuth : ∀ s p, env.azimuthFails (strip s) p = env.azimuthFails s p
  gather : ∀ s, env.gatherFails (strip s) = env.gatherFails s
  algorithm : ∀ s, env.algorithmFails (strip s) = env.algorithmFails s
  l1b : ∀ s, env.l1bFails (strip s) = env.l1bFails s
  finish : ∀ s, env.finishFails (strip s) = env.finishFails s

/-! ## Lemmas -/

theorem strip_log (s : St R) (e : Event) (h : other e = true) : (strip s).log e = strip (s.log e) := by
  unfold strip St.log
  simp [h]

theorem call_strip (o : Option PyErr) (s : St R) : call o (strip s) = mapRes strip strip (call o s) := by
  cases o <;> rfl

theorem begin_strip (env : Env R) (s : St R) : beginIteration (without env) (strip s) = strip (beginIteration env s) := by
  unfold beginIteration
  show (if env.cancelled s.k = true then _ else _) = _
  unfold strip St.log
  dsimp only
  split <;> simp <;> rfl

theorem read_strip (s : St R) : readNext (strip s) = mapRes strip strip (readNext s) := by
  obtain ⟨k, running, sp, status, prev, gp, gr, sub, input, rest, surfaces, packets, count, size, trend, trace⟩ := s
  cases rest with
  | nil => cases sp <;> simp [readNext, strip, St.log, mapRes] <;> rfl
  | cons x rest => cases x <;> simp [readNext, strip, St.log, mapRes] <;> rfl

theorem locations_strip {env : Env R} (hu : Apart env) (s : St R) (p : Pk R) (f : Bool) :
    surfaceLocations (without env) (strip s) p f = mapRes strip (fun x => (x.1, strip x.2)) (surfaceLocations env s p f) := by
  unfold surfaceLocations
  set s1 : St R := ({ s with packets := s.packets ++ [(p, false)] } : St R).log (.accepted p.counter) with hs1
  have he : (({ strip s with packets := (strip s).packets ++ [(p, false)] } : St R).log (.accepted p.counter)) = strip s1 :=
    strip_log ({ s with packets := s.packets ++ [(p, false)] } : St R) _ rfl
  have hloc : locate (without env) (strip s1) f = locate env s1 f := by
    unfold locate
    show (if (s1.surfaces.isEmpty || f) = true then _ else env.found (strip s1)) = _
    rw [hu.found s1]
  dsimp only at he ⊢
  rw [he, hloc]
  cases locate env s1 f with
  | error e => rfl
  | ok b =>
    cases b with
    | false => rfl
    | true =>
      refine congrArg (fun q => (Except.ok (true, q) : Res R (Bool × St R))) ?_
      exact strip_log ({ s1 with
        surfaces := s1.surfaces ++ [(⟨s1.count, [], [], []⟩ : Beams.Surf (Pk R))], count := s1.count + 1 } : St R) (.created s1.count) rfl

theorem packet_strip {env : Env R} (hu : Apart env) (s : St R) (p : Pk R) :
    handlePacket (without env) (strip s) p = mapRes strip (fun x => (x.1, strip x.2)) (handlePacket env s p) := by
  unfold handlePacket
  rw [show (without env).calFails (strip s) p = env.calFails s p from hu.cal s p, call_strip]
  cases env.calFails s p with
  | some e => rfl
  | none =>
    simp only [call, mapRes]
    rw [strip_log _ _ rfl]
    change (if inTime env (s.log (.calibrated p.counter)) p = true then _ else _) = _
    by_cases ht : inTime env (s.log (.calibrated p.counter)) p = true
    · rw [if_pos ht, if_pos ht]
      have := locations_strip hu ({ s.log (.calibrated p.counter) with prevTime := some p.time } : St R) p s.gapResume
      change (match surfaceLocations (without env) (strip ({ s.log (.calibrated p.counter) with prevTime := some p.time } : St R))
        p s.gapResume with
        | .error x => (Except.error x : Res R (Bool × St R))
        | .ok (new, s) => .ok (!new, { s with gapResume := false })) = _
      rw [this]
      change _ = mapRes _ _ (match surfaceLocations env ({ s.log (.calibrated p.counter) with prevTime := some p.time } : St R)
        p s.gapResume with
        | .error x => (Except.error x : Res R (Bool × St R))
        | .ok (new, s) => .ok (!new, { s with gapResume := false }))
      cases surfaceLocations env ({ s.log (.calibrated p.counter) with prevTime := some p.time } : St R) p s.gapResume with
      | error x => rfl
      | ok x => rfl
    · rw [if_neg ht, if_neg ht]
      unfold strip St.log
      simp
      rfl

theorem input_strip {env : Env R} (hu : Apart env) (s : St R) :
    inputPhase (without env) (strip s) = mapRes strip (fun x => (x.1, strip x.2)) (inputPhase env s) := by
  unfold inputPhase
  show (if s.gapProcessing = true then (if s.hasSub = true then _ else _) else
    match (if s.gapResume = true then (Except.ok (strip s) : Res R (St R)) else readNext (strip s)) with
    | .error x => _ | .ok s => _) = _
  by_cases hg : s.gapProcessing = true
  · rw [if_pos hg, if_pos hg]
    by_cases hs : s.hasSub = true
    · rw [if_pos hs, if_pos hs, strip_log _ _ rfl]; rfl
    · rw [if_neg hs, if_neg hs]; rfl
  · rw [if_neg hg, if_neg hg]
    have h1 : (if s.gapResume = true then (Except.ok (strip s) : Res R (St R)) else readNext (strip s)) =
        mapRes strip strip (if s.gapResume = true then (Except.ok s : Res R (St R)) else readNext s) := by
      by_cases hr : s.gapResume = true
      · rw [if_pos hr, if_pos hr]; rfl
      · rw [if_neg hr, if_neg hr]
        exact read_strip s
    rw [h1]
    generalize (if s.gapResume = true then (Except.ok s : Res R (St R)) else readNext s) = q
    cases q with
    | error x => rfl
    | ok s1 =>
      simp only [mapRes]
      show (match s1.input with | none => _ | some p => _) = _
      cases s1.input with
      | none => rfl
      | some p => exact packet_strip hu s1 p

theorem burst_strip {env : Env R} (hu : Apart env) (s : St R) (p : Pk R) :
    burstBeams (without env) (strip s) p = ((burstBeams env s p).1, strip (burstBeams env s p).2) := by
  unfold burstBeams
  have h1 : (without env).view (strip s) p = env.view s p := hu.view s p
  have h2 : (fun x : Beams.Surf (Pk R) × Nat => (without env).angle (strip s) p x.1) = fun x => env.angle s p x.1 := by
    funext x
    exact hu.angle s p x.1
  rw [h1, h2]
  rfl

theorem loop_strip {env : Env R} (hu : Apart env) (todo : List (Pk R × Bool)) :
    ∀ (done : List (Pk R × Bool)) (s : St R),
      packetLoop (without env) done todo (strip s) = mapRes strip strip (packetLoop env done todo s) := by
  induction todo with
  | nil => intro done s; rfl
  | cons x todo ih =>
    intro done s
    obtain ⟨p, f⟩ := x
    cases f with
    | true =>
      rw [packetLoop, packetLoop]
      exact ih _ s
    | false =>
      rw [packetLoop, packetLoop, burst_strip hu]
      dsimp only
      rw [strip_log _ _ rfl, show ∀ s, (without env).azimuthFails (strip s) p = env.azimuthFails s p from fun s => hu.azimuth s p, call_strip]
      cases env.azimuthFails ((burstBeams env s p).2.log (.beams p.counter)) p with
      | some e => rfl
      | none =>
        simp only [call, mapRes]
        by_cases hw : (burstBeams env s p).1 = true
        · rw [if_pos hw, if_pos hw]
          exact ih (done ++ [(p, true)])
            ({ (burstBeams env s p).2.log (.beams p.counter) with packets := done ++ (p, true) :: todo } : St R)
        · rw [if_neg hw, if_neg hw]
          rfl

theorem clear_strip (w : Beams.Surf (Pk R)) (s : St R) :
    clearOld w (strip s) = mapRes strip strip (clearOld w s) := by
  obtain ⟨k, running, sp, status, prev, gp, gr, sub, input, rest, surfaces, packets, count, size, trend, trace⟩ := s
  obtain ⟨n, l1, l2, bursts⟩ := w
  cases packets with
  | nil => rfl
  | cons _ _ => cases bursts <;> rfl

/-- The state in which a piece of the program ends. -/
def last : Res R (St R) → St R
  | .ok s => s
  | .error (_, s) => s

/-- `q` is what the piece which gave `r` gives without the L1B-S file: the same, or it goes on where writing to that file failed. -/
def Sim (env : Env R) (r q : Res R (St R)) : Prop :=
  q = mapRes strip strip r ∨ ∃ e s t, r = .error (e, s) ∧ env.skipL1bs = false ∧ env.l1bsFails t = some e ∧ (strip s).trace <+: (last q).trace

theorem clear_trace (w : Beams.Surf (Pk R)) (s : St R) : (last (clearOld w s)).trace = s.trace := by
  unfold clearOld
  split <;> rfl

theorem finish_strip {env : Env R} (hu : Apart env) (s : St R) :
    Sim env (finishSurface env s) (finishSurface (without env) (strip s)) := by
  unfold finishSurface
  rw [show (without env).gatherFails (strip s) = env.gatherFails s from hu.gather s, call_strip]
  cases env.gatherFails s with
  | some e => exact .inl rfl
  | none =>
    simp only [call, mapRes]
    show Sim env _ (match s.surfaces with | [] => _ | w :: rest => _)
    cases s.surfaces with
    | nil => exact .inl rfl
    | cons w rest =>
      dsimp only
      show Sim env _ (if min w.bursts.length env.nLooks < env.nLooks / 2 then _ else _)
      by_cases hf : min w.bursts.length env.nLooks < env.nLooks / 2
      · rw [if_pos hf, if_pos hf]
        exact .inl (congrArg Except.ok (strip_log ({ s with surfaces := rest } : St R) _ rfl))
      · rw [if_neg hf, if_neg hf]
        unfold writeSurface
        rw [show (without env).algorithmFails (strip s) = env.algorithmFails s from hu.algorithm s, call_strip]
        cases env.algorithmFails s with
        | some e => exact .inl rfl
        | none =>
          simp only [call, mapRes]
          rw [show (without env).l1bFails (strip s) = env.l1bFails s from hu.l1b s]
          cases env.l1bFails s with
          | some e => exact .inl rfl
          | none =>
            dsimp only
            rw [strip_log _ _ rfl]
            set s2 := s.log (.l1b w.counter (stackIds w))
            have hw : writeL1bs (without env) w.counter (strip s2) = .ok (strip s2) := rfl
            rw [hw]
            unfold writeL1bs
            by_cases hk : env.skipL1bs = true
            · rw [if_pos hk]
              exact .inl (clear_strip w s2)
            · rw [if_neg hk]
              cases hb : env.l1bsFails s2 with
              | some e =>
                refine .inr ⟨e, s2, s2, rfl, by simpa using hk, hb, ?_⟩
                show _ <+: (last (clearOld w (strip s2))).trace
                rw [clear_trace]
              | none =>
                left
                have : strip (s2.log (.l1bs w.counter)) = strip s2 := by
                  unfold strip St.log
                  simp [other]
                show clearOld w (strip s2) = mapRes strip strip (clearOld w (s2.log (.l1bs w.counter)))
                rw [← clear_strip, this]

theorem surface_strip {env : Env R} (hu : Apart env) (s : St R) :
    Sim env (surfacePhase env s) (surfacePhase (without env) (strip s)) := by
  unfold surfacePhase
  show Sim env _ (if s.surfaceProcessing = true ∨ minSurfs ≤ s.surfaces.length ∨ s.gapProcessing = true
    then match s.surfaces with
      | [] => _
      | _ :: _ => _ else _)
  by_cases hc : s.surfaceProcessing = true ∨ minSurfs ≤ s.surfaces.length ∨ s.gapProcessing = true
  · rw [if_pos hc, if_pos hc]
    dsimp only
    cases hs : s.surfaces with
    | nil =>
      obtain ⟨k, running, sp, status, prev, gp, gr, sub, input, rest, surfaces, packets, count, size, trend, trace⟩ := s
      cases hs
      exact .inl rfl
    | cons w0 r0 =>
      dsimp only
      have := loop_strip hu s.packets [] s.begun
      rw [← hs]
      show Sim env _ (match packetLoop (without env) [] s.packets (strip s.begun) with
        | .error x => _ | .ok s => finishSurface (without env) s)
      rw [this]
      show Sim env (match packetLoop env [] s.packets s.begun with | .error x => _ | .ok s => finishSurface env s) _
      cases packetLoop env [] s.packets s.begun with
      | error x => exact .inl rfl
      | ok s1 => exact finish_strip hu s1
  · rw [if_neg hc, if_neg hc]
    exact .inl rfl

theorem end_strip (s : St R) : endPhase (strip s) = mapRes strip strip (endPhase s) := by
  unfold endPhase
  show (if s.surfaces = [] then (if s.gapProcessing = true then (if s.hasSub = true then _ else _) else _) else _) = _
  by_cases h : s.surfaces = []
  · rw [if_pos h, if_pos h]
    by_cases hg : s.gapProcessing = true
    · rw [if_pos hg, if_pos hg]
      by_cases hs : s.hasSub = true
      · rw [if_pos hs]; dsimp only; rw [if_pos hs]
        exact congrArg Except.ok
          (strip_log ({ s with gapProcessing := false, gapResume := true, surfaceProcessing := false } : St R) .gapDone rfl)
      · rw [if_neg hs]; dsimp only; rw [if_neg hs]; rfl
    · rw [if_neg hg, if_neg hg]; rfl
  · rw [if_neg h, if_neg h]; rfl

theorem step_strip {env : Env R} (hu : Apart env) (s : St R) : Sim env (step env s) (step (without env) (strip s)) := by
  unfold step
  rw [begin_strip, input_strip hu]
  cases inputPhase env (beginIteration env s) with
  | error x => exact .inl rfl
  | ok x =>
    obtain ⟨b, s1⟩ := x
    cases b with
    | true => exact .inl rfl
    | false =>
      simp only [mapRes]
      rcases surface_strip hu s1 with h | ⟨e, s2, t, h1, h2, h3, h4⟩
      · left
        rw [h]
        cases surfacePhase env s1 with
        | error x => rfl
        | ok s2 => exact end_strip s2
      · right
        rw [h1]
        refine ⟨e, s2, t, rfl, h2, h3, h4.trans ?_⟩
        cases surfacePhase (without env) (strip s1) with
        | error x => exact List.prefix_refl _
        | ok q =>
          have := end_ext q
          revert this
          show Post (endPhase q) _ _ → q.trace <+: (last (endPhase q)).trace
          generalize endPhase q = z
          cases z with
          | ok _ => exact id
          | error _ => exact id

/-- The same end of a run, without the memory of the L1B-S file. -/
def stripOutcome : Outcome R → Outcome R
  | .finished s => .finished (strip s)
  | .failed e s => .failed e (strip s)
  | .timeout s => .timeout (strip s)

theorem run_strip {env : Env R} (hu : Apart env) : ∀ (fuel : Nat) (s : St R),
    run (without env) fuel (strip s) = stripOutcome (run env fuel s) ∨
      ∃ e s' t, run env fuel s = .failed e s' ∧ env.skipL1bs = false ∧ env.l1bsFails t = some e ∧
        (strip s').trace <+: (run (without env) fuel (strip s)).state.trace := by
  intro fuel
  induction fuel with
  | zero => intro s; exact .inl rfl
  | succ fuel ih =>
    intro s
    rw [run, run]
    show (if s.running = true then _ else _) = _ ∨ ∃ e s' t, _ ∧ _ ∧ _ ∧ _ <+: Outcome.trace (if s.running = true then _ else _)
    by_cases hr : s.running = true
    · rw [if_pos hr, if_pos hr]
      rcases step_strip hu s with h | ⟨e, s', t, h1, h2, h3, h4⟩
      · rw [h]
        cases step env s with
        | error x => exact .inl rfl
        | ok s1 => exact ih s1
      · right
        rw [h1]
        refine ⟨e, s', t, rfl, h2, h3, h4.trans ?_⟩
        cases step (without env) (strip s) with
        | error x => exact List.prefix_refl _
        | ok q => exact run_ext (without env) fuel q
    · rw [if_neg hr, if_neg hr]
      left
      rw [show (without env).finishFails (strip s) = env.finishFails s from hu.finish s]
      cases env.finishFails s with
      | some e => rfl
      | none => exact congrArg Outcome.finished (strip_log s .closed rfl)

/-- **C139.**  Without the L1B-S file a run ends in the same way and has done the same in the same order, but for the writing to that
file, unless writing to that file failed: then the run without it has done the same up to there. -/
theorem option_process (env : Env R) (hu : Apart env) (items : List (Item R)) :
    process (without env) items = stripOutcome (process env items) ∨
      ∃ e s t, process env items = .failed e s ∧ env.skipL1bs = false ∧ env.l1bsFails t = some e ∧
        s.trace.filter other <+: (process (without env) items).state.trace :=
  run_strip hu _ (start [] [] items)

theorem l1bOf_other (t : List Event) : l1bOf (t.filter other) = l1bOf t := by
  induction t with
  | nil => rfl
  | cons e t ih =>
    unfold l1bOf at ih ⊢
    cases e <;> simp [other, List.filter_cons, ih]

/-- **C139, the product.**  If writing to the L1B-S file never fails the L1B product has the same surfaces with and without it; if it may
fail, those of the run with it are the first ones of the run without it. -/
theorem option_product (env : Env R) (hu : Apart env) (items : List (Item R)) :
    l1bOf (process env items).state.trace <+: l1bOf (process (without env) items).state.trace ∧
      ((∀ s, env.l1bsFails s = none) →
        l1bOf (process env items).state.trace = l1bOf (process (without env) items).state.trace) := by
  rcases option_process env hu items with h | ⟨e, s, t, h, -, h1, h2⟩
  · have : l1bOf (process env items).state.trace = l1bOf (process (without env) items).state.trace := by
      rw [h]
      cases process env items <;> exact (l1bOf_other _).symm
    exact ⟨this ▸ List.prefix_refl _, fun _ => this⟩
  · refine ⟨?_, fun hn => ?_⟩
    · rw [h, ← l1bOf_other]
      exact l1bOf_prefix h2
    · rw [hn t] at h1
      cases h1

/-! ## Non-vacuity -/

/-- The example environment meets the hypotheses, and it writes to both files. -/
theorem demo_apart : Apart demo := ⟨fun _ _ => rfl, fun _ => rfl, fun _ _ => rfl, fun _ _ _ => rfl, fun _ _ => rfl, fun _ => rfl, fun _ => rfl,
  fun _ => rfl, fun _ => rfl⟩

example : l1bOf (process demo gappy).state.trace = l1bOf (process (without demo) gappy).state.trace ∧
    l1bOf (process demo gappy).state.trace ≠ [] ∧ Event.l1bs 0 ∈ (process demo gappy).state.trace ∧
    Event.l1bs 0 ∉ (process (without demo) gappy).state.trace :=
  ⟨(option_product demo demo_apart gappy).2 fun _ => rfl, by decide +kernel, by decide +kernel, by decide +kernel⟩

end Dedop.Process.Optional
