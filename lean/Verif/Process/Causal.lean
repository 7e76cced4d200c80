import Verif.Process.History

/-!
# Records not yet read (C128)

What the processor has done before it reads a record does not depend on that record nor on later ones.  So the product of an input which
cannot be read to its end is the beginning of the product of the complete input.
-/
namespace Dedop.Process

set_option linter.unusedSectionVars false

variable {R : Type} [Field R] [LinearOrder R]

/-! ## Specification -/

/-- The same state with more records to come. -/
def St.more (s : St R) (r : List (Item R)) : St R := { s with rest := s.rest ++ r }

/-- The algorithms and writers do not look at records which have not been read. -/
structure Unseen (env : Env R) : Prop where
  cal : ∀ r s p, env.calFails (s.more r) p = env.calFails s p
  found : ∀ r s, env.found (s.more r) = env.found s
  view : ∀ r s p, env.view (s.more r) p = env.view s p
  angle : ∀ r s p, env.angle (s.more r) p = env.angle s p
  azimuth : ∀ r s p, env.azimuthFails (s.more r) p = env.azimuthFails s p
  gather : ∀ r s, env.gatherFails (s.more r) = env.gatherFails s
  algorithm : ∀ r s, env.algorithmFails (s.more r) = env.algorithmFails s
  l1b : ∀ r s, env.l1bFails (s.more r) = env.l1bFails s
  l1bs : ∀ r s, env.l1bsFails (s.more r) = env.l1bsFails s
  finish : ∀ r s, env.finishFails (s.more r) = env.finishFails s

/-- The events before an attempt to read one record more than the given number. -/
def upTo : Nat → List Event → List Event
  | _, [] => []
  | _, .endOfInput :: _ => []
  | 0, .read _ :: _ => []
  | n + 1, .read x :: t => .read x :: upTo n t
  | n, e :: t => e :: upTo n t

/-! ## Lemmas -/

theorem more_log (s : St R) (r : List (Item R)) (e : Event) : (s.more r).log e = (s.log e).more r := rfl

theorem call_more (o : Option PyErr) (s : St R) (r : List (Item R)) :
    call o (s.more r) = mapRes (·.more r) (·.more r) (call o s) := by
  cases o <;> rfl

theorem begin_more (env : Env R) (s : St R) (r : List (Item R)) :
    beginIteration env (s.more r) = (beginIteration env s).more r := by
  unfold beginIteration
  show (if env.cancelled s.k = true then _ else _) = _
  split <;> rfl

theorem read_more (s : St R) (r : List (Item R)) (h : s.rest ≠ []) :
    readNext (s.more r) = mapRes (·.more r) (·.more r) (readNext s) := by
  obtain ⟨k, running, sp, status, prev, gp, gr, sub, input, rest, surfaces, packets, count, size, trend, trace⟩ := s
  cases rest with
  | nil => exact absurd rfl h
  | cons x rest => cases x <;> rfl

theorem packet_more {env : Env R} (hu : Unseen env) (r : List (Item R)) (s : St R) (p : Pk R) :
    handlePacket env (s.more r) p = mapRes (·.more r) (fun x => (x.1, x.2.more r)) (handlePacket env s p) := by
  unfold handlePacket
  rw [hu.cal r s p, call_more]
  cases env.calFails s p with
  | some e => rfl
  | none =>
    simp only [call, mapRes]
    rw [more_log]
    have h1 : inTime env ((s.log (.calibrated p.counter)).more r) p = inTime env (s.log (.calibrated p.counter)) p := rfl
    rw [h1]
    by_cases ht : inTime env (s.log (.calibrated p.counter)) p = true
    · rw [if_pos ht, if_pos ht]
      unfold surfaceLocations
      set s1 : St R := ({ s.log (.calibrated p.counter) with
        prevTime := some p.time, packets := s.packets ++ [(p, false)] } : St R).log (.accepted p.counter) with hs1
      have hloc : locate env (s1.more r) s.gapResume = locate env s1 s.gapResume := by
        unfold locate
        show (if (s1.surfaces.isEmpty || s.gapResume) = true then _ else _) = _
        rw [hu.found r s1]
      show (match (match locate env (s1.more r) s.gapResume with
          | .error e => (Except.error (e, _) : Res R (Bool × St R)) | .ok false => .ok (false, _) | .ok true => .ok (true, _)) with
          | .error x => _ | .ok (new, s) => _) = _
      rw [hloc]
      show _ = mapRes _ _ (match (match locate env s1 s.gapResume with
          | .error e => (Except.error (e, _) : Res R (Bool × St R)) | .ok false => .ok (false, _) | .ok true => .ok (true, _)) with
          | .error x => _ | .ok (new, s) => _)
      cases locate env s1 s.gapResume with
      | error e => rfl
      | ok b => cases b <;> rfl
    · rw [if_neg ht, if_neg ht]
      rfl

/-- The iteration will read, and there is nothing left. -/
def AtEnd (s : St R) : Prop := s.rest = [] ∧ s.gapProcessing = false ∧ s.gapResume = false

theorem input_more {env : Env R} (hu : Unseen env) (r : List (Item R)) (s : St R) (he : ¬ AtEnd s) :
    inputPhase env (s.more r) = mapRes (·.more r) (fun x => (x.1, x.2.more r)) (inputPhase env s) := by
  unfold inputPhase
  show (if s.gapProcessing = true then (if s.hasSub = true then _ else _) else
    match (if s.gapResume = true then (Except.ok (s.more r) : Res R (St R)) else readNext (s.more r)) with
    | .error x => _ | .ok s => _) = _
  by_cases hg : s.gapProcessing = true
  · rw [if_pos hg, if_pos hg]
    by_cases hs : s.hasSub = true
    · rw [if_pos hs, if_pos hs]; rfl
    · rw [if_neg hs, if_neg hs]; rfl
  · rw [if_neg hg, if_neg hg]
    have h1 : (if s.gapResume = true then (Except.ok (s.more r) : Res R (St R)) else readNext (s.more r)) =
        mapRes (·.more r) (·.more r) (if s.gapResume = true then (Except.ok s : Res R (St R)) else readNext s) := by
      by_cases hr : s.gapResume = true
      · rw [if_pos hr, if_pos hr]; rfl
      · rw [if_neg hr, if_neg hr]
        refine read_more s r fun h => he ⟨h, by simpa using hg, by simpa using hr⟩
    rw [h1]
    generalize (if s.gapResume = true then (Except.ok s : Res R (St R)) else readNext s) = q
    cases q with
    | error x => rfl
    | ok s1 =>
      simp only [mapRes]
      show (match s1.input with | none => _ | some p => _) = _
      cases s1.input with
      | none => rfl
      | some p => exact packet_more hu r s1 p

theorem burst_more {env : Env R} (hu : Unseen env) (r : List (Item R)) (s : St R) (p : Pk R) :
    burstBeams env (s.more r) p = ((burstBeams env s p).1, (burstBeams env s p).2.more r) := by
  unfold burstBeams
  rw [hu.view r s p, hu.angle r s p]
  rfl

theorem loop_more {env : Env R} (hu : Unseen env) (r : List (Item R)) (todo : List (Pk R × Bool)) :
    ∀ (done : List (Pk R × Bool)) (s : St R),
      packetLoop env done todo (s.more r) = mapRes (·.more r) (·.more r) (packetLoop env done todo s) := by
  induction todo with
  | nil => intro done s; rfl
  | cons x todo ih =>
    intro done s
    obtain ⟨p, f⟩ := x
    cases f with
    | true =>
      rw [packetLoop, packetLoop]
      exact ih _ s
    | false =>
      rw [packetLoop, packetLoop, burst_more hu]
      simp only
      rw [more_log, hu.azimuth r _ p, call_more]
      cases env.azimuthFails ((burstBeams env s p).2.log (.beams p.counter)) p with
      | some e => rfl
      | none =>
        simp only [call, mapRes]
        by_cases hw : (burstBeams env s p).1 = true
        · rw [if_pos hw, if_pos hw]
          exact ih (done ++ [(p, true)])
            ({ (burstBeams env s p).2.log (.beams p.counter) with packets := done ++ (p, true) :: todo } : St R)
        · rw [if_neg hw, if_neg hw]
          rfl

theorem clear_more (w : Beams.Surf (Pk R)) (s : St R) (r : List (Item R)) :
    clearOld w (s.more r) = mapRes (·.more r) (·.more r) (clearOld w s) := by
  obtain ⟨k, running, sp, status, prev, gp, gr, sub, input, rest, surfaces, packets, count, size, trend, trace⟩ := s
  obtain ⟨n, l1, l2, bursts⟩ := w
  cases packets with
  | nil => rfl
  | cons _ _ => cases bursts <;> rfl

theorem finish_more {env : Env R} (hu : Unseen env) (r : List (Item R)) (s : St R) :
    finishSurface env (s.more r) = mapRes (·.more r) (·.more r) (finishSurface env s) := by
  unfold finishSurface
  rw [hu.gather, call_more]
  cases env.gatherFails s with
  | some e => rfl
  | none =>
    simp only [call, mapRes]
    show (match s.surfaces with | [] => _ | w :: rest => _) = _
    cases s.surfaces with
    | nil => rfl
    | cons w rest =>
      dsimp only
      by_cases hf : min w.bursts.length env.nLooks < env.nLooks / 2
      · rw [if_pos hf, if_pos hf]; rfl
      · rw [if_neg hf, if_neg hf]
        unfold writeSurface
        rw [hu.algorithm, call_more]
        cases env.algorithmFails s with
        | some e => rfl
        | none =>
          simp only [call, mapRes]
          rw [hu.l1b]
          cases env.l1bFails s with
          | some e => rfl
          | none =>
            dsimp only
            rw [more_log]
            unfold writeL1bs
            by_cases hk : env.skipL1bs = true
            · rw [if_pos hk, if_pos hk]
              exact clear_more w _ r
            · rw [if_neg hk, if_neg hk, hu.l1bs]
              cases env.l1bsFails (s.log (.l1b w.counter (stackIds w))) with
              | some e => rfl
              | none =>
                simp only [call]
                exact clear_more w ((s.log (.l1b w.counter (stackIds w))).log (.l1bs w.counter)) r

theorem surface_more {env : Env R} (hu : Unseen env) (r : List (Item R)) (s : St R) :
    surfacePhase env (s.more r) = mapRes (·.more r) (·.more r) (surfacePhase env s) := by
  unfold surfacePhase
  show (if s.surfaceProcessing = true ∨ minSurfs ≤ s.surfaces.length ∨ s.gapProcessing = true
    then match s.surfaces with
      | [] => _
      | _ :: _ => _ else _) = _
  by_cases hc : s.surfaceProcessing = true ∨ minSurfs ≤ s.surfaces.length ∨ s.gapProcessing = true
  · rw [if_pos hc, if_pos hc]
    dsimp only
    cases hs : s.surfaces with
    | nil =>
      obtain ⟨k, running, sp, status, prev, gp, gr, sub, input, rest, surfaces, packets, count, size, trend, trace⟩ := s
      cases hs
      rfl
    | cons w0 r0 =>
      dsimp only
      have := loop_more hu r s.packets [] s.begun
      rw [← hs]
      show (match packetLoop env [] s.packets (s.begun.more r) with | .error x => _ | .ok s => finishSurface env s) = _
      rw [this]
      show _ = mapRes _ _ (match packetLoop env [] s.packets s.begun with | .error x => _ | .ok s => finishSurface env s)
      cases packetLoop env [] s.packets s.begun with
      | error x => rfl
      | ok s1 => exact finish_more hu r s1
  · rw [if_neg hc, if_neg hc]; rfl

theorem end_more (s : St R) (r : List (Item R)) : endPhase (s.more r) = mapRes (·.more r) (·.more r) (endPhase s) := by
  unfold endPhase
  show (if s.surfaces = [] then (if s.gapProcessing = true then (if s.hasSub = true then _ else _) else _) else _) = _
  by_cases h : s.surfaces = []
  · rw [if_pos h, if_pos h]
    by_cases hg : s.gapProcessing = true
    · rw [if_pos hg, if_pos hg]
      by_cases hs : s.hasSub = true
      · rw [if_pos hs]; simp only; rw [if_pos hs]; rfl
      · rw [if_neg hs]; simp only; rw [if_neg hs]; rfl
    · rw [if_neg hg, if_neg hg]; rfl
  · rw [if_neg h, if_neg h]; rfl

theorem atEnd_begin (env : Env R) (s : St R) : AtEnd (beginIteration env s) ↔ AtEnd s := by
  unfold beginIteration
  dsimp only
  split <;> rfl

theorem step_more {env : Env R} (hu : Unseen env) (r : List (Item R)) (s : St R) (he : ¬ AtEnd s) :
    step env (s.more r) = mapRes (·.more r) (·.more r) (step env s) := by
  unfold step
  rw [begin_more, input_more hu r _ (fun h => he ((atEnd_begin env s).1 h))]
  cases inputPhase env (beginIteration env s) with
  | error x => rfl
  | ok x =>
    obtain ⟨b, s1⟩ := x
    cases b with
    | true => rfl
    | false =>
      simp only [mapRes]
      rw [surface_more hu]
      cases surfacePhase env s1 with
      | error x => rfl
      | ok s2 => exact end_more s2 r

/-! ### Traces only grow -/

theorem surf_ext (env : Env R) (s : St R) :
    Post (surfacePhase env s) (fun s' => s.trace <+: s'.trace) (fun _ s' => s.trace <+: s'.trace) := by
  have h := surfacePhase_rel env s
  revert h
  generalize surfacePhase env s = q
  intro h
  cases q with
  | ok s' =>
    obtain ⟨t, ht, -⟩ := (phase_surf h).tr
    exact ⟨t, ht.symm⟩
  | error x =>
    obtain ⟨e, s'⟩ := x
    cases h with
    | empty => exact List.prefix_refl _
    | loop _ _ _ _ _ hl =>
      obtain ⟨t, ht, -⟩ := (phase_loop hl).tr
      exact ⟨t, ht.symm⟩
    | writing _ s1 _ _ hl =>
      obtain ⟨t, ht, -⟩ := (phase_loop hl).tr
      rename_i u _ _
      exact ⟨t ++ u, by rw [ht]; simp⟩

theorem end_ext (s : St R) :
    Post (endPhase s) (fun s' => s.trace <+: s'.trace) (fun _ s' => s.trace <+: s'.trace) := by
  have h := endPhase_rel s
  revert h
  generalize endPhase s = q
  intro h
  cases q with
  | ok s' =>
    cases h with
    | gapEnd => exact ⟨_, rfl⟩
    | stop => exact List.prefix_refl _
    | go => exact List.prefix_refl _
  | error x =>
    obtain ⟨e, s'⟩ := x
    obtain ⟨-, -, rfl⟩ := h
    exact List.prefix_refl _

theorem begin_ext (env : Env R) (s : St R) : s.trace <+: (beginIteration env s).trace := by
  unfold beginIteration
  dsimp only
  split
  · exact ⟨[.iteration, .cancelSeen], by simp [St.log]⟩
  · exact ⟨[.iteration], by simp [St.log]⟩

theorem step_ext (env : Env R) (s : St R) :
    Post (step env s) (fun s' => (beginIteration env s).trace <+: s'.trace) (fun _ s' => (beginIteration env s).trace <+: s'.trace) := by
  have h := step_rel env s
  revert h
  generalize step env s = q
  intro h
  cases q with
  | ok s' =>
    cases h with
    | cont _ h => obtain ⟨t, ht, -⟩ := (phase_input h).tr; exact ⟨t, ht.symm⟩
    | full s1 s2 _ h1 h2 h3 =>
      obtain ⟨t, ht, -⟩ := (phase_input h1).tr
      obtain ⟨t2, ht2, -⟩ := (phase_surf h2).tr
      cases h3 with
      | gapEnd => exact ⟨t ++ t2 ++ [.gapDone], by simp [ht, ht2]⟩
      | stop => exact ⟨t ++ t2, by simp [ht, ht2]⟩
      | go => exact ⟨t ++ t2, by simp [ht, ht2]⟩
  | error x =>
    obtain ⟨t, ht, -⟩ := (phase_stepErr h).tr
    exact ⟨t, ht.symm⟩

theorem run_ext (env : Env R) : ∀ (fuel : Nat) (s : St R), s.trace <+: (run env fuel s).trace := by
  intro fuel
  induction fuel with
  | zero => intro s; exact List.prefix_refl _
  | succ fuel ih =>
    intro s
    rw [run]
    by_cases hr : s.running = true
    · rw [if_pos hr]
      have h := step_ext env s
      revert h
      generalize step env s = q
      intro h
      cases q with
      | ok s1 => exact (begin_ext env s).trans (h.trans (ih s1))
      | error x => exact (begin_ext env s).trans h
    · rw [if_neg hr]
      cases env.finishFails s with
      | some e => exact List.prefix_refl _
      | none => exact ⟨[.closed], rfl⟩

/-- A run which has begun an iteration keeps its events. -/
theorem run_ext_begin (env : Env R) (fuel : Nat) (s : St R) (hr : s.running = true) :
    (beginIteration env s).trace <+: (run env (fuel + 1) s).trace := by
  rw [run, if_pos hr]
  have h := step_ext env s
  revert h
  generalize step env s = q
  intro h
  cases q with
  | ok s1 => exact h.trans (run_ext env fuel s1)
  | error x => exact h

/-! ### The first read beyond the records -/

/-- Events other than reading. -/
def Quiet (t : List Event) : Prop := readCount t = 0 ∧ .endOfInput ∉ t

theorem Quiet.append {a b : List Event} (ha : Quiet a) (hb : Quiet b) : Quiet (a ++ b) := by
  refine ⟨by rw [readCount_append, ha.1, hb.1], ?_⟩
  rw [List.mem_append]
  rintro (h | h)
  · exact ha.2 h
  · exact hb.2 h

theorem quiet_begin (env : Env R) (s : St R) : ∃ t, (beginIteration env s).trace = s.trace ++ t ∧ Quiet t ∧
    (beginIteration env s).rest = s.rest := by
  unfold beginIteration
  dsimp only
  split
  · exact ⟨[.iteration, .cancelSeen], by simp [St.log], by simp [Quiet, readCount], rfl⟩
  · exact ⟨[.iteration], by simp [St.log], by simp [Quiet, readCount], rfl⟩

theorem quiet_packet {env : Env R} {s s' : St R} {p : Pk R} {b : Bool} (hr : PacketRel env s p b s') :
    ∃ t, s'.trace = s.trace ++ t ∧ Quiet t ∧ s'.rest = s.rest := by
  cases hr with
  | nothing => exact ⟨_, rfl, by simp [Quiet, readCount], rfl⟩
  | created => exact ⟨_, rfl, by simp [Quiet, readCount], rfl⟩
  | gap => exact ⟨_, rfl, by simp [Quiet, readCount], rfl⟩

theorem quiet_loop {s s1 : St R} {todo : List (Pk R × Bool)} {new : List (Pk R)} {n : Nat}
    (hl : LoopSpec todo s.begun s1 new n) : ∃ t, s1.trace = s.trace ++ t ∧ Quiet t ∧ s1.rest = s.rest := by
  refine ⟨_, hl.trace, ⟨?_, ?_⟩, ?_⟩
  · unfold readCount; rw [List.countP_map]; simp [Function.comp_def]
  · intro hm; obtain ⟨_, _, h⟩ := List.mem_map.1 hm; cases h
  · rw [hl.frame]; rfl

theorem quiet_surf {env : Env R} {s s' : St R} (hr : SurfRel env s s') :
    ∃ t, s'.trace = s.trace ++ t ∧ Quiet t ∧ s'.rest = s.rest := by
  cases hr with
  | idle => exact ⟨[], by simp, by simp [Quiet, readCount], rfl⟩
  | dropped _ s1 new n loop pk w rest hw few =>
    obtain ⟨t, h1, h2, h3⟩ := quiet_loop loop
    exact ⟨t ++ [.dropped w.counter (stackIds w)], by simp [St.log, h1], h2.append (by simp [Quiet, readCount]), h3⟩
  | written _ s1 new n loop pk w rest hw en pks suf =>
    obtain ⟨t, h1, h2, h3⟩ := quiet_loop loop
    refine ⟨t ++ (.l1b w.counter (stackIds w)) :: (if env.skipL1bs then [] else [.l1bs w.counter]), by simp [h1],
      h2.append ?_, h3⟩
    split <;> simp [Quiet, readCount]

theorem quiet_end {s s' : St R} (hr : EndRel s s') : ∃ t, s'.trace = s.trace ++ t ∧ Quiet t ∧ s'.rest = s.rest := by
  cases hr with
  | gapEnd => exact ⟨[.gapDone], rfl, by simp [Quiet, readCount], rfl⟩
  | stop => exact ⟨[], by simp, by simp [Quiet, readCount], rfl⟩
  | go => exact ⟨[], by simp, by simp [Quiet, readCount], rfl⟩

/-- `N` records have been read or are still to come, and the end has not been met. -/
def Left (N : Nat) (s : St R) : Prop := readCount s.trace + s.rest.length = N ∧ .endOfInput ∉ s.trace

theorem Left.quiet {N : Nat} {s s' : St R} (h : Left N s) (hq : ∃ t, s'.trace = s.trace ++ t ∧ Quiet t ∧ s'.rest = s.rest) :
    Left N s' := by
  obtain ⟨t, h1, h2, h3⟩ := hq
  refine ⟨by rw [h1, h3, readCount_append, h2.1]; exact h.1, ?_⟩
  rw [h1, List.mem_append]
  rintro (h' | h')
  · exact h.2 h'
  · exact h2.2 h'

theorem left_read {N : Nat} {s s' : St R} (h : Left N s) (hg : s.gapProcessing = false) (he : ¬ AtEnd s) (hr : ReadRel s s') :
    Left N s' := by
  cases hr with
  | resumed => exact h
  | atEnd h1 h2 => exact absurd ⟨h2, hg, h1⟩ he
  | invalid h1 rest h2 =>
    refine ⟨?_, ?_⟩
    · have := h.1
      rw [h2] at this
      show readCount (s.trace ++ _) + rest.length = N
      rw [readCount_append]
      simp [readCount] at this ⊢
      omega
    · have := h.2
      simpa using this
  | record h1 p rest h2 =>
    refine ⟨?_, ?_⟩
    · have := h.1
      rw [h2] at this
      show readCount (s.trace ++ _) + rest.length = N
      rw [readCount_append]
      simp [readCount] at this ⊢
      omega
    · have := h.2
      simpa using this

theorem left_input {N : Nat} {env : Env R} {s s' : St R} {b : Bool} (h : Left N s) (he : ¬ AtEnd s) (hr : InputRel env s b s') :
    Left N s' := by
  cases hr with
  | gap => exact h.quiet ⟨[.gapProgress], rfl, by simp [Quiet, readCount], rfl⟩
  | gapNoSub => exact h
  | noPacket hg _ hr _ => exact left_read h hg he hr
  | packet hg s1 hr p _ _ _ hp => exact (left_read h hg he hr).quiet (quiet_packet hp)

theorem left_step {N : Nat} {env : Env R} {s s' : St R} (h : Left N s) (he : ¬ AtEnd s) (hr : StepRel env s s') : Left N s' := by
  have h0 := h.quiet (quiet_begin env s)
  have he0 : ¬ AtEnd (beginIteration env s) := fun x => he ((atEnd_begin env s).1 x)
  cases hr with
  | cont _ h1 => exact left_input h0 he0 h1
  | full _ _ _ h1 h2 h3 => exact ((left_input h0 he0 h1).quiet (quiet_surf h2)).quiet (quiet_end h3)

theorem upTo_prefix : ∀ (n : Nat) (t : List Event), upTo n t <+: t := by
  intro n t
  induction t generalizing n with
  | nil => simp [upTo]
  | cons e t ih =>
    cases e <;> cases n <;> simp [upTo, ih]

theorem upTo_append : ∀ (n : Nat) (c d : List Event), readCount c = n → .endOfInput ∉ c → upTo n (c ++ d) = c ++ upTo 0 d := by
  intro n c d
  induction c generalizing n with
  | nil => intro h _; simp [readCount] at h; subst h; rfl
  | cons e c ih =>
    intro h1 h2
    have h3 : .endOfInput ∉ c := fun h => h2 (by simp [h])
    cases e with
    | endOfInput => simp at h2
    | read x =>
      cases n with
      | zero => simp [readCount] at h1
      | succ n => simp only [List.cons_append, upTo]; rw [ih n (by simpa [readCount] using h1) h3]
    | _ =>
      cases n <;> simp only [List.cons_append, upTo] <;> rw [ih _ (by simpa [readCount] using h1) h3]

/-- Nothing, or an attempt to read and what follows. -/
def Reads (d : List Event) : Prop := d = [] ∨ ∃ e t, d = e :: t ∧ (e = .endOfInput ∨ ∃ x, e = .read x)

theorem Reads.upTo {d : List Event} (h : Reads d) : Process.upTo 0 d = [] := by
  rcases h with rfl | ⟨e, t, rfl, rfl | ⟨x, rfl⟩⟩ <;> rfl

/-- An iteration which reads does so first. -/
theorem reads_first (env : Env R) (fuel : Nat) (s : St R) (hr : s.running = true) (hg : s.gapProcessing = false)
    (hp : s.gapResume = false) : ∃ d, (run env (fuel + 1) s).trace = (beginIteration env s).trace ++ d ∧ Reads d := by
  have hb : (beginIteration env s).gapProcessing = false ∧ (beginIteration env s).gapResume = false := by
    unfold beginIteration
    dsimp only
    split <;> exact ⟨hg, hp⟩
  have key : ∀ {s1 : St R}, ReadRel (beginIteration env s) s1 → ∀ t, s1.trace <+: t →
      ∃ d, t = (beginIteration env s).trace ++ d ∧ Reads d := by
    intro s1 h t ht
    obtain ⟨u, rfl⟩ := ht
    cases h with
    | resumed h => rw [hb.2] at h; cases h
    | atEnd => exact ⟨.endOfInput :: u, by simp [St.log], Or.inr ⟨_, _, rfl, Or.inl rfl⟩⟩
    | invalid => exact ⟨.read none :: .progress :: u, by simp, Or.inr ⟨_, _, rfl, Or.inr ⟨_, rfl⟩⟩⟩
    | record _ p => exact ⟨.read (some p.counter) :: .progress :: u, by simp, Or.inr ⟨_, _, rfl, Or.inr ⟨_, rfl⟩⟩⟩
  have inp : ∀ {b : Bool} {s1 : St R}, InputRel env (beginIteration env s) b s1 → ∃ s0, ReadRel (beginIteration env s) s0 ∧
      s0.trace <+: s1.trace := by
    intro b s1 h
    cases h with
    | gap h => rw [hb.1] at h; cases h
    | gapNoSub h => rw [hb.1] at h; cases h
    | noPacket _ _ hr => exact ⟨_, hr, List.prefix_refl _⟩
    | packet _ s0 hr _ _ _ _ hp =>
      obtain ⟨t, ht, -⟩ := quiet_packet hp
      exact ⟨_, hr, ⟨t, ht.symm⟩⟩
  rw [run, if_pos hr]
  have h := step_rel env s
  revert h
  generalize step env s = q
  intro h
  cases q with
  | ok s' =>
    show ∃ d, (run env fuel s').trace = _ ∧ _
    cases h with
    | cont _ h1 =>
      obtain ⟨s0, h2, h3⟩ := inp h1
      exact key h2 _ (h3.trans (run_ext env fuel _))
    | full s1 s2 _ h1 h2 h3 =>
      obtain ⟨s0, g2, g3⟩ := inp h1
      obtain ⟨t2, e2, -⟩ := quiet_surf h2
      obtain ⟨t3, e3, -⟩ := quiet_end h3
      exact key g2 _ (((g3.trans ⟨t2, e2.symm⟩).trans ⟨t3, e3.symm⟩).trans (run_ext env fuel _))
  | error x =>
    obtain ⟨e, s'⟩ := x
    show ∃ d, s'.trace = _ ∧ _
    cases h with
    | input _ h1 =>
      cases h1 with
      | read _ _ _ hr =>
        cases hr with
        | insufficient => exact ⟨[.endOfInput], rfl, Or.inr ⟨_, _, rfl, Or.inl rfl⟩⟩
        | failure => exact ⟨[], by simp, Or.inl rfl⟩
      | packet _ s1 hr p _ _ _ hp =>
        cases hp with
        | cal => exact key hr _ (List.prefix_refl _)
        | location => exact key hr _ ⟨_, rfl⟩
    | surf s1 _ h1 h2 =>
      obtain ⟨s0, g2, g3⟩ := inp h1
      refine key g2 _ (g3.trans ?_)
      cases h2 with
      | empty => exact List.prefix_refl _
      | loop _ _ _ _ _ hl => obtain ⟨t, ht, -⟩ := quiet_loop hl; exact ⟨t, ht.symm⟩
      | writing _ s2 _ _ hl _ _ _ _ _ u =>
        obtain ⟨t, ht, -⟩ := quiet_loop hl
        exact ⟨t ++ u, by rw [ht]; simp⟩
    | noSub s1 s2 h1 h2 =>
      obtain ⟨s0, g2, g3⟩ := inp h1
      obtain ⟨t2, e2, -⟩ := quiet_surf h2
      exact key g2 _ (g3.trans ⟨t2, e2.symm⟩)

theorem run_upTo {env : Env R} (hu : Unseen env) (N : Nat) : ∀ (fuel : Nat) (s : St R), Left N s → ∀ r r',
    upTo N (run env fuel (s.more r)).trace = upTo N (run env fuel (s.more r')).trace := by
  intro fuel
  induction fuel with
  | zero => intro s _ r r'; rfl
  | succ fuel ih =>
    intro s h r r'
    by_cases hr : s.running = true
    · by_cases he : AtEnd s
      · have hcount : readCount s.trace = N := by have := h.1; rw [he.1] at this; simpa using this
        have key : ∀ r, upTo N (run env (fuel + 1) (s.more r)).trace = (beginIteration env s).trace := by
          intro r
          obtain ⟨d, h1, h2⟩ := reads_first env fuel (s.more r) hr he.2.1 he.2.2
          rw [begin_more] at h1
          have hq := h.quiet (quiet_begin env s)
          obtain ⟨t, e1, e2, e3⟩ := quiet_begin env s
          rw [h1]
          show upTo N ((beginIteration env s).trace ++ d) = _
          rw [upTo_append N _ d (by rw [e1, readCount_append, e2.1, hcount]; rfl) hq.2, h2.upTo, List.append_nil]
        rw [key, key]
      · rw [run, run]
        show upTo N (Outcome.trace (if s.running = true then _ else _)) = upTo N (Outcome.trace (if s.running = true then _ else _))
        rw [if_pos hr, if_pos hr, step_more hu r s he, step_more hu r' s he]
        have hrel := step_rel env s
        revert hrel
        generalize step env s = q
        intro hrel
        cases q with
        | error x => rfl
        | ok s1 => exact ih s1 (left_step h he hrel) r r'
    · rw [run, run]
      show upTo N (Outcome.trace (if s.running = true then _ else _)) = upTo N (Outcome.trace (if s.running = true then _ else _))
      rw [if_neg hr, if_neg hr, hu.finish, hu.finish]
      cases env.finishFails s <;> rfl

/-! ## C128 -/

theorem process_more (env : Env R) (a b : List (Item R)) (n : Nat) (h : (a ++ b).length ≤ n) :
    process env (a ++ b) = run env (3 * n + 2) ((start [] [] a : St R).more b) := by
  have h1 : (start [] [] a : St R).more b = start [] [] (a ++ b) := rfl
  unfold process processWith
  rw [h1, ← fuel_irrelevant env _ (3 * (n - (a ++ b).length)) _ (process_terminates env [] [] (a ++ b))]
  congr 1
  simp only [List.length_nil]
  omega

/-- **C128.**  Whatever the processor does before it tries to read the record that follows `pre` is the same for every continuation of the
input. -/
theorem causal (env : Env R) (hu : Unseen env) (pre r r' : List (Item R)) :
    upTo pre.length (process env (pre ++ r)).trace = upTo pre.length (process env (pre ++ r')).trace := by
  rw [process_more env pre r (max (pre ++ r).length (pre ++ r').length) (le_max_left _ _),
    process_more env pre r' (max (pre ++ r).length (pre ++ r').length) (le_max_right _ _)]
  exact run_upTo hu pre.length _ _ ⟨by simp [start, readCount], by simp [start]⟩ r r'

/-! ### Inputs that cannot be read to the end -/

/-- At most `N` records were read, and the end was not met. -/
def Within (N : Nat) (t : List Event) : Prop := readCount t ≤ N ∧ .endOfInput ∉ t

theorem Within.upTo : ∀ {N : Nat} {t : List Event}, Within N t → Process.upTo N t = t := by
  intro N t
  induction t generalizing N with
  | nil => intro _; rfl
  | cons e t ih =>
    intro h
    have h2 : .endOfInput ∉ t := fun x => h.2 (by simp [x])
    have h1 := h.1
    cases e with
    | endOfInput => exact absurd (by simp) h.2
    | read x =>
      cases N with
      | zero => simp [readCount] at h1
      | succ N => rw [Process.upTo, ih ⟨by simpa [readCount] using h1, h2⟩]
    | _ => cases N <;> rw [Process.upTo, ih ⟨by simpa [readCount] using h1, h2⟩] <;> simp

theorem Left.within {N : Nat} {s : St R} (h : Left N s) : Within N s.trace := ⟨by have := h.1; omega, h.2⟩

theorem Within.quiet {N : Nat} {a b : List Event} (h : Within N a) (hq : Quiet b) : Within N (a ++ b) := by
  refine ⟨by rw [readCount_append, hq.1]; exact h.1, ?_⟩
  rw [List.mem_append]
  rintro (h' | h')
  · exact h.2 h'
  · exact hq.2 h'

theorem within_stepErr {N : Nat} {env : Env R} {s s' : St R} {e : PyErr} (h : Left N s) (he : ¬ AtEnd s) (hr : StepErr env s e s') :
    Within N s'.trace := by
  have h0 := h.quiet (quiet_begin env s)
  have he0 : ¬ AtEnd (beginIteration env s) := fun x => he ((atEnd_begin env s).1 x)
  cases hr with
  | input _ h1 =>
    cases h1 with
    | read hg _ _ hr =>
      cases hr with
      | insufficient h1 h2 => exact absurd ⟨h2, hg, h1⟩ he0
      | failure => exact h0.within
    | packet hg s1 hr p _ _ _ hp =>
      have := (left_read h0 hg he0 hr).within
      cases hp with
      | cal => exact this
      | location => exact this.quiet (by simp [Quiet, readCount])
  | surf s1 _ h1 h2 =>
    have := left_input h0 he0 h1
    cases h2 with
    | empty => exact this.within
    | loop _ _ _ _ _ hl => exact (this.quiet (quiet_loop hl)).within
    | writing _ s2 _ _ hl _ _ _ _ _ u hu =>
      refine (this.quiet (quiet_loop hl)).within.quiet ?_
      rcases hu with rfl | ⟨-, rfl⟩ <;> simp [Quiet, readCount]
  | noSub s1 s2 h1 h2 => exact ((left_input h0 he0 h1).quiet (quiet_surf h2)).within

theorem run_failure {env : Env R} (hu : Unseen env) (N : Nat) (e : PyErr) (r : List (Item R)) : ∀ (fuel : Nat) (s : St R), Left N s →
    Within N (run env fuel (s.more (.failure e :: r))).trace := by
  intro fuel
  induction fuel with
  | zero => intro s h; exact h.within
  | succ fuel ih =>
    intro s h
    rw [run]
    show Within N (Outcome.trace (if s.running = true then _ else _))
    by_cases hr : s.running = true
    · rw [if_pos hr]
      by_cases he : AtEnd s
      · have hs : step env (s.more (.failure e :: r)) = .error (e, { (beginIteration env s) with rest := r }) := by
          have hb : (beginIteration env s).gapProcessing = false ∧ (beginIteration env s).gapResume = false ∧ (beginIteration env s).rest = [] := by
            unfold beginIteration
            dsimp only
            split <;> exact ⟨he.2.1, he.2.2, he.1⟩
          unfold step
          rw [begin_more]
          generalize beginIteration env s = b at hb
          obtain ⟨h1, h2, h3⟩ := hb
          obtain ⟨k, running, sp, status, prev, gp, gr, sub, input, rest, surfaces, packets, count, size, trend, trace⟩ := b
          cases h1; cases h2; cases h3
          rfl
        rw [hs]
        exact (h.quiet (quiet_begin env s)).within
      · rw [step_more hu _ s he]
        have hrel := step_rel env s
        revert hrel
        generalize step env s = q
        intro hrel
        cases q with
        | error x =>
          obtain ⟨e, s1⟩ := x
          exact within_stepErr (e := e) (s' := s1) h he hrel
        | ok s1 => exact ih s1 (left_step h he hrel)
    · rw [if_neg hr]
      cases env.finishFails (s.more (.failure e :: r)) with
      | some _ => exact h.within
      | none => exact h.within.quiet (b := [.closed]) (by simp [Quiet, readCount])

/-- **C128, damaged inputs.**  If the record after `pre` cannot be read, everything the processor does until it fails is the beginning of what it
does for an input whose records can be read: the records written are the first records of the complete product. -/
theorem damaged (env : Env R) (hu : Unseen env) (pre r r' : List (Item R)) (e : PyErr) :
    (process env (pre ++ .failure e :: r)).trace <+: (process env (pre ++ r')).trace := by
  have h1 : Within pre.length (process env (pre ++ .failure e :: r)).trace := by
    rw [process_more env pre (.failure e :: r) _ le_rfl]
    exact run_failure hu pre.length e r _ _ ⟨by simp [start, readCount], by simp [start]⟩
  rw [← h1.upTo, causal env hu pre (.failure e :: r) r']
  exact upTo_prefix _ _

theorem l1bOf_prefix {a b : List Event} (h : a <+: b) : l1bOf a <+: l1bOf b := by
  obtain ⟨t, rfl⟩ := h
  unfold l1bOf
  rw [List.filterMap_append]
  exact List.prefix_append _ _

/-- **C128, damaged products.**  The surfaces written for a damaged input are the first of those written for the repaired one. -/
theorem damaged_product (env : Env R) (hu : Unseen env) (pre r r' : List (Item R)) (e : PyErr) :
    l1bOf (process env (pre ++ .failure e :: r)).trace <+: l1bOf (process env (pre ++ r')).trace :=
  l1bOf_prefix (damaged env hu pre r r' e)

/-! ### Interruptions -/

theorem run_le (env : Env R) : ∀ (n m : Nat) (s : St R), n ≤ m → (run env n s).trace <+: (run env m s).trace := by
  intro n
  induction n with
  | zero => intro m s _; exact run_ext env m s
  | succ n ih =>
    intro m s h
    obtain ⟨m, rfl⟩ : ∃ k, m = k + 1 := ⟨m - 1, by omega⟩
    rw [run, run]
    by_cases hr : s.running = true
    · rw [if_pos hr, if_pos hr]
      cases step env s with
      | error x => exact List.prefix_refl _
      | ok s1 => exact ih m s1 (by omega)
    · rw [if_neg hr, if_neg hr]

/-- **C128, interruptions.**  After any number of iterations what has been done is the beginning of what is done in all. -/
theorem interrupted (env : Env R) (items : List (Item R)) (n : Nat) :
    (run env n (start [] [] items)).trace <+: (process env items).trace := by
  unfold process processWith
  rcases le_total n (3 * items.length + ([] : List (Beams.Surf (Pk R))).length + 2) with h | h
  · exact run_le env _ _ _ h
  · obtain ⟨k, rfl⟩ := Nat.exists_eq_add_of_le h
    rw [fuel_irrelevant env _ k _ (process_terminates env [] [] items)]

/-! ## Non-vacuity -/

/-- The example environment does not look ahead. -/
theorem demo_unseen : Unseen demo := ⟨fun _ _ _ => rfl, fun _ _ => rfl, fun _ _ _ => rfl, fun _ _ _ => rfl, fun _ _ _ => rfl, fun _ _ => rfl,
  fun _ _ => rfl, fun _ _ => rfl, fun _ _ => rfl, fun _ _ => rfl⟩

/-- With a record after the second gap that cannot be read, the surfaces before it are written, and more are with the complete input. -/
example : l1bOf (process demo (gappy ++ recs 4 2 20 ++ [.failure .indexError])).trace = [0, 1, 2, 3] ∧
    l1bOf (process demo (gappy ++ recs 4 2 20 ++ recs 6 1 40 ++ recs 7 1 60)).trace = [0, 1, 2, 3, 4, 5, 6] := by
  decide +kernel

end Dedop.Process
