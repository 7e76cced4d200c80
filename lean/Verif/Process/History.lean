import Verif.Process.Props

/-!
# Independence of earlier files (lemmas and C49)
-/
namespace Dedop.Process

set_option linter.unusedSectionVars false

variable {R : Type} [Field R] [LinearOrder R]

/-- The same state with bursts of an earlier file in front of the queue. -/
def St.add (s : St R) (st : List (Pk R × Bool)) : St R := { s with packets := st ++ s.packets }

/-- Applies a function to the state in a result. -/
def mapRes {A : Type} (f : St R → St R) (g : A → A) : Res R A → Res R A
  | .ok a => .ok (g a)
  | .error (e, s) => .error (e, f s)

/-- The algorithms do not look at the bursts that earlier files have left in the queue. -/
structure Blind (env : Env R) (stale : List (Pk R × Bool)) : Prop where
  cal : ∀ st s p, st <:+ stale → env.calFails (s.add st) p = env.calFails s p
  found : ∀ st s, st <:+ stale → env.found (s.add st) = env.found s
  view : ∀ st s p, st <:+ stale → env.view (s.add st) p = env.view s p
  angle : ∀ st s p, st <:+ stale → env.angle (s.add st) p = env.angle s p
  azimuth : ∀ st s p, st <:+ stale → env.azimuthFails (s.add st) p = env.azimuthFails s p
  gather : ∀ st s, st <:+ stale → env.gatherFails (s.add st) = env.gatherFails s
  algorithm : ∀ st s, st <:+ stale → env.algorithmFails (s.add st) = env.algorithmFails s
  l1b : ∀ st s, st <:+ stale → env.l1bFails (s.add st) = env.l1bFails s
  l1bs : ∀ st s, st <:+ stale → env.l1bsFails (s.add st) = env.l1bsFails s
  finish : ∀ st s, st <:+ stale → env.finishFails (s.add st) = env.finishFails s

theorem add_log (s : St R) (st : List (Pk R × Bool)) (e : Event) : (s.add st).log e = (s.log e).add st := rfl

theorem call_add (o : Option PyErr) (s : St R) (st : List (Pk R × Bool)) :
    call o (s.add st) = mapRes (·.add st) (·.add st) (call o s) := by
  cases o <;> rfl

theorem begin_add (env : Env R) (s : St R) (st : List (Pk R × Bool)) :
    beginIteration env (s.add st) = (beginIteration env s).add st := by
  unfold beginIteration
  show (if env.cancelled s.k = true then _ else _) = _
  split <;> rfl

theorem read_add (s : St R) (st : List (Pk R × Bool)) :
    readNext (s.add st) = mapRes (·.add st) (·.add st) (readNext s) := by
  obtain ⟨k, running, sp, status, prev, gp, gr, sub, input, rest, surfaces, packets, count, size, trend, trace⟩ := s
  cases rest with
  | nil => cases sp <;> rfl
  | cons x rest => cases x <;> rfl

theorem packet_add {env : Env R} {stale st : List (Pk R × Bool)} (hb : Blind env stale) (hst : st <:+ stale)
    (s : St R) (p : Pk R) :
    handlePacket env (s.add st) p = mapRes (·.add st) (fun x => (x.1, x.2.add st)) (handlePacket env s p) := by
  unfold handlePacket
  rw [hb.cal st s p hst, call_add]
  cases env.calFails s p with
  | some e => rfl
  | none =>
    simp only [call, mapRes]
    rw [add_log]
    have h1 : inTime env ((s.log (.calibrated p.counter)).add st) p = inTime env (s.log (.calibrated p.counter)) p := rfl
    rw [h1]
    by_cases ht : inTime env (s.log (.calibrated p.counter)) p = true
    · rw [if_pos ht, if_pos ht]
      unfold surfaceLocations
      set s1 : St R := ({ s.log (.calibrated p.counter) with
        prevTime := some p.time, packets := s.packets ++ [(p, false)] } : St R).log (.accepted p.counter) with hs1
      have e1 : (({ ({ (s.log (.calibrated p.counter)).add st with prevTime := some p.time } : St R) with
          packets := ((s.log (.calibrated p.counter)).add st).packets ++ [(p, false)] } : St R).log
            (.accepted p.counter)) = s1.add st := by
        simp [hs1, St.add, St.log]
      have hloc : locate env (s1.add st) s.gapResume = locate env s1 s.gapResume := by
        unfold locate
        show (if (s1.surfaces.isEmpty || s.gapResume) = true then _ else _) = _
        rw [hb.found st s1 hst]
      show (match (match locate env (({ ({ (s.log (.calibrated p.counter)).add st with prevTime := some p.time } : St R) with
          packets := ((s.log (.calibrated p.counter)).add st).packets ++ [(p, false)] } : St R).log
            (.accepted p.counter)) s.gapResume with
          | .error e => (Except.error (e, _) : Res R (Bool × St R)) | .ok false => .ok (false, _) | .ok true => .ok (true, _)) with
          | .error x => _ | .ok (new, s) => _) = _
      rw [e1, hloc]
      show _ = mapRes _ _ (match (match locate env s1 s.gapResume with
          | .error e => (Except.error (e, _) : Res R (Bool × St R)) | .ok false => .ok (false, _) | .ok true => .ok (true, _)) with
          | .error x => _ | .ok (new, s) => _)
      cases locate env s1 s.gapResume with
      | error e => rfl
      | ok b => cases b <;> rfl
    · rw [if_neg ht, if_neg ht]
      rfl

theorem input_add {env : Env R} {stale st : List (Pk R × Bool)} (hb : Blind env stale) (hst : st <:+ stale)
    (s : St R) : inputPhase env (s.add st) =
      mapRes (·.add st) (fun x => (x.1, x.2.add st)) (inputPhase env s) := by
  unfold inputPhase
  show (if s.gapProcessing = true then (if s.hasSub = true then _ else _) else
    match (if s.gapResume = true then (Except.ok (s.add st) : Res R (St R)) else readNext (s.add st)) with
    | .error x => _ | .ok s => _) = _
  by_cases hg : s.gapProcessing = true
  · rw [if_pos hg, if_pos hg]
    by_cases hs : s.hasSub = true
    · rw [if_pos hs, if_pos hs]; rfl
    · rw [if_neg hs, if_neg hs]; rfl
  · rw [if_neg hg, if_neg hg]
    have h1 : (if s.gapResume = true then (Except.ok (s.add st) : Res R (St R)) else readNext (s.add st)) =
        mapRes (·.add st) (·.add st) (if s.gapResume = true then (Except.ok s : Res R (St R)) else readNext s) := by
      by_cases hr : s.gapResume = true
      · rw [if_pos hr, if_pos hr]; rfl
      · rw [if_neg hr, if_neg hr]; exact read_add s st
    rw [h1]
    generalize (if s.gapResume = true then (Except.ok s : Res R (St R)) else readNext s) = r
    cases r with
    | error x => rfl
    | ok s1 =>
      simp only [mapRes]
      show (match s1.input with | none => _ | some p => _) = _
      cases s1.input with
      | none => rfl
      | some p => exact packet_add hb hst s1 p

theorem burst_add {env : Env R} {stale st : List (Pk R × Bool)} (hb : Blind env stale) (hst : st <:+ stale)
    (s : St R) (p : Pk R) : burstBeams env (s.add st) p =
      ((burstBeams env s p).1, (burstBeams env s p).2.add st) := by
  unfold burstBeams
  rw [hb.view st s p hst, hb.angle st s p hst]
  rfl

theorem loop_add {env : Env R} {stale st : List (Pk R × Bool)} (hb : Blind env stale) (hst : st <:+ stale)
    (todo : List (Pk R × Bool)) : ∀ (done : List (Pk R × Bool)) (s : St R),
    packetLoop env (st ++ done) todo (s.add st) =
      mapRes (·.add st) (·.add st) (packetLoop env done todo s) := by
  induction todo with
  | nil => intro done s; rfl
  | cons x todo ih =>
    intro done s
    obtain ⟨p, f⟩ := x
    cases f with
    | true =>
      rw [packetLoop, packetLoop, List.append_assoc]
      exact ih _ s
    | false =>
      rw [packetLoop, packetLoop, burst_add hb hst]
      simp only
      rw [add_log, hb.azimuth st _ p hst, call_add]
      cases env.azimuthFails ((burstBeams env s p).2.log (.beams p.counter)) p with
      | some e => rfl
      | none =>
        simp only [call, mapRes]
        have e1 : ({ ((burstBeams env s p).2.log (.beams p.counter)).add st with
            packets := st ++ done ++ (p, true) :: todo } : St R) =
          ({ (burstBeams env s p).2.log (.beams p.counter) with packets := done ++ (p, true) :: todo } : St R).add st := by
          simp [St.add]
        rw [e1]
        by_cases hw : (burstBeams env s p).1 = true
        · rw [if_pos hw, if_pos hw, List.append_assoc]
          exact ih _ _
        · rw [if_neg hw, if_neg hw]

theorem loop_skip (env : Env R) (todo : List (Pk R × Bool)) (s : St R) :
    ∀ (st done : List (Pk R × Bool)), (∀ x ∈ st, x.2 = true) →
      packetLoop env done (st ++ todo) s = packetLoop env (done ++ st) todo s := by
  intro st
  induction st with
  | nil => intro done _; simp
  | cons x st ih =>
    intro done h
    obtain ⟨p, f⟩ := x
    have hf : f = true := h (p, f) (by simp)
    subst hf
    rw [List.cons_append, packetLoop, ih _ (fun x hx => h x (by simp [hx]))]
    simp

theorem dropWhile_all {A : Type} {p : A → Bool} : ∀ (l : List A),
    (∀ x ∈ l, p x = true) → l.dropWhile p = []
  | [], _ => rfl
  | x :: l, h => by
    rw [List.dropWhile_cons, if_pos (h x (by simp))]
    exact dropWhile_all l (fun y hy => h y (by simp [hy]))

theorem clear_add {st : List (Pk R × Bool)} (w : Beams.Surf (Pk R)) (s : St R) (hw : w.bursts ≠ [])
    (hd : ∀ b ∈ w.bursts, ∀ x ∈ st, x.1.counter ≠ b.counter) :
    clearOld w (s.add st) = clearOld w s := by
  obtain ⟨b, bs, hb⟩ := List.exists_cons_of_ne_nil hw
  have hall : ∀ x ∈ st, (x.1.counter != b.counter) = true := by
    intro x hx
    simpa using hd b (by rw [hb]; simp) x hx
  have key : (st ++ s.packets).dropWhile (fun x => x.1.counter != b.counter) =
      s.packets.dropWhile (fun x => x.1.counter != b.counter) := by
    rw [List.dropWhile_append, (dropWhile_all st hall)]; rfl
  unfold clearOld
  rw [hb]
  simp only [St.add]
  cases hs : s.packets with
  | nil =>
    rw [hs] at key
    cases hst : st ++ ([] : List (Pk R × Bool)) with
    | nil => simp [← hs]
    | cons y ys =>
      rw [hst] at key
      simp only [key]
      rw [← hs]
      simp [hs]
  | cons x xs =>
    rw [hs] at key
    cases hst : st ++ x :: xs with
    | nil => simp at hst
    | cons y ys => rw [hst] at key; simp only [key]

/-- Same result, possibly with some of the earlier bursts left. -/
def SameRes (stale : List (Pk R × Bool)) (a b : Res R (St R)) : Prop :=
  ∃ st, st <:+ stale ∧ b = mapRes (·.add st) (·.add st) a

theorem mapRes_nil (a : Res R (St R)) : mapRes (·.add []) (·.add []) a = a := by
  rcases a with ⟨e, s⟩ | s <;> rfl

theorem finish_add {env : Env R} {stale st : List (Pk R × Bool)} (hb : Blind env stale) (hst : st <:+ stale)
    (hl : 2 ≤ env.nLooks) (s : St R)
    (hd : ∀ w ∈ s.surfaces, ∀ b ∈ w.bursts, ∀ x ∈ stale, x.1.counter ≠ b.counter) :
    SameRes stale (finishSurface env s) (finishSurface env (s.add st)) := by
  have hsub : ∀ x ∈ st, x ∈ stale := fun x hx => hst.subset hx
  unfold finishSurface
  rw [hb.gather st s hst, call_add]
  cases env.gatherFails s with
  | some e => exact ⟨st, hst, rfl⟩
  | none =>
    simp only [call, mapRes]
    show SameRes stale _ (match s.surfaces with | [] => _ | w :: rest => _)
    cases hs : s.surfaces with
    | nil => exact ⟨st, hst, rfl⟩
    | cons w rest =>
      simp only
      by_cases hfew : min w.bursts.length env.nLooks < env.nLooks / 2
      · rw [if_pos hfew, if_pos hfew]; exact ⟨st, hst, rfl⟩
      · rw [if_neg hfew, if_neg hfew]
        have hne : w.bursts ≠ [] := by
          intro h; rw [h] at hfew; simp at hfew; omega
        have hdw : ∀ b ∈ w.bursts, ∀ x ∈ st, x.1.counter ≠ b.counter :=
          fun b hbm x hx => hd w (by rw [hs]; simp) b hbm x (hsub x hx)
        unfold writeSurface
        rw [hb.algorithm st s hst, call_add]
        cases env.algorithmFails s with
        | some e => exact ⟨st, hst, rfl⟩
        | none =>
          simp only [call, mapRes]
          rw [hb.l1b st s hst, ]
          cases env.l1bFails s with
          | some e => exact ⟨st, hst, rfl⟩
          | none =>
            simp only
            rw [add_log]
            unfold writeL1bs
            by_cases hsk : env.skipL1bs = true
            · rw [if_pos hsk, if_pos hsk]
              simp only
              rw [clear_add w _ hne hdw]
              exact ⟨[], List.nil_suffix, (mapRes_nil _).symm⟩
            · rw [if_neg hsk, if_neg hsk, hb.l1bs st _ hst]
              cases env.l1bsFails (s.log (.l1b w.counter (stackIds w))) with
              | some e => exact ⟨st, hst, rfl⟩
              | none =>
                simp only [call]
                rw [add_log, clear_add w _ hne hdw]
                exact ⟨[], List.nil_suffix, (mapRes_nil _).symm⟩

theorem surface_add {env : Env R} {stale st : List (Pk R × Bool)} (hb : Blind env stale) (hst : st <:+ stale)
    (htrue : ∀ x ∈ stale, x.2 = true) (hl : 2 ≤ env.nLooks) {ids : List Nat}
    (hdis : ∀ x ∈ stale, x.1.counter ∉ ids) (s : St R) (hi : Ids ids s) (hseg : Seg s) :
    SameRes stale (surfacePhase env s) (surfacePhase env (s.add st)) := by
  unfold surfacePhase
  show SameRes stale _ (if s.surfaceProcessing = true ∨ minSurfs ≤ s.surfaces.length ∨ s.gapProcessing = true
    then match s.surfaces with
      | [] => _
      | _ :: _ => _ else _)
  by_cases hc : s.surfaceProcessing = true ∨ minSurfs ≤ s.surfaces.length ∨ s.gapProcessing = true
  swap
  · rw [if_neg hc, if_neg hc]; exact ⟨st, hst, rfl⟩
  rw [if_pos hc, if_pos hc]
  show SameRes stale (match s.surfaces with | [] => _ | _ :: _ => _) _
  cases hs : s.surfaces with
  | nil =>
    obtain ⟨k, running, sp, status, prev, gp, gr, sub, input, rest, surfaces, packets, count, size, trend, trace⟩ := s
    cases hs
    exact ⟨st, hst, rfl⟩
  | cons w0 r0 =>
    simp only
    have e1 : packetLoop env [] ({ s.add st with surfaceProcessing := true } : St R).packets
        { s.add st with surfaceProcessing := true } =
        mapRes (·.add st) (·.add st) (packetLoop env [] s.packets s.begun) := by
      show packetLoop env [] (st ++ s.packets) (s.begun.add st) = _
      rw [loop_skip env s.packets _ st [] (fun x hx => htrue x (hst.subset hx)), List.nil_append]
      have := loop_add hb hst s.packets [] s.begun
      rw [List.append_nil] at this
      exact this
    have hspec := packetLoop_spec env s.packets [] s.begun rfl
    rw [← hs]
    show SameRes stale (match packetLoop env [] s.packets s.begun with | .error x => _ | .ok s => _)
      (match packetLoop env [] ({ s.add st with surfaceProcessing := true } : St R).packets
        { s.add st with surfaceProcessing := true } with | .error x => _ | .ok s => _)
    rw [e1]
    revert hspec
    generalize packetLoop env [] s.packets s.begun = r
    intro hspec
    cases r with
    | error x => exact ⟨st, hst, rfl⟩
    | ok s1 =>
      obtain ⟨new, n, hloop, hpk⟩ := hspec
      have hi1 := ids_loop hi hloop (by simpa using hpk)
      have hs1 := seg_loop hseg hloop
      refine finish_add hb hst hl s1 ?_
      intro w hw b hbm x hx heq
      refine hdis x hx ?_
      obtain ⟨a, c, h1, h2⟩ := hs1.held w hw
      have h3 : b.counter ∈ beamsOf c := h2.subset (List.mem_map.2 ⟨b, hbm, rfl⟩)
      have h4 : b.counter ∈ beamsOf s1.trace := by
        rw [h1, beamsOf_append]
        refine List.mem_append_right _ ?_
        simpa [beamsOf] using h3
      have h5 : b.counter ∈ acceptedOf s1.trace := hi1.ok.beams.subset h4
      have h6 : b.counter ∈ readOf s1.trace := by rw [hi1.pend]; exact List.mem_append_left _ h5
      rw [heq]
      exact hi1.ok.read.subset h6

theorem end_add (s : St R) (st : List (Pk R × Bool)) :
    endPhase (s.add st) = mapRes (·.add st) (·.add st) (endPhase s) := by
  unfold endPhase
  show (if s.surfaces = [] then (if s.gapProcessing = true then (if s.hasSub = true then _ else _) else _) else _) = _
  by_cases h : s.surfaces = []
  · rw [if_pos h, if_pos h]
    by_cases hg : s.gapProcessing = true
    · rw [if_pos hg, if_pos hg]
      by_cases hs : s.hasSub = true
      · rw [if_pos hs]; simp only; rw [if_pos hs]; rfl
      · rw [if_neg hs]; simp only; rw [if_neg hs]; rfl
    · rw [if_neg hg, if_neg hg]; rfl
  · rw [if_neg h, if_neg h]; rfl

theorem step_add {env : Env R} {stale st : List (Pk R × Bool)} (hb : Blind env stale) (hst : st <:+ stale)
    (htrue : ∀ x ∈ stale, x.2 = true) (hl : 2 ≤ env.nLooks) {items : List (Item R)}
    (hdis : ∀ x ∈ stale, x.1.counter ∉ itemIds items) (s : St R) (hr : s.running = true)
    (h : Inv env items s) : SameRes stale (step env s) (step env (s.add st)) := by
  unfold step
  rw [begin_add, input_add hb hst]
  have hrel := inputPhase_rel env (beginIteration env s)
  have hc := h.ctl hr
  revert hrel
  generalize inputPhase env (beginIteration env s) = r
  intro hrel
  cases r with
  | error x => exact ⟨st, hst, rfl⟩
  | ok x =>
    obtain ⟨b, s1⟩ := x
    cases b with
    | true => exact ⟨st, hst, rfl⟩
    | false =>
      simp only [mapRes]
      have hi1 := ids_input (ctl_begin env s hc) (ids_begin h.ids) hrel
      have hs1 := seg_input (ord_begin h.ord) (seg_begin h.seg) hrel
      obtain ⟨st2, hst2, h2⟩ := surface_add hb hst htrue hl hdis s1 hi1 hs1
      rw [h2]
      cases surfacePhase env s1 with
      | error x => exact ⟨st2, hst2, rfl⟩
      | ok s2 => exact ⟨st2, hst2, end_add s2 st2⟩

/-- Two outcomes of the same kind with the same trace and status. -/
def SameOutcome : Outcome R → Outcome R → Prop
  | .finished s, .finished s' => s'.trace = s.trace ∧ s'.status = s.status ∧ s'.surfaces = s.surfaces
  | .failed e s, .failed e' s' => e' = e ∧ s'.trace = s.trace
  | .timeout _, .timeout _ => True
  | _, _ => False

theorem run_add {env : Env R} {stale : List (Pk R × Bool)} (hb : Blind env stale)
    (htrue : ∀ x ∈ stale, x.2 = true) (hl : 2 ≤ env.nLooks) {items : List (Item R)}
    (hdis : ∀ x ∈ stale, x.1.counter ∉ itemIds items) : ∀ (fuel : Nat) (s : St R)
      (st : List (Pk R × Bool)), st <:+ stale → Inv env items s →
      SameOutcome (run env fuel s) (run env fuel (s.add st)) := by
  intro fuel
  induction fuel with
  | zero => intro s st _ _; simp [run, SameOutcome]
  | succ fuel ih =>
    intro s st hst h
    rw [run, run]
    show SameOutcome _ (if s.running = true then _ else match env.finishFails (s.add st) with
      | some e => _ | none => _)
    by_cases hr : s.running = true
    · rw [if_pos hr, if_pos hr]
      obtain ⟨st2, hst2, h2⟩ := step_add hb hst htrue hl hdis s hr h
      rw [h2]
      have hrel := step_rel env s
      revert hrel
      generalize step env s = r
      intro hrel
      cases r with
      | error x => exact ⟨rfl, rfl⟩
      | ok s1 => exact ih s1 st2 hst2 (inv_step h hr hrel)
    · rw [if_neg hr, if_neg hr, hb.finish st s hst]
      cases env.finishFails s with
      | some e => exact ⟨rfl, rfl⟩
      | none => exact ⟨rfl, rfl, rfl⟩

/-! ## C49 -/

/-- C49 (partial): if an earlier file has left no surface and only processed bursts, whose numbers do not
occur in the new file, and the algorithms do not look at them, then the new file is processed as by a new
processor: same records written, same exceptions, same status.  Missing: unprocessed bursts and surfaces
left over (`history_violated`, `history_cancelled_violated`). -/
theorem history_partial (env : Env R) (stale : List (Pk R × Bool)) (items : List (Item R))
    (hb : Blind env stale) (htrue : ∀ x ∈ stale, x.2 = true)
    (hdis : ∀ x ∈ stale, x.1.counter ∉ itemIds items) (hl : 2 ≤ env.nLooks) :
    SameOutcome (process env items) (processWith env [] stale items) := by
  have h := run_add hb htrue hl hdis (3 * items.length + ([] : List (Beams.Surf (Pk R))).length + 2)
    (start [] [] items) stale (List.suffix_refl _) (inv_start env [] (by simp) items)
  unfold process processWith
  have e : (start [] [] items : St R).add stale = start [] stale items := by simp [St.add, start]
  rw [e] at h
  exact h

/-- The hypotheses are met by the example environment and two bursts of a longer file. -/
example : Blind demo [(⟨100, 0⟩, true), (⟨101, 1⟩, true)] ∧
    (∀ x ∈ ([(⟨100, 0⟩, true), (⟨101, 1⟩, true)] : List (Pk ℚ × Bool)), x.1.counter ∉ itemIds gappy) ∧
    l1bOf (processWith demo [] [(⟨100, 0⟩, true), (⟨101, 1⟩, true)] gappy).trace = [0, 1] := by
  refine ⟨⟨?_, ?_, ?_, ?_, ?_, ?_, ?_, ?_, ?_, ?_⟩, by decide +kernel, by decide +kernel⟩ <;>
    intros <;> rfl

end Dedop.Process
