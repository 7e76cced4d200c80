import Verif.Process.Use
import Verif.Process.Demo

/-!
# Properties of the processing loop (C40–C50)

`processWith env [] packets items` is a call of `_process` on a processor that has no surface left and
whose remaining bursts `packets` are all processed; a new processor is the case `packets = []`
(`process env items`).  `env` contains everything outside the loop: geometry, cancellation and failures
of the algorithms and writers are arbitrary.
-/
namespace Dedop.Process

variable {R : Type} [Field R] [LinearOrder R]

/-- The trace of a call. -/
def Outcome.trace (o : Outcome R) : List Event := o.state.trace

theorem trace_inv (env : Env R) (packets : List (Pk R × Bool)) (hp : ∀ x ∈ packets, x.2 = true)
    (items : List (Item R)) : TraceInv env items (processWith env [] packets items).trace := by
  have h := process_inv env packets hp items
  revert h
  generalize processWith env [] packets items = o
  intro h
  cases o with
  | finished s => obtain ⟨s0, h1, _, _, rfl⟩ := h; exact h1.trace.closed
  | failed e s =>
    rcases h with h | ⟨h, _, _⟩
    · exact h.tr
    · exact h.trace
  | timeout s => exact h.elim

/-! ## C40: termination -/

/-- C40: whatever the queues of the processor, the records, the geometry, the failures and the moments of
cancellation, the loop ends within `3 * records + surfaces + 2` iterations. -/
theorem process_terminates (env : Env R) (surfaces : List (Beams.Surf (Pk R)))
    (packets : List (Pk R × Bool)) (items : List (Item R)) (s : St R) :
    run env (3 * items.length + surfaces.length + 2) (start surfaces packets items) ≠ .timeout s := by
  apply run_terminates
  · intro _; exact ctl_start surfaces packets items
  · simp [start, work]

/-- C40: with more iterations allowed the outcome is the same. -/
theorem fuel_irrelevant (env : Env R) : ∀ (fuel extra : Nat) (s : St R),
    (∀ s', run env fuel s ≠ .timeout s') → run env (fuel + extra) s = run env fuel s := by
  intro fuel
  induction fuel with
  | zero => intro extra s h; exact absurd rfl (h s)
  | succ fuel ih =>
    intro extra s h
    rw [show fuel + 1 + extra = (fuel + extra) + 1 by omega]
    simp only [run] at h ⊢
    by_cases hr : s.running = true
    · simp only [hr, if_true] at h ⊢
      cases hst : step env s with
      | error x => rfl
      | ok s1 =>
        rw [hst] at h
        exact ih extra s1 h
    · simp only [hr] at h ⊢
      rfl

/-- The outcome of a call does not depend on the allowance of iterations, if it is large enough. -/
theorem process_fuel (env : Env R) (surfaces : List (Beams.Surf (Pk R))) (packets : List (Pk R × Bool))
    (items : List (Item R)) (extra : Nat) :
    run env (3 * items.length + surfaces.length + 2 + extra) (start surfaces packets items) =
      processWith env surfaces packets items :=
  fuel_irrelevant env _ extra _ (process_terminates env surfaces packets items)

/-- The number of iterations is at most the allowance. -/
theorem run_iterations (env : Env R) : ∀ (fuel : Nat) (s : St R),
    iterations (run env fuel s).trace ≤ iterations s.trace + fuel := by
  have one : ∀ s s' : St R, PhaseErr (beginIteration env s) s' →
      iterations s'.trace = iterations s.trace + 1 := by
    intro s s' h
    obtain ⟨⟨t, ht, hin, _⟩, _⟩ := h
    rw [ht, iterations_append, iterations_inside hin]
    rcases begin_cases env s with ⟨_, hb⟩ | ⟨_, hb⟩ <;> rw [hb] <;> simp only [iterations_append] <;> rfl
  intro fuel
  induction fuel with
  | zero => intro s; simp [run, Outcome.trace, Outcome.state]
  | succ fuel ih =>
    intro s
    rw [run]
    by_cases hr : s.running = true
    · rw [if_pos hr]
      have hrel := step_rel env s
      revert hrel
      generalize step env s = r
      intro hrel
      cases r with
      | error x =>
        have := one s x.2 (phase_stepErr hrel)
        simp only [Outcome.trace, Outcome.state]
        omega
      | ok s1 =>
        have h1 : iterations s1.trace = iterations s.trace + 1 := by
          cases hrel with
          | cont _ hin => exact one s s1 ((phase_input hin).err (by omega))
          | full a b _ hin hs he =>
            have hb := one s b (((phase_input hin).trans (phase_surf hs)).err (by omega))
            cases he with
            | gapEnd _ _ _ => show iterations (b.trace ++ [.gapDone]) = _; rw [iterations_append, hb]; rfl
            | stop _ _ => exact hb
            | go _ => exact hb
        have := ih s1
        show iterations (run env fuel s1).trace ≤ _
        omega
    · rw [if_neg hr]
      cases env.finishFails s with
      | some e => simp only [Outcome.trace, Outcome.state]; omega
      | none =>
        simp only [Outcome.trace, Outcome.state, St.log, iterations_append]
        have : iterations [Event.closed] = 0 := rfl
        omega

/-- C40: the number of iterations executed is bounded by the length of the input. -/
theorem iterations_bounded (env : Env R) (surfaces : List (Beams.Surf (Pk R)))
    (packets : List (Pk R × Bool)) (items : List (Item R)) :
    iterations (processWith env surfaces packets items).trace ≤ 3 * items.length + surfaces.length + 2 := by
  have := run_iterations env (3 * items.length + surfaces.length + 2) (start surfaces packets items)
  simpa [processWith, start, iterations] using this

/-- Six iterations for four records with a gap. -/
example : iterations (process demo gappy).trace = 7 := by decide +kernel

/-! ## C41: order of output -/

/-- C41: surfaces are written in the order of creation, each at most once. -/
theorem written_in_order (env : Env R) (packets : List (Pk R × Bool)) (hp : ∀ x ∈ packets, x.2 = true)
    (items : List (Item R)) :
    (l1bOf (processWith env [] packets items).trace).Sublist
      (createdOf (processWith env [] packets items).trace) ∧
    createdOf (processWith env [] packets items).trace =
      List.range (createdOf (processWith env [] packets items).trace).length ∧
    (l1bOf (processWith env [] packets items).trace).Nodup := by
  have hsub : ∀ t : List Event, (l1bOf t).Sublist (doneOf t) := by
    intro t
    induction t with
    | nil => simp [l1bOf, doneOf]
    | cons e t ih => unfold l1bOf doneOf at *; cases e <;> simp_all
  have key : ∀ s : St R, createdOf s.trace = List.range s.count → doneOf s.trace <+: List.range s.count →
      (l1bOf s.trace).Sublist (createdOf s.trace) ∧
      createdOf s.trace = List.range (createdOf s.trace).length ∧ (l1bOf s.trace).Nodup := by
    intro s h1 h2
    have h3 := (hsub s.trace).trans h2.sublist
    exact ⟨by rw [h1]; exact h3, by rw [h1]; simp, h3.nodup List.nodup_range⟩
  have h := process_inv env packets hp items
  revert h
  generalize processWith env [] packets items = o
  intro h
  cases o with
  | finished s =>
    obtain ⟨s0, h1, _, _, rfl⟩ := h
    have := key s0 h1.ord.created ⟨_, h1.ord.done⟩
    simp only [Outcome.trace, Outcome.state, St.log]
    rw [l1bOf_append, createdOf_append]
    simpa [l1bOf, createdOf] using this
  | failed e s =>
    rcases h with h | ⟨h, _, _⟩
    · exact key s h.ord.created h.ord.done
    · exact key s h.ord.created ⟨_, h.ord.done⟩
  | timeout s => exact h.elim

/-- C41: when the call ends normally both files have received the same surfaces in the same order; with
`skip_l1bs` the L1B-S file none. -/
theorem both_files (env : Env R) (packets : List (Pk R × Bool)) (hp : ∀ x ∈ packets, x.2 = true)
    (items : List (Item R)) (s : St R) (hf : processWith env [] packets items = .finished s) :
    l1bsOf s.trace = if env.skipL1bs then [] else l1bOf s.trace := by
  have h := process_inv env packets hp items
  rw [hf] at h
  obtain ⟨s0, h1, _, _, rfl⟩ := h
  have := h1.ord.both
  simp only [St.log]
  rw [l1bsOf_append, l1bOf_append]
  simpa [l1bsOf, l1bOf] using this

/-- C41: when the call raises, the L1B-S file lacks at most the last surface of the L1B file. -/
theorem both_files_failed (env : Env R) (packets : List (Pk R × Bool)) (hp : ∀ x ∈ packets, x.2 = true)
    (items : List (Item R)) (e : PyErr) (s : St R)
    (hf : processWith env [] packets items = .failed e s) (hs : env.skipL1bs = false) :
    l1bsOf s.trace = l1bOf s.trace ∨ ∃ n, l1bOf s.trace = l1bsOf s.trace ++ [n] := by
  have h := process_inv env packets hp items
  rw [hf] at h
  have fin : OrdErr env s → l1bsOf s.trace = l1bOf s.trace ∨ ∃ n, l1bOf s.trace = l1bsOf s.trace ++ [n] := by
    intro h
    have := h.both
    rw [hs] at this
    simp at this
    rcases this with h | ⟨n, h⟩
    · exact Or.inl h
    · exact Or.inr ⟨n, h.symm⟩
  rcases h with h | ⟨h, _, _⟩
  · exact fin h.ord
  · exact fin h.ord.err

/-- Two surfaces written before the gap. -/
example : l1bOf (process demo gappy).trace = [0, 1] ∧ l1bsOf (process demo gappy).trace = [0, 1] ∧
    createdOf (process demo gappy).trace = [0, 1, 2, 3] := by decide +kernel

/-! ## C42: enough looks -/

/-- C42: a surface is written only if its stack has at least `n_looks // 2` beams and dropped only if it
has fewer (a stack is cut to `n_looks`). -/
theorem enough_looks (env : Env R) (packets : List (Pk R × Bool)) (hp : ∀ x ∈ packets, x.2 = true)
    (items : List (Item R)) :
    (∀ n stack, .l1b n stack ∈ (processWith env [] packets items).trace →
      env.nLooks / 2 ≤ stack.length) ∧
    (∀ n stack, .dropped n stack ∈ (processWith env [] packets items).trace →
      stack.length < env.nLooks / 2) := by
  have fin : ∀ t, SizesOk env.nLooks t → (∀ n stack, .l1b n stack ∈ t → env.nLooks / 2 ≤ stack.length) ∧
      (∀ n stack, .dropped n stack ∈ t → stack.length < env.nLooks / 2) := by
    intro t h
    refine ⟨fun n st hm => ?_, fun n st hm => ?_⟩
    · have := h.1 n st hm; omega
    · have := h.2 n st hm
      rcases Nat.le_total st.length env.nLooks with hl | hl
      · rwa [Nat.min_eq_left hl] at this
      · rw [Nat.min_eq_right hl] at this; omega
  have h := process_inv env packets hp items
  revert h
  generalize processWith env [] packets items = o
  intro h
  cases o with
  | finished s =>
    obtain ⟨s0, h1, _, _, rfl⟩ := h
    have := fin _ h1.ord.sizes
    simp only [Outcome.trace, Outcome.state, St.log]
    simpa using this
  | failed e s =>
    rcases h with h | ⟨h, _, _⟩
    · exact fin _ h.ord.sizes
    · exact fin _ h.ord.sizes
  | timeout s => exact h.elim

/-- C42: when the call ends normally and was not cancelled before the end of its input, every surface
created has been written or dropped, in order. -/
theorem all_written_or_dropped (env : Env R) (packets : List (Pk R × Bool))
    (hp : ∀ x ∈ packets, x.2 = true) (items : List (Item R)) (s : St R)
    (hf : processWith env [] packets items = .finished s) (hs : s.status = none) :
    doneOf s.trace = createdOf s.trace := by
  have h := process_inv env packets hp items
  rw [hf] at h
  obtain ⟨s0, h1, hr, _, rfl⟩ := h
  have hsurf : s0.surfaces = [] := by
    rcases h1.can.stop hr with h | ⟨h, _⟩
    · exact h.2
    · have hs : s0.status = none := hs
      rw [hs] at h; cases h
  have h2 := h1.ord.done
  rw [hsurf, ← h1.ord.created] at h2
  simp only [St.log]
  rw [doneOf_append, createdOf_append]
  simpa [doneOf, createdOf] using h2

/-- With more looks required the surfaces of the example are dropped. -/
example : (process { demo with nLooks := 6 } gappy).trace.filter (fun | .dropped _ _ => true | _ => false) =
    [.dropped 0 [0, 1], .dropped 1 [0, 1]] := by decide +kernel

/-! ## C43: no other exceptions -/

/-- C43: the loop itself raises nothing but "insufficient input records": every other exception comes from
an algorithm, the writers, the input, or from a configuration with less than two looks.  In particular the
queue of surfaces is never empty when its first surface is taken (`IndexError`) and the gap monitor exists
when it is used (`AttributeError`). -/
theorem only_exceptions (env : Env R) (packets : List (Pk R × Bool)) (hp : ∀ x ∈ packets, x.2 = true)
    (items : List (Item R)) (e : PyErr) (s : St R)
    (hf : processWith env [] packets items = .failed e s) :
    Raises env e ∨ .failure e ∈ items ∨ (∃ s, env.finishFails s = some e) ∨
    (e = .indexError ∧ env.nLooks < 2) ∨ e = .other "insufficient input records" := by
  have h := process_inv env packets hp items
  rw [hf] at h
  rcases h with h | ⟨_, _, h⟩
  · rcases h.cause with h | h | h | ⟨h, _⟩
    · exact Or.inl h
    · exact Or.inr (Or.inl h)
    · exact Or.inr (Or.inr (Or.inr (Or.inl h)))
    · exact Or.inr (Or.inr (Or.inr (Or.inr h)))
  · exact Or.inr (Or.inr (Or.inl ⟨_, h⟩))

/-- The states in which iterations start. -/
inductive Reach (env : Env R) (s0 : St R) : St R → Prop
  | start : Reach env s0 s0
  | next (s s' : St R) (h : Reach env s0 s) (hr : s.running = true) (hs : step env s = .ok s') :
      Reach env s0 s'

/-- C43 for the working surface: in every iteration of every call, whatever the processor's queues
contain at its start, the queue of surfaces is not empty when its first surface is taken, and if a gap is
being processed there is a gap monitor. -/
theorem working_surface_exists (env : Env R) (surfaces : List (Beams.Surf (Pk R)))
    (packets : List (Pk R × Bool)) (items : List (Item R)) (s : St R)
    (hr : Reach env (start surfaces packets items) s) (hrun : s.running = true) (s1 : St R)
    (hi : inputPhase env (beginIteration env s) = .ok (false, s1)) :
    ((s1.surfaceProcessing = true ∨ minSurfs ≤ s1.surfaces.length ∨ s1.gapProcessing = true) →
      s1.surfaces ≠ []) ∧
    (s1.gapProcessing = true → s1.hasSub = true) := by
  have hc : s.running = true → Ctl s := by
    clear hi hrun
    induction hr with
    | start => intro _; exact ctl_start surfaces packets items
    | next s s' _ hr hs ih =>
      have := step_rel env s
      rw [hs] at this
      intro hr'
      exact (step_ctl env s s' (ih hr) this hr').1
  have hrel := inputPhase_rel env (beginIteration env s)
  rw [hi] at hrel
  obtain ⟨c1, _⟩ := (input_ctl env _ (ctl_begin env s (hc hrun)) false s1 hrel).2 rfl
  refine ⟨?_, fun h => (c1.gap h).2.1⟩
  rintro (h | h | h)
  · exact c1.surf h
  · intro he; rw [he] at h; simp [minSurfs] at h
  · exact (c1.gap h).1

/-- The example raises nothing else. -/
example : (match process demo gappy with
    | .failed e _ => decide (e = .other "insufficient input records")
    | _ => false) = true := by decide +kernel

/-! ## C44: calibration -/

/-- C44 (partial): a record entered into the queue of bursts is calibrated once and, if it was the one
before which a gap was found, once more; a record in neither case never.  So every record that does not
follow a gap is calibrated exactly once.  Missing: the record after a gap (`calibrated_once_violated`). -/
theorem calibrated_once_partial (env : Env R) (packets : List (Pk R × Bool))
    (hp : ∀ x ∈ packets, x.2 = true) (items : List (Item R)) (hn : (itemIds items).Nodup) (id : Nat) :
    (calibratedOf (processWith env [] packets items).trace).count id =
      (if id ∈ acceptedOf (processWith env [] packets items).trace then 1 else 0) +
      (if id ∈ gapOf (processWith env [] packets items).trace then 1 else 0) := by
  have h := (trace_inv env packets hp items).ids
  generalize (processWith env [] packets items).trace = t at h
  have hread : (readOf t).Nodup := h.read.sublist.nodup hn
  have hacc : (acceptedOf t).Nodup := by
    rcases h.pend with h1 | ⟨p, h1⟩
    · rw [← h1]; exact hread
    · rw [h1] at hread; exact (List.nodup_append.1 hread).1
  have hgap : (gapOf t).Nodup := h.gap.nodup hread
  rw [h.cal id, List.Nodup.count hacc, List.Nodup.count hgap]

/-- C44: a burst is used only after its calibration. -/
theorem used_after_calibration (env : Env R) (packets : List (Pk R × Bool))
    (hp : ∀ x ∈ packets, x.2 = true) (items : List (Item R)) (a c : List Event) (id : Nat)
    (h : (processWith env [] packets items).trace = a ++ .beams id :: c) : .calibrated id ∈ a :=
  (trace_inv env packets hp items).used a id c h

/-- C44 is violated: the record that follows a gap is calibrated twice, once when the gap is found and
once when it is taken up after the surfaces before the gap have been processed. -/
theorem calibrated_once_violated : ∃ (env : Env ℚ) (items : List (Item ℚ)) (id : Nat),
    (itemIds items).Nodup ∧ (calibratedOf (process env items).trace).count id = 2 := by
  refine ⟨demo, gappy, 2, by decide +kernel, by decide +kernel⟩

/-- The others once. -/
example : calibratedOf (process demo gappy).trace = [0, 1, 2, 2, 3] := by decide +kernel

/-! ## C45: beams -/

/-- C45: beams are formed for records of the input only, in their order; so at most once for each. -/
theorem beams_once (env : Env R) (packets : List (Pk R × Bool)) (hp : ∀ x ∈ packets, x.2 = true)
    (items : List (Item R)) :
    (beamsOf (processWith env [] packets items).trace).Sublist (itemIds items) := by
  have h := (trace_inv env packets hp items).ids
  generalize (processWith env [] packets items).trace = t at h
  refine h.beams.trans (List.Sublist.trans ?_ h.read.sublist)
  rcases h.pend with h1 | ⟨p, h1⟩
  · rw [h1]
  · rw [h1]; exact List.sublist_append_left _ _

example : beamsOf (process demo gappy).trace = [0, 1] ∧ itemIds gappy = [0, 1, 2, 3] := by decide +kernel

/-! ## C46: gaps -/

/-- C46, first half: when a surface created before a gap is written after it was found, its stack consists
of bursts received before it. -/
theorem surfaces_before_gap (env : Env R) (packets : List (Pk R × Bool)) (hp : ∀ x ∈ packets, x.2 = true)
    (items : List (Item R)) (a c : List Event) (g k : Nat)
    (h : (processWith env [] packets items).trace = a ++ .gapStart g k :: c)
    (n : Nat) (hn : .created n ∈ a) (stack : List Nat) (hw : .l1b n stack ∈ c) (id : Nat)
    (hid : id ∈ stack) : .accepted id ∈ a := by
  have := (trace_inv env packets hp items).seg.before a g k c h n (mem_createdOf.2 hn) stack hw id hid
  unfold acceptedOf at this
  obtain ⟨e, he, h1⟩ := List.mem_filterMap.1 this
  cases e <;> simp at h1
  subst h1; exact he

/-- C46: a surface only has bursts whose beams were formed after its creation. -/
theorem stack_after_creation (env : Env R) (packets : List (Pk R × Bool)) (hp : ∀ x ∈ packets, x.2 = true)
    (items : List (Item R)) (x y : List Event) (n : Nat) (stack : List Nat)
    (h : (processWith env [] packets items).trace = x ++ .l1b n stack :: y) :
    ∃ a c, x = a ++ .created n :: c ∧ stack.Sublist (beamsOf c) :=
  (trace_inv env packets hp items).seg.own x n stack y h

/-- C46, second half (partial): if the beams of all bursts received before the end of a gap had been formed
by then, surfaces created later only have bursts received later.  Missing: this assumption, without which
the claim is false (`surfaces_after_gap_violated`). -/
theorem surfaces_after_gap_partial (env : Env R) (packets : List (Pk R × Bool))
    (hp : ∀ x ∈ packets, x.2 = true) (items : List (Item R)) (a c : List Event)
    (h : (processWith env [] packets items).trace = a ++ .gapDone :: c)
    (hall : beamsOf a = acceptedOf a) (n : Nat) (stack : List Nat)
    (hn : .created n ∉ a) (hw : .l1b n stack ∈ c) (id : Nat) (hid : id ∈ stack) : .accepted id ∈ c := by
  have hi := trace_inv env packets hp items
  obtain ⟨c1, c2, rfl⟩ := List.append_of_mem hw
  obtain ⟨x, y, h1, h2⟩ := hi.seg.own (a ++ .gapDone :: c1) n stack c2 (by rw [h]; simp)
  have h3 : ∃ z, y <:+ c1 ∧ c1 = z ++ .created n :: y := by
    rw [show a ++ Event.gapDone :: c1 = (a ++ [.gapDone]) ++ c1 by simp] at h1
    rcases split_append h1 with ⟨c', rfl, h4⟩ | ⟨a', _, h4⟩
    · exfalso
      have : Event.created n ∈ a ++ [.gapDone] := by rw [h4]; simp
      simp at this
      exact hn this
    · exact ⟨a', ⟨a' ++ [.created n], by rw [h4]; simp⟩, h4⟩
  obtain ⟨z, _, h4⟩ := h3
  have hb := hi.ids.beams
  rw [h, beamsOf_append, acceptedOf_append, hall] at hb
  have hb' := List.append_sublist_append_left (acceptedOf a) |>.1 hb
  have : id ∈ acceptedOf (Event.gapDone :: (c1 ++ .l1b n stack :: c2)) := by
    refine hb'.subset ?_
    have h5 : id ∈ beamsOf y := h2.subset hid
    have e1 : beamsOf (Event.gapDone :: (c1 ++ .l1b n stack :: c2)) =
        beamsOf c1 ++ beamsOf (.l1b n stack :: c2) := by
      rw [← beamsOf_append]; rfl
    rw [e1, h4, beamsOf_append]
    refine List.mem_append_left _ (List.mem_append_right _ ?_)
    simpa [beamsOf] using h5
  unfold acceptedOf at this
  obtain ⟨e, he, h1⟩ := List.mem_filterMap.1 this
  cases e <;> simp at h1
  subst h1
  simpa using he

/-- Only the first burst of a segment starts a surface, and the fourth burst sees the second surface. -/
def leftOver : Env ℚ := { demo with
  found := fun _ => .ok false
  angle := fun _ p w => if w.counter = 0 then (if p.counter < 2 then 0 else 5)
    else if 3 ≤ p.counter then 0 else 5 }

/-- C46 is violated: bursts from before a gap that were not needed for the surfaces before it stay in the
queue and enter the stacks of surfaces behind the gap.  Here surface 1 is created from record 4, behind
the gap, and has in its stack record 3, received before the gap. -/
theorem surfaces_after_gap_violated : ∃ (env : Env ℚ) (items : List (Item ℚ)) (a c : List Event) (n id : Nat)
    (stack : List Nat), (process env items).trace = a ++ .gapDone :: c ∧ .created n ∈ c ∧
      .l1b n stack ∈ c ∧ id ∈ stack ∧ .accepted id ∈ a ∧ .accepted id ∉ c := by
  refine ⟨leftOver, recs 0 4 0 ++ recs 4 1 10 ++ recs 5 1 20,
    (process leftOver (recs 0 4 0 ++ recs 4 1 10 ++ recs 5 1 20)).trace.take 31,
    (process leftOver (recs 0 4 0 ++ recs 4 1 10 ++ recs 5 1 20)).trace.drop 32, 1, 3, [3, 4], ?_⟩
  decide +kernel

/-- Written across the gap of the example. -/
example : .l1b 0 [0, 1] ∈ (process demo gappy).trace ∧ .gapStart 2 2 ∈ (process demo gappy).trace := by
  decide +kernel

/-! ## C47: cancellation -/

/-- C47: if cancellation is visible at iteration `k`, there are at most `k + 1` iterations; what comes
after it has been seen contains no iteration and obtains at most one record. -/
theorem cancellation_prompt (env : Env R) (packets : List (Pk R × Bool)) (hp : ∀ x ∈ packets, x.2 = true)
    (items : List (Item R)) :
    (∀ k, env.cancelled k = true → iterations (processWith env [] packets items).trace ≤ k + 1) ∧
    (∀ a c, (processWith env [] packets items).trace = a ++ .cancelSeen :: c →
      iterations c = 0 ∧ readCount c ≤ 1) := by
  have h := (trace_inv env packets hp items).can
  refine ⟨fun k hk => ?_, fun a c hs => ⟨(h.after a c hs).1, (h.after a c hs).2.1⟩⟩
  by_contra hlt
  rw [h.first k (by omega)] at hk
  cases hk

/-- C47: a call that ends normally closes the files last; its status is `-1` only if it was cancelled, and
a cancelled call has status `-1` unless no surface was left. -/
theorem cancellation_closes (env : Env R) (packets : List (Pk R × Bool)) (hp : ∀ x ∈ packets, x.2 = true)
    (items : List (Item R)) (s : St R) (hf : processWith env [] packets items = .finished s) :
    (∃ t, s.trace = t ++ [.closed]) ∧
    ((s.status = some (-1) ∧ .cancelSeen ∈ s.trace) ∨ (s.status = none ∧ s.surfaces = [])) := by
  have h := process_inv env packets hp items
  rw [hf] at h
  obtain ⟨s0, h1, hr, _, rfl⟩ := h
  refine ⟨⟨_, rfl⟩, ?_⟩
  rcases h1.can.stop hr with h | ⟨h2, h3⟩
  · exact Or.inr h
  · exact Or.inl ⟨h2, by simp [St.log, h3]⟩

/-- C47: a call that is cancelled while nothing fails ends normally, unless it is just at the end of an
input with too few records. -/
theorem cancelled_finishes (env : Env R) (packets : List (Pk R × Bool)) (hp : ∀ x ∈ packets, x.2 = true)
    (items : List (Item R)) (hq : ∀ e, ¬ Raises env e) (hfin : ∀ s, env.finishFails s = none)
    (hin : ∀ e, .failure e ∉ items) (hl : 2 ≤ env.nLooks) :
    (∃ s, processWith env [] packets items = .finished s) ∨
    ∃ s, processWith env [] packets items = .failed (.other "insufficient input records") s := by
  have h := process_inv env packets hp items
  have ho := only_exceptions env packets hp items
  revert h ho
  generalize processWith env [] packets items = o
  intro h ho
  cases o with
  | finished s => exact Or.inl ⟨s, rfl⟩
  | failed e s =>
    right
    rcases ho e s rfl with h1 | h1 | ⟨s', h1⟩ | ⟨_, h1⟩ | rfl
    · exact absurd h1 (hq e)
    · exact absurd h1 (hin e)
    · rw [hfin] at h1; cases h1
    · omega
    · exact ⟨s, rfl⟩
  | timeout s => exact h.elim

/-- Cancelled at iteration 2, in the middle of a gap. -/
example : (match process { demo with cancelled := fun k => k == 2 } gappy with
    | .finished s => decide (iterations s.trace = 3 ∧ s.status = some (-1))
    | _ => false) = true := by decide +kernel

/-! ## C48: completion -/

/-- C48 (partial): if nothing fails, the call ends normally with its files closed, or with "insufficient
input records", and then fewer than 80 surfaces have been created since the last gap, or since the start
if there was no gap.  Missing: products with enough surfaces whose last segment is short
(`completes_violated`). -/
theorem completes_partial (env : Env R) (packets : List (Pk R × Bool)) (hp : ∀ x ∈ packets, x.2 = true)
    (items : List (Item R)) (hq : ∀ e, ¬ Raises env e) (hfin : ∀ s, env.finishFails s = none)
    (hin : ∀ e, .failure e ∉ items) (hl : 2 ≤ env.nLooks) :
    (∃ t s, processWith env [] packets items = .finished s ∧ s.trace = t ++ [.closed]) ∨
    (∃ s a c, processWith env [] packets items = .failed (.other "insufficient input records") s ∧
      s.trace = a ++ c ∧ (a = [] ∨ ∃ a', a = a' ++ [.gapDone]) ∧ (∀ g k, .gapStart g k ∉ c) ∧
      (createdOf c).length < 80) := by
  have h := process_inv env packets hp items
  have ho := cancelled_finishes env packets hp items hq hfin hin hl
  rcases ho with ⟨s, ho⟩ | ⟨s, ho⟩
  · left
    rw [ho] at h
    obtain ⟨s0, _, _, _, rfl⟩ := h
    exact ⟨s0.trace, _, ho, rfl⟩
  · right
    rw [ho] at h
    rcases h with h | ⟨_, _, h⟩
    · rcases h.cause with h | h | ⟨h, _⟩ | ⟨_, n, hn, ⟨a, c, h1, h2, h3, _, h5⟩, _⟩
      · exact absurd h (hq _)
      · exact absurd h (hin _)
      · cases h
      · exact ⟨s, a, c, ho, h1, h2, h3, by rw [h5]; exact hn⟩
    · rw [hfin] at h; cases h

/-- The hypotheses are met by the example. -/
example : (∀ e, ¬ Raises demo e) ∧ (∀ s, demo.finishFails s = none) ∧ 2 ≤ demo.nLooks ∧
    (∀ e, Item.failure e ∉ gappy) := by
  refine ⟨demo_quiet, fun _ => rfl, by decide, fun e h => ?_⟩
  unfold gappy recs at h
  simp at h

/-! ## C50: progress -/

/-- C50: one unit of progress for each record obtained, at most the number of records; and for each gap
fewer units than announced. -/
theorem progress_counts (env : Env R) (packets : List (Pk R × Bool)) (hp : ∀ x ∈ packets, x.2 = true)
    (items : List (Item R)) :
    progressCount (processWith env [] packets items).trace =
      readCount (processWith env [] packets items).trace ∧
    readCount (processWith env [] packets items).trace ≤ items.length ∧
    ∀ x ∈ gapsOf (processWith env [] packets items).trace, x.2 < x.1 := by
  have h := trace_inv env packets hp items
  exact ⟨h.ids.prog, h.reads, h.mon⟩

example : progressCount (process demo gappy).trace = 4 ∧ gapsOf (process demo gappy).trace = [(2, 1)] := by
  decide +kernel

end Dedop.Process
