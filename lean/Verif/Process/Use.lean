import Verif.Process.Cancel

/-! # Use of records (lemmas), and all invariants together -/
namespace Dedop.Process

set_option linter.unusedSectionVars false

variable {R : Type} [Field R] [LinearOrder R]

/-- Beams of a burst are formed only after its calibration. -/
def Used (t : List Event) : Prop :=
  ∀ a id c, t = a ++ .beams id :: c → .calibrated id ∈ a

/-- Number of records left, and use. -/
structure Use (m : Nat) (s : St R) : Prop where
  cnt : readCount s.trace + s.rest.length ≤ m
  used : Used s.trace

theorem Used.ext {t t' : List Event} (h : Used t) (h' : ∀ id, .beams id ∈ t' → .calibrated id ∈ t) :
    Used (t ++ t') := by
  intro a id c hs
  rcases split_append hs with ⟨c', rfl, h2⟩ | ⟨a', rfl, h2⟩
  · exact h a id c' h2
  · exact List.mem_append_left _ (h' id (by rw [h2]; simp))

theorem Use.ext {m : Nat} {s s' : St R} (h : Use m s) (t : List Event) (htr : s'.trace = s.trace ++ t)
    (hrest : readCount t + s'.rest.length ≤ s.rest.length) (hb : ∀ id, .beams id ∉ t) : Use m s' := by
  refine ⟨?_, ?_⟩
  · rw [htr, readCount_append]; have := h.cnt; omega
  · rw [htr]; exact h.used.ext (fun id hm => absurd hm (hb id))

theorem use_begin {m : Nat} {env : Env R} {s : St R} (h : Use m s) : Use m (beginIteration env s) := by
  rcases begin_cases env s with ⟨_, hb⟩ | ⟨_, hb⟩ <;> rw [hb]
  · exact h.ext [.iteration, .cancelSeen] rfl (by simp [readCount]) (by simp)
  · exact h.ext [.iteration] rfl (by simp [readCount]) (by simp)

theorem use_read {m : Nat} {s s' : St R} (h : Use m s) (hr : ReadRel s s') : Use m s' := by
  cases hr with
  | resumed _ => exact h
  | atEnd _ _ _ => exact h.ext [.endOfInput] rfl (by simp [readCount, St.log]) (by simp)
  | invalid _ rest hr =>
    exact h.ext [.read none, .progress] rfl (by simp [readCount, hr]; omega) (by simp)
  | record _ p rest hr =>
    exact h.ext [.read (some p.counter), .progress] rfl (by simp [readCount, hr]; omega) (by simp)

theorem use_packet {m : Nat} {env : Env R} {s s' : St R} {p : Pk R} {b : Bool} (h : Use m s)
    (hr : PacketRel env s p b s') : Use m s' := by
  cases hr with
  | nothing _ _ _ => exact h.ext [.calibrated p.counter, .accepted p.counter] rfl (by simp [readCount]) (by simp)
  | created _ =>
    exact h.ext [.calibrated p.counter, .accepted p.counter, .created s.count] rfl (by simp [readCount]) (by simp)
  | gap t _ _ =>
    exact h.ext [.calibrated p.counter, .gapStart p.counter s.surfaces.length] rfl (by simp [readCount]) (by simp)

theorem use_input {m : Nat} {env : Env R} {s s' : St R} {b : Bool} (h : Use m s)
    (hr : InputRel env s b s') : Use m s' := by
  cases hr with
  | gap _ _ => exact h.ext [.gapProgress] rfl (by simp [readCount, St.log]) (by simp)
  | gapNoSub _ _ => exact h
  | noPacket _ _ hr _ => exact use_read h hr
  | packet _ s1 hr p _ _ _ hp => exact use_packet (use_read h hr) hp

theorem mem_calibratedOf {n : Nat} {t : List Event} : n ∈ calibratedOf t ↔ .calibrated n ∈ t := by
  unfold calibratedOf
  rw [List.mem_filterMap]
  constructor
  · rintro ⟨e, he, h⟩
    cases e <;> simp at h
    subst h; exact he
  · intro h; exact ⟨_, h, rfl⟩

theorem use_loop {m : Nat} {ids : List Nat} {s s1 : St R} {new : List (Pk R)} {n : Nat} (hi : Ids ids s)
    (h : Use m s) (hl : LoopSpec s.packets s.begun s1 new n) : Use m s1 := by
  have hz : readCount (new.map (fun p => Event.beams p.counter)) = 0 := by
    unfold readCount; rw [List.countP_map]; simp [Function.comp_def]
  have hr : s1.rest = s.rest := by rw [hl.frame]; rfl
  have htr : s1.trace = s.trace ++ new.map (fun p => Event.beams p.counter) := hl.trace
  refine ⟨?_, ?_⟩
  · rw [htr, readCount_append, hz, hr]; exact h.cnt
  · rw [htr]
    refine h.used.ext ?_
    intro id hm
    obtain ⟨p, hp, he⟩ := List.mem_map.1 hm
    have he : p.counter = id := by simpa using he
    subst he
    have hmem : (p, false) ∈ s.packets.filter (fun x => !x.2) := by
      have h1 : (p, false) ∈ new.map (fun p => (p, false)) := List.mem_map.2 ⟨p, hp, rfl⟩
      rw [hl.new] at h1
      exact ((List.take_sublist n s.packets).filter _).subset h1
    have hun : p.counter ∈ unprocessed s := List.mem_map.2 ⟨_, hmem, rfl⟩
    have hacc : p.counter ∈ acceptedOf s.trace := hi.beams.subset (List.mem_append_right _ hun)
    have hcal := hi.cal p.counter
    have : 0 < (acceptedOf s.trace).count p.counter := List.count_pos_iff.2 hacc
    exact mem_calibratedOf.1 (List.count_pos_iff.1 (by omega))

theorem use_surf {m : Nat} {ids : List Nat} {env : Env R} {s s' : St R} (hi : Ids ids s) (h : Use m s)
    (hr : SurfRel env s s') : Use m s' := by
  cases hr with
  | idle _ => exact h
  | dropped _ s1 new n loop pk w rest hw few =>
    exact (use_loop hi h loop).ext [.dropped w.counter (stackIds w)] rfl (by simp [readCount, St.log]) (by simp)
  | written _ s1 new n loop pk w rest hw en pks suf =>
    refine (use_loop hi h loop).ext _ rfl ?_ ?_
    · split <;> simp [readCount]
    · intro id; split <;> simp

theorem use_end {m : Nat} {s s' : St R} (h : Use m s) (hr : EndRel s s') : Use m s' := by
  cases hr with
  | gapEnd _ _ _ => exact h.ext [.gapDone] rfl (by simp [readCount]) (by simp)
  | stop _ _ => exact h.ext [] (by simp) (by simp [readCount]) (by simp)
  | go _ => exact h

theorem use_step {m : Nat} {ids : List Nat} {env : Env R} {s s' : St R} (hc : Ctl s) (hi : Ids ids s)
    (h : Use m s) (hr : StepRel env s s') : Use m s' := by
  have hcb := ctl_begin env s hc
  have hib := ids_begin (env := env) hi
  cases hr with
  | cont _ hin => exact use_input (use_begin h) hin
  | full s1 s2 _ hin hs he =>
    exact use_end (use_surf (ids_input hcb hib hin) (use_input (use_begin h) hin) hs) he

theorem use_stepErr {m : Nat} {ids : List Nat} {env : Env R} {s s' : St R} {e : PyErr} (hc : Ctl s)
    (hi : Ids ids s) (h : Use m s) (hr : StepErr env s e s') :
    readCount s'.trace ≤ m ∧ Used s'.trace := by
  have hcb := ctl_begin env s hc
  have hib := ids_begin (env := env) hi
  have hb := use_begin (env := env) h
  have fin : ∀ {s1 s2 : St R}, Use m s1 → ∀ t, s2.trace = s1.trace ++ t → readCount t = 0 →
      (∀ id, .beams id ∉ t) → readCount s2.trace ≤ m ∧ Used s2.trace := by
    intro s1 s2 h t ht h0 hno
    rw [ht]
    refine ⟨by rw [readCount_append, h0]; have := h.cnt; omega, h.used.ext (fun id hm => absurd hm (hno id))⟩
  cases hr with
  | input _ hin =>
    cases hin with
    | read _ _ _ hr =>
      cases hr with
      | insufficient _ _ _ => exact fin hb [.endOfInput] rfl (by simp [readCount]) (by simp)
      | failure _ _ _ _ => exact fin hb [] (by simp) (by simp [readCount]) (by simp)
    | packet _ s1 hr p _ _ _ hp =>
      have h1 := use_read hb hr
      cases hp with
      | cal _ => exact fin h1 [] (by simp) (by simp [readCount]) (by simp)
      | location _ _ _ =>
        exact fin h1 [.calibrated p.counter, .accepted p.counter] rfl (by simp [readCount]) (by simp)
  | surf s1 _ hin hs =>
    have h1 := use_input hb hin
    have hi1 := ids_input hcb hib hin
    cases hs with
    | empty _ _ => exact fin h1 [] (by simp [St.begun]) (by simp [readCount]) (by simp)
    | loop _ _ _ new n loop => exact fin (use_loop hi1 h1 loop) [] (by simp) (by simp [readCount]) (by simp)
    | writing _ s2 new n loop w rest hw en _ t ht =>
      refine fin (use_loop hi1 h1 loop) t rfl ?_ ?_
      · rcases ht with rfl | ⟨_, rfl⟩ <;> simp [readCount]
      · intro id; rcases ht with rfl | ⟨_, rfl⟩ <;> simp
  | noSub s1 s2 hin hs _ _ =>
    exact fin (use_surf (ids_input hcb hib hin) (use_input hb hin) hs) [] (by simp) (by simp [readCount]) (by simp)

theorem use_start (surfaces : List (Beams.Surf (Pk R))) (packets : List (Pk R × Bool))
    (items : List (Item R)) : Use items.length (start surfaces packets items) := by
  refine ⟨by simp [start, readCount], ?_⟩
  intro a id c hs
  simp [start] at hs

/-! ## All invariants -/

/-- All invariants at the start of an iteration. -/
structure Inv (env : Env R) (items : List (Item R)) (s : St R) : Prop where
  ctl : s.running = true → Ctl s
  ord : Ord env s
  ids : Ids (itemIds items) s
  seg : Seg s
  can : Can env s
  mon : Mon 1 s
  fre : Fre items s
  use : Use items.length s

/-- What holds of the trace of any run. -/
structure TraceInv (env : Env R) (items : List (Item R)) (t : List Event) : Prop where
  ids : TraceOk (itemIds items) t
  seg : SegT t
  can : CanT env t
  mon : ∀ x ∈ gapsOf t, x.2 < x.1
  reads : readCount t ≤ items.length
  used : Used t

theorem Inv.trace {env : Env R} {items : List (Item R)} {s : St R} (h : Inv env items s) :
    TraceInv env items s.trace :=
  ⟨h.ids.ok, h.seg.tr, h.can.tr, h.mon.all, by have := h.use.cnt; omega, h.use.used⟩

theorem TraceInv.closed {env : Env R} {items : List (Item R)} {t : List Event} (h : TraceInv env items t) :
    TraceInv env items (t ++ [.closed]) := by
  have hin : Inside ([.closed] : List Event) := by simp [Inside]
  refine ⟨h.ids.quiet (by simp [Event.quiet]), h.seg.ext (by simp [NoL1b]), ⟨?_, ?_, ?_⟩, ?_, ?_, ?_⟩
  · intro j hj; rw [iterations_append, iterations_inside hin] at hj; exact h.can.first j hj
  · rw [iterations_append, iterations_inside hin, Nat.add_zero, ← h.can.seen]; simp
  · intro x y hs
    rcases split_append hs with ⟨c', rfl, h3⟩ | ⟨a', rfl, h3⟩
    · obtain ⟨d1, d2, d3⟩ := h.can.after x c' h3
      refine ⟨by rw [iterations_append, d1]; rfl, by rw [readCount_append]; simpa [readCount] using d2, by simpa using d3⟩
    · exfalso; rcases a' with _ | ⟨z, a'⟩ <;> simp at h3
  · rw [gapsOf_quiet _ _ (by simp [NoSub])]; exact h.mon
  · rw [readCount_append]; simpa [readCount] using h.reads
  · exact h.used.ext (by simp)

theorem inv_step {env : Env R} {items : List (Item R)} {s s' : St R} (h : Inv env items s)
    (hr : s.running = true) (hst : StepRel env s s') : Inv env items s' := by
  have hc := h.ctl hr
  exact ⟨fun hr' => (step_ctl env s s' hc hst hr').1, ord_step h.ord hst, ids_step hc h.ids hst,
    seg_step hc h.ord h.ids h.seg hst, can_step h.can hr hst, mon_step hc h.mon hst,
    fre_step hc h.fre hst, use_step hc h.ids h.use hst⟩

/-- What holds when an iteration raises. -/
structure ErrInv (env : Env R) (items : List (Item R)) (e : PyErr) (s : St R) : Prop where
  tr : TraceInv env items s.trace
  ord : OrdErr env s
  cause : Raises env e ∨ .failure e ∈ items ∨ (e = .indexError ∧ env.nLooks < 2) ∨
    (e = .other "insufficient input records" ∧ ∃ n < minSurfs, Recent s.trace n ∧ s.rest = [])

theorem inv_stepErr {env : Env R} {items : List (Item R)} {s s' : St R} {e : PyErr}
    (h : Inv env items s) (hr : s.running = true) (hst : StepErr env s e s') : ErrInv env items e s' := by
  have hc := h.ctl hr
  have hu := use_stepErr hc h.ids h.use hst
  exact ⟨⟨ids_stepErr hc h.ids hst, seg_stepErr hc h.ord h.ids h.seg hst,
    (canT_step h.can hr (phase_stepErr hst)).1, mon_stepErr hc h.mon hst, hu.1, hu.2⟩,
    ord_stepErr h.ord hst, fre_stepErr hc h.fre hst⟩

theorem inv_start (env : Env R) (packets : List (Pk R × Bool)) (hp : ∀ x ∈ packets, x.2 = true)
    (items : List (Item R)) : Inv env items (start [] packets items) :=
  ⟨fun _ => ctl_start [] packets items, ord_start env packets items, ids_start packets hp items,
    seg_start packets items, can_start env [] packets items, mon_start [] packets items,
    fre_start packets items, use_start [] packets items⟩

/-- The state at the end of a run on a processor without surfaces and unprocessed bursts. -/
theorem process_inv (env : Env R) (packets : List (Pk R × Bool)) (hp : ∀ x ∈ packets, x.2 = true)
    (items : List (Item R)) :
    match processWith env [] packets items with
    | .finished s' => ∃ s, Inv env items s ∧ s.running = false ∧ env.finishFails s = none ∧ s' = s.log .closed
    | .failed e s => ErrInv env items e s ∨ (Inv env items s ∧ s.running = false ∧ env.finishFails s = some e)
    | .timeout _ => False := by
  have h := run_induct env (Inv env items) (ErrInv env items)
    (fun s s' h hr hst => inv_step h hr hst) (fun s e s' h hr hst => inv_stepErr h hr hst)
    (3 * items.length + ([] : List (Beams.Surf (Pk R))).length + 2) (start [] packets items)
    (inv_start env packets hp items)
  have ht := run_terminates env (3 * items.length + ([] : List (Beams.Surf (Pk R))).length + 2)
    (start [] packets items) (fun _ => ctl_start [] packets items)
    (by simp [start, work])
  unfold processWith
  revert h ht
  generalize run env (3 * items.length + ([] : List (Beams.Surf (Pk R))).length + 2) (start [] packets items) = o
  intro h ht
  cases o with
  | finished s => exact h
  | failed e s => exact h
  | timeout s => exact absurd rfl (ht s)

end Dedop.Process
