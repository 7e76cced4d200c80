import Verif.Process.Props

/-! # The records found after a gap are late (lemmas) -/
namespace Dedop.Process

set_option linter.unusedSectionVars false

variable {R : Type} [Field R] [LinearOrder R]

/-- A record is taken for the first after a gap only if it is too late after the record read before it. -/
def LateT (th : R) (time : Nat → R) (t : List Event) : Prop :=
  ∀ id ∈ gapOf t, ∃ pre j suf, readOf t = pre ++ j :: id :: suf ∧ ¬ time id - time j < th

/-- A record is accepted only if it is the first one, or was found after a gap, or is in time after the record read before it. -/
def TimelyT (th : R) (time : Nat → R) (t : List Event) : Prop :=
  ∀ a id b, t = a ++ .accepted id :: b →
    readOf a = [id] ∨ id ∈ gapOf a ∨ ∃ pre j, readOf a = pre ++ [j, id] ∧ time id - time j < th

/-- Invariant about the time of the last record. -/
structure Late (th : R) (time : Nat → R) (s : St R) : Prop where
  rest : ∀ p, .record p ∈ s.rest → p.time = time p.counter
  inp : ∀ p, s.input = some p → p.time = time p.counter
  last : s.gapProcessing = true ∨ s.gapResume = true → ∀ p, s.input = some p → (readOf s.trace).getLast? = some p.counter
  prev : ∀ t, s.prevTime = some t → ∃ j, (readOf s.trace).getLast? = some j ∧ time j = t
  tr : LateT th time s.trace
  none : s.prevTime = none → readOf s.trace = [] ∨
    ((s.gapProcessing = true ∨ s.gapResume = true) ∧ ∀ p, s.input = some p → p.counter ∈ gapOf s.trace)
  acc : TimelyT th time s.trace

theorem LateT.ext {th : R} {time : Nat → R} {t t' : List Event} (h : LateT th time t) (hg : gapOf t' = []) : LateT th time (t ++ t') := by
  intro id hid
  rw [gapOf_append, hg, List.append_nil] at hid
  obtain ⟨pre, j, suf, e, q⟩ := h id hid
  exact ⟨pre, j, suf ++ readOf t', by rw [readOf_append, e]; simp, q⟩

theorem TimelyT.ext {th : R} {time : Nat → R} {t t' : List Event} (h : TimelyT th time t) (hg : ∀ id, .accepted id ∉ t') :
    TimelyT th time (t ++ t') := by
  intro a id c hs
  rcases split_append hs with ⟨c', rfl, h2⟩ | ⟨a', rfl, h2⟩
  · exact h a id c' h2
  · exact absurd (by rw [h2]; simp) (hg id)

theorem Late.ext {th : R} {time : Nat → R} {s s' : St R} (h : Late th time s) (t : List Event) (htr : s'.trace = s.trace ++ t)
    (hg : gapOf t = []) (hr : readOf t = []) (ha : ∀ id, .accepted id ∉ t) (h1 : s'.rest = s.rest) (h2 : s'.input = s.input) (h3 : s'.prevTime = s.prevTime)
    (h4 : s'.gapProcessing = true ∨ s'.gapResume = true ↔ s.gapProcessing = true ∨ s.gapResume = true) : Late th time s' := by
  refine ⟨by rw [h1]; exact h.rest, by rw [h2]; exact h.inp, ?_, ?_, by rw [htr]; exact h.tr.ext hg, ?_, by rw [htr]; exact h.acc.ext ha⟩
  · intro hq
    rw [h2, htr, readOf_append, hr, List.append_nil]
    exact h.last (h4.1 hq)
  rotate_left
  · rw [h3, h2, htr, readOf_append, gapOf_append, hr, hg, List.append_nil, List.append_nil, h4]
    exact h.none
  · rw [h3, htr, readOf_append, hr, List.append_nil]
    exact h.prev

theorem late_begin {th : R} {time : Nat → R} {env : Env R} {s : St R} (h : Late th time s) : Late th time (beginIteration env s) := by
  rcases begin_cases env s with ⟨_, hb⟩ | ⟨_, hb⟩ <;> rw [hb]
  · exact h.ext [.iteration, .cancelSeen] rfl (by simp [gapOf]) (by simp [readOf]) (by simp) rfl rfl rfl Iff.rfl
  · exact h.ext [.iteration] rfl (by simp [gapOf]) (by simp [readOf]) (by simp) rfl rfl rfl Iff.rfl

/-- After reading, the current record is the last one read, and the time kept is that of the one before. -/
structure Mid (th : R) (time : Nat → R) (s : St R) (p : Pk R) : Prop where
  rest : ∀ p, .record p ∈ s.rest → p.time = time p.counter
  inp : p.time = time p.counter
  last : (readOf s.trace).getLast? = some p.counter
  prev : ∀ t, s.prevTime = some t → ∃ pre j, readOf s.trace = pre ++ [j, p.counter] ∧ time j = t
  tr : LateT th time s.trace
  none : s.prevTime = none → readOf s.trace = [p.counter] ∨ p.counter ∈ gapOf s.trace
  acc : TimelyT th time s.trace

theorem late_read {th : R} {time : Nat → R} {s s' : St R} (hc : Ctl s) (hg : s.gapProcessing = false) (h : Late th time s) (hr : ReadRel s s') :
    (s'.input = none → Late th time s') ∧ (∀ p, s'.input = some p → Mid th time s' p) := by
  have hn : s.gapResume = false → s.prevTime = none → readOf s.trace = [] := by
    intro hres ht
    rcases h.none ht with e | ⟨e, _⟩
    · exact e
    · rw [hg, hres] at e
      simp at e
  cases hr with
  | resumed hres =>
    refine ⟨fun _ => h, fun p hp => ⟨h.rest, h.inp p hp, h.last (Or.inr hres) p hp, ?_, h.tr, ?_, h.acc⟩⟩
    · intro t ht
      rw [(hc.resume hres).2.2.1] at ht
      cases ht
    · intro ht
      rcases h.none ht with e | ⟨_, e⟩
      · have := h.last (Or.inr hres) p hp
        rw [e] at this
        cases this
      · exact Or.inr (e p hp)
  | atEnd hres _ _ =>
    have hro : readOf (s.trace ++ [.endOfInput]) = readOf s.trace := by rw [readOf_append]; simp [readOf]
    refine ⟨fun _ => ⟨h.rest, fun p hp => (by cases hp), fun _ p hp => (by cases hp), ?_, h.tr.ext (t' := [.endOfInput]) (by simp [gapOf]),
      fun ht => Or.inl (by show readOf (s.trace ++ _) = []; rw [hro]; exact hn hres ht), h.acc.ext (t' := [.endOfInput]) (by simp)⟩,
      fun p hp => (by cases hp)⟩
    intro t ht
    show ∃ j, (readOf (s.trace ++ [.endOfInput])).getLast? = some j ∧ _
    rw [hro]
    exact h.prev t ht
  | invalid hres rest hrest =>
    have hro : readOf (s.trace ++ [.read none, .progress]) = readOf s.trace := by rw [readOf_append]; simp [readOf]
    refine ⟨fun _ => ⟨fun p hp => h.rest p (by rw [hrest]; exact List.mem_cons_of_mem _ hp), fun p hp => (by cases hp), fun _ p hp => (by cases hp), ?_,
      h.tr.ext (t' := [.read none, .progress]) (by simp [gapOf]),
      fun ht => Or.inl (by show readOf (s.trace ++ _) = []; rw [hro]; exact hn hres ht), h.acc.ext (t' := [.read none, .progress]) (by simp)⟩,
      fun p hp => (by cases hp)⟩
    intro t ht
    show ∃ j, (readOf (s.trace ++ [.read none, .progress])).getLast? = some j ∧ _
    rw [hro]
    exact h.prev t ht
  | record hres q rest hrest =>
    have hro : readOf (s.trace ++ [.read (some q.counter), .progress]) = readOf s.trace ++ [q.counter] := by
      rw [readOf_append]; simp [readOf]
    refine ⟨fun hp => (by cases hp), fun p hp => ?_⟩
    have hp : q = p := Option.some.inj hp
    subst hp
    refine ⟨fun p hp => h.rest p (by rw [hrest]; exact List.mem_cons_of_mem _ hp), h.rest q (by rw [hrest]; exact List.mem_cons_self), ?_, ?_, ?_, ?_, ?_⟩
    · show (readOf (s.trace ++ _)).getLast? = _
      rw [hro]; simp
    · intro t ht
      obtain ⟨j, hj, e⟩ := h.prev t ht
      obtain ⟨pre, hpre⟩ := List.getLast?_eq_some_iff.1 hj
      refine ⟨pre, j, ?_, e⟩
      show readOf (s.trace ++ _) = _
      rw [hro, hpre]
      simp
    · exact h.tr.ext (t' := [.read (some q.counter), .progress]) (by simp [gapOf])
    · intro ht
      left
      show readOf (s.trace ++ _) = _
      rw [hro, hn hres ht]
      rfl
    · exact h.acc.ext (t' := [.read (some q.counter), .progress]) (by simp)

theorem accepted_timely {time : Nat → R} {env : Env R} {s : St R} {p : Pk R} (h : Mid env.threshold time s p)
    (ht : inTime env s p = true) : TimelyT env.threshold time (s.trace ++ [.calibrated p.counter, .accepted p.counter]) := by
  intro a id c hs
  rcases split_append hs with ⟨c', rfl, h2⟩ | ⟨a', rfl, h2⟩
  · exact h.acc a id c' h2
  · have ha : a' = [.calibrated p.counter] ∧ id = p.counter := by
      rcases a' with _ | ⟨x, _ | ⟨y, a'⟩⟩ <;> simp at h2
      exact ⟨by rw [h2.1], h2.2.1.symm⟩
    obtain ⟨rfl, rfl⟩ := ha
    have hro : readOf (s.trace ++ [.calibrated p.counter]) = readOf s.trace := by rw [readOf_append]; simp [readOf]
    have hgo : gapOf (s.trace ++ [.calibrated p.counter]) = gapOf s.trace := by rw [gapOf_append]; simp [gapOf]
    rw [hro, hgo]
    unfold inTime at ht
    cases hp : s.prevTime with
    | none =>
      rcases h.none hp with e | e
      · exact Or.inl e
      · exact Or.inr (Or.inl e)
    | some t =>
      rw [hp] at ht
      obtain ⟨pre, j, e, q⟩ := h.prev t hp
      exact Or.inr (Or.inr ⟨pre, j, e, by rw [q, ← h.inp]; simpa using ht⟩)

theorem late_packet {time : Nat → R} {env : Env R} {s s' : St R} {p : Pk R} {b : Bool}
    (hi : s.input = some p) (h : Mid env.threshold time s p) (hr : PacketRel env s p b s') : Late env.threshold time s' := by
  have hin : ∀ q, s.input = some q → q = p := by
    intro q hq; rw [hi] at hq; exact (Option.some.inj hq).symm
  cases hr with
  | nothing hit _ hres =>
    have hro : readOf (s.trace ++ [.calibrated p.counter, .accepted p.counter]) = readOf s.trace := by
      rw [readOf_append]; simp [readOf]
    refine ⟨h.rest, fun q hq => by rw [hin q hq]; exact h.inp, ?_, ?_, h.tr.ext (by simp [gapOf]), fun ht => (by cases ht), accepted_timely h hit⟩
    · intro _ q hq
      show (readOf (s.trace ++ _)).getLast? = _
      rw [hro, hin q hq]; exact h.last
    · intro t ht
      refine ⟨p.counter, ?_, ?_⟩
      · show (readOf (s.trace ++ _)).getLast? = _
        rw [hro]; exact h.last
      · rw [← h.inp]; exact Option.some.inj ht
  | created hit =>
    have hro : readOf (s.trace ++ [.calibrated p.counter, .accepted p.counter, .created s.count]) = readOf s.trace := by
      rw [readOf_append]; simp [readOf]
    refine ⟨h.rest, fun q hq => by rw [hin q hq]; exact h.inp, ?_, ?_, h.tr.ext (by simp [gapOf]), fun ht => (by cases ht), ?_⟩
    · intro _ q hq
      show (readOf (s.trace ++ _)).getLast? = _
      rw [hro, hin q hq]; exact h.last
    · intro t ht
      refine ⟨p.counter, ?_, ?_⟩
      · show (readOf (s.trace ++ _)).getLast? = _
        rw [hro]; exact h.last
      · rw [← h.inp]; exact Option.some.inj ht
    · have := (accepted_timely h hit).ext (t' := [.created s.count]) (by simp)
      simpa using this
  | gap t ht hlate =>
    have hro : readOf (s.trace ++ [.calibrated p.counter, .gapStart p.counter s.surfaces.length]) = readOf s.trace := by
      rw [readOf_append]; simp [readOf]
    refine ⟨h.rest, fun q hq => by rw [hin q hq]; exact h.inp, ?_, fun t ht => (by cases ht), ?_, ?_, h.acc.ext (by simp)⟩
    · intro _ q hq
      show (readOf (s.trace ++ _)).getLast? = _
      rw [hro, hin q hq]; exact h.last
    · intro id hid
      show ∃ pre j suf, readOf (s.trace ++ _) = _ ∧ _
      rw [hro]
      have hid : id ∈ gapOf (s.trace ++ [.calibrated p.counter, .gapStart p.counter s.surfaces.length]) := hid
      rw [gapOf_append] at hid
      rcases List.mem_append.1 hid with hid | hid
      · exact h.tr id hid
      · have : id = p.counter := by simpa [gapOf] using hid
        subst this
        obtain ⟨pre, j, e, q⟩ := h.prev t ht
        exact ⟨pre, j, [], e, by rw [q, ← h.inp]; exact hlate⟩
    · intro _
      refine Or.inr ⟨Or.inl rfl, fun q hq => ?_⟩
      show q.counter ∈ gapOf (s.trace ++ _)
      rw [gapOf_append, hin q hq]
      exact List.mem_append_right _ (by simp [gapOf])

theorem late_input {time : Nat → R} {env : Env R} {s s' : St R} {b : Bool} (hc : Ctl s) (h : Late env.threshold time s)
    (hr : InputRel env s b s') : Late env.threshold time s' := by
  cases hr with
  | gap hg hs => exact h.ext [.gapProgress] rfl (by simp [gapOf]) (by simp [readOf]) (by simp) rfl rfl rfl Iff.rfl
  | gapNoSub _ _ => exact h
  | noPacket hg _ hr hi => exact (late_read hc hg h hr).1 hi
  | packet hg s1 hr p hi _ _ hp =>
    exact late_packet hi ((late_read hc hg h hr).2 p hi) hp

theorem late_loop {th : R} {time : Nat → R} {s s1 : St R} {new : List (Pk R)} {n : Nat}
    (h : Late th time s) (hl : LoopSpec s.packets s.begun s1 new n) : Late th time s1 := by
  have hz : ∀ f : Event → Option Nat, (∀ n, f (.beams n) = none) → (new.map (fun p => Event.beams p.counter)).filterMap f = [] := by
    intro f hf
    rw [List.filterMap_map]
    induction new with
    | nil => rfl
    | cons a l ih => simp [hf]
  refine h.ext _ hl.trace (hz _ (fun _ => rfl)) (hz _ (fun _ => rfl)) (by simp) ?_ ?_ ?_ ?_
  all_goals rw [hl.frame]
  · rfl
  · rfl
  · rfl
  · exact Iff.rfl

theorem late_surf {th : R} {time : Nat → R} {env : Env R} {s s' : St R} (h : Late th time s) (hr : SurfRel env s s') : Late th time s' := by
  cases hr with
  | idle _ => exact h
  | dropped _ s1 new n loop pk w rest hw few =>
    exact (late_loop h loop).ext [.dropped w.counter (stackIds w)] rfl (by simp [gapOf]) (by simp [readOf]) (by simp) rfl rfl rfl Iff.rfl
  | written _ s1 new n loop pk w rest hw en pks suf =>
    refine (late_loop h loop).ext _ rfl ?_ ?_ ?_ rfl rfl rfl Iff.rfl
    · split <;> simp [gapOf]
    · split <;> simp [readOf]
    · split <;> simp

theorem late_end {th : R} {time : Nat → R} {s s' : St R} (h : Late th time s) (hr : EndRel s s') : Late th time s' := by
  cases hr with
  | gapEnd _ hg _ => exact h.ext [.gapDone] rfl (by simp [gapOf]) (by simp [readOf]) (by simp) rfl rfl rfl (by simp [hg])
  | stop _ _ => exact h.ext [] (by simp) (by simp [gapOf]) (by simp [readOf]) (by simp) rfl rfl rfl Iff.rfl
  | go _ => exact h

theorem late_step {time : Nat → R} {env : Env R} {s s' : St R} (hc : Ctl s) (h : Late env.threshold time s) (hr : StepRel env s s') :
    Late env.threshold time s' := by
  have hcb := ctl_begin env s hc
  cases hr with
  | cont _ hin => exact late_input hcb (late_begin h) hin
  | full s1 s2 _ hin hs he => exact late_end (late_surf (late_input hcb (late_begin h) hin) hs) he

theorem late_stepErr {time : Nat → R} {env : Env R} {s s' : St R} {e : PyErr} (hc : Ctl s) (h : Late env.threshold time s)
    (hr : StepErr env s e s') : LateT env.threshold time s'.trace ∧ TimelyT env.threshold time s'.trace := by
  have hcb := ctl_begin env s hc
  have hb := late_begin (env := env) h
  cases hr with
  | input _ hin =>
    cases hin with
    | read _ _ _ hr =>
      cases hr with
      | insufficient _ _ _ => exact ⟨hb.tr.ext (t' := [.endOfInput]) (by simp [gapOf]), hb.acc.ext (t' := [.endOfInput]) (by simp)⟩
      | failure _ _ _ _ => exact ⟨hb.tr, hb.acc⟩
    | packet hg s1 hr p hi _ _ hp =>
      have h1 := (late_read hcb hg hb hr).2 p hi
      cases hp with
      | cal _ => exact ⟨h1.tr, h1.acc⟩
      | location _ _ _ hit => exact ⟨h1.tr.ext (t' := [.calibrated p.counter, .accepted p.counter]) (by simp [gapOf]), accepted_timely h1 hit⟩
  | surf s1 _ hin hs =>
    have h1 := late_input hcb hb hin
    cases hs with
    | empty _ _ => exact ⟨h1.tr, h1.acc⟩
    | loop _ _ _ new n loop => exact ⟨(late_loop h1 loop).tr, (late_loop h1 loop).acc⟩
    | writing _ s2 new n loop w rest hw en _ t ht =>
      constructor
      · refine (late_loop h1 loop).tr.ext ?_
        rcases ht with rfl | ⟨_, rfl⟩ <;> simp [gapOf]
      · refine (late_loop h1 loop).acc.ext ?_
        rcases ht with rfl | ⟨_, rfl⟩ <;> simp
  | noSub s1 s2 hin hs _ _ =>
    have := late_surf (late_input hcb hb hin) hs
    exact ⟨this.tr, this.acc⟩

/-- In any run: a record is taken for the first after a gap only if it is not within the time limit of the record read before it, and
any other record is accepted only within the time limit. -/
theorem gap_late (env : Env R) (time : Nat → R) (items : List (Item R)) (ht : ∀ p, .record p ∈ items → p.time = time p.counter) (fuel : Nat) :
    LateT env.threshold time (run env fuel (start [] [] items)).trace ∧ TimelyT env.threshold time (run env fuel (start [] [] items)).trace := by
  have h := run_induct env (fun s => (s.running = true → Ctl s) ∧ Late env.threshold time s)
    (fun _ s => LateT env.threshold time s.trace ∧ TimelyT env.threshold time s.trace)
    (fun s s' h hr hst => ⟨fun hr' => (step_ctl env s s' (h.1 hr) hst hr').1, late_step (h.1 hr) h.2 hst⟩)
    (fun s e s' h hr hst => late_stepErr (h.1 hr) h.2 hst) fuel (start [] [] items)
    ⟨fun _ => ctl_start [] [] items, ⟨ht, fun p hp => (by cases hp), fun _ p hp => (by cases hp), fun t ht => (by cases ht),
      fun id hid => (by cases hid), fun _ => Or.inl rfl, fun a id c hs => (by simp [start] at hs)⟩⟩
  revert h
  cases run env fuel (start [] [] items) with
  | finished s =>
    rintro ⟨s', ⟨_, h⟩, _, _, rfl⟩
    exact ⟨h.tr.ext (t' := [.closed]) (by simp [gapOf]), h.acc.ext (t' := [.closed]) (by simp)⟩
  | failed e s =>
    rintro (h | ⟨⟨_, h⟩, _⟩)
    · exact h
    · exact ⟨h.tr, h.acc⟩
  | timeout s => exact fun h => ⟨h.2.tr, h.2.acc⟩

end Dedop.Process
