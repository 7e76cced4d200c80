import Verif.Process.Seg

/-! # Iterations, cancellation, the gap monitor and the segments between gaps (lemmas) -/
namespace Dedop.Process

set_option linter.unusedSectionVars false

variable {R : Type} [Field R] [LinearOrder R]

/-- Events inside an iteration: no new iteration, no test for cancellation. -/
def Inside (t : List Event) : Prop := .iteration ∉ t ∧ .cancelSeen ∉ t

theorem Inside.append {a b : List Event} (ha : Inside a) (hb : Inside b) : Inside (a ++ b) := by
  constructor
  · simp only [List.mem_append, not_or]; exact ⟨ha.1, hb.1⟩
  · simp only [List.mem_append, not_or]; exact ⟨ha.2, hb.2⟩

/-- What one phase leaves alone. -/
structure Phase (s s' : St R) (n : Nat) : Prop where
  tr : ∃ t, s'.trace = s.trace ++ t ∧ Inside t ∧ readCount t ≤ n
  k : s'.k = s.k
  running : s'.running = s.running
  status : s'.status = s.status

theorem Phase.trans {a b c : St R} {n m : Nat} (h1 : Phase a b n) (h2 : Phase b c m) :
    Phase a c (n + m) := by
  obtain ⟨⟨t1, e1, i1, r1⟩, k1, u1, s1⟩ := h1
  obtain ⟨⟨t2, e2, i2, r2⟩, k2, u2, s2⟩ := h2
  refine ⟨⟨t1 ++ t2, by rw [e2, e1]; simp, i1.append i2, ?_⟩, k2.trans k1, u2.trans u1, s2.trans s1⟩
  rw [readCount_append]; omega

theorem phase_refl (s : St R) : Phase s s 0 :=
  ⟨⟨[], by simp, by simp [Inside], by simp [readCount]⟩, rfl, rfl, rfl⟩

theorem phase_read {s s' : St R} (hr : ReadRel s s') : Phase s s' 1 := by
  cases hr with
  | resumed _ => exact ⟨⟨[], by simp, by simp [Inside], by simp [readCount]⟩, rfl, rfl, rfl⟩
  | atEnd _ _ _ => exact ⟨⟨[.endOfInput], rfl, by simp [Inside], by simp [readCount]⟩, rfl, rfl, rfl⟩
  | invalid _ _ _ => exact ⟨⟨[.read none, .progress], rfl, by simp [Inside], by simp [readCount]⟩, rfl, rfl, rfl⟩
  | record _ p _ _ =>
    exact ⟨⟨[.read (some p.counter), .progress], rfl, by simp [Inside], by simp [readCount]⟩, rfl, rfl, rfl⟩

theorem phase_packet {env : Env R} {s s' : St R} {p : Pk R} {b : Bool} (hr : PacketRel env s p b s') :
    Phase s s' 0 := by
  cases hr with
  | nothing _ _ _ => exact ⟨⟨_, rfl, by simp [Inside], by simp [readCount]⟩, rfl, rfl, rfl⟩
  | created _ => exact ⟨⟨_, rfl, by simp [Inside], by simp [readCount]⟩, rfl, rfl, rfl⟩
  | gap t _ _ => exact ⟨⟨_, rfl, by simp [Inside], by simp [readCount]⟩, rfl, rfl, rfl⟩

theorem phase_input {env : Env R} {s s' : St R} {b : Bool} (hr : InputRel env s b s') : Phase s s' 1 := by
  cases hr with
  | gap _ _ => exact ⟨⟨[.gapProgress], rfl, by simp [Inside], by simp [readCount]⟩, rfl, rfl, rfl⟩
  | gapNoSub _ _ => exact ⟨⟨[], by simp, by simp [Inside], by simp [readCount]⟩, rfl, rfl, rfl⟩
  | noPacket _ _ hr _ => exact phase_read hr
  | packet _ s1 hr p _ _ _ hp => exact (phase_read hr).trans (phase_packet hp)

theorem phase_loop {s s1 : St R} {todo : List (Pk R × Bool)} {new : List (Pk R)} {n : Nat}
    (hl : LoopSpec todo s.begun s1 new n) : Phase s s1 0 := by
  refine ⟨⟨_, hl.trace, ?_, ?_⟩, ?_, ?_, ?_⟩
  · constructor <;> intro hm <;> obtain ⟨_, _, h⟩ := List.mem_map.1 hm <;> cases h
  · unfold readCount; rw [List.countP_map]; simp [Function.comp_def]
  · rw [hl.frame]; rfl
  · rw [hl.frame]; rfl
  · rw [hl.frame]; rfl

theorem phase_surf {env : Env R} {s s' : St R} (hr : SurfRel env s s') : Phase s s' 0 := by
  cases hr with
  | idle _ => exact phase_refl s
  | dropped _ s1 new n loop pk w rest hw few =>
    exact (phase_loop loop).trans (m := 0) ⟨⟨[.dropped w.counter (stackIds w)], rfl, by simp [Inside], by simp [readCount]⟩, rfl, rfl, rfl⟩
  | written _ s1 new n loop pk w rest hw en pks suf =>
    refine (phase_loop loop).trans (m := 0) ⟨⟨_, rfl, ?_, ?_⟩, rfl, rfl, rfl⟩
    · split <;> simp [Inside]
    · split <;> simp [readCount]

/-- Errors: the trace of the iteration. -/
structure PhaseErr (s s' : St R) : Prop where
  tr : ∃ t, s'.trace = s.trace ++ t ∧ Inside t ∧ readCount t ≤ 1
  k : s'.k = s.k

theorem Phase.err {s s' : St R} {n : Nat} (h : Phase s s' n) (hn : n ≤ 1) : PhaseErr s s' := by
  obtain ⟨⟨t, h1, h2, h3⟩, h4, _, _⟩ := h
  exact ⟨⟨t, h1, h2, by omega⟩, h4⟩

theorem Phase.errWith {a b s' : St R} {n : Nat} (h : Phase a b n) (hn : n ≤ 1) (t : List Event)
    (ht : s'.trace = b.trace ++ t) (hi : Inside t) (hr : readCount t = 0) (hk : s'.k = b.k) :
    PhaseErr a s' := by
  obtain ⟨⟨t1, h1, h2, h3⟩, h4, _, _⟩ := h
  refine ⟨⟨t1 ++ t, by rw [ht, h1]; simp, h2.append hi, ?_⟩, hk.trans h4⟩
  rw [readCount_append]; omega

theorem phase_stepErr {env : Env R} {s s' : St R} {e : PyErr} (hr : StepErr env s e s') :
    PhaseErr (beginIteration env s) s' := by
  cases hr with
  | input _ hin =>
    cases hin with
    | read _ _ _ hr =>
      cases hr with
      | insufficient _ _ _ => exact ⟨⟨[.endOfInput], rfl, by simp [Inside], by simp [readCount]⟩, rfl⟩
      | failure _ _ _ _ => exact ⟨⟨[], by simp, by simp [Inside], by simp [readCount]⟩, rfl⟩
    | packet _ s1 hr p _ _ _ hp =>
      cases hp with
      | cal _ => exact (phase_read hr).err (by omega)
      | location _ _ _ =>
        exact (phase_read hr).errWith (by omega) [.calibrated p.counter, .accepted p.counter] rfl
          (by simp [Inside]) (by simp [readCount]) rfl
  | surf s1 _ hin hs =>
    cases hs with
    | empty _ _ => exact (phase_input hin).errWith (by omega) [] (by simp [St.begun]) (by simp [Inside]) (by simp [readCount]) rfl
    | loop _ _ _ new n loop => exact ((phase_input hin).trans (phase_loop loop)).err (by omega)
    | writing _ s2 new n loop w rest hw en _ t ht =>
      refine ((phase_input hin).trans (phase_loop loop)).errWith (by omega) t rfl ?_ ?_ rfl
      · rcases ht with rfl | ⟨_, rfl⟩ <;> simp [Inside]
      · rcases ht with rfl | ⟨_, rfl⟩ <;> simp [readCount]
  | noSub s1 s2 hin hs _ _ =>
    have := (phase_input hin).trans (phase_surf hs)
    exact ⟨this.tr, this.k⟩

/-- What is known of a trace about cancellation; `k` is the number of iterations begun. -/
structure CanT (env : Env R) (t : List Event) : Prop where
  first : ∀ j, j + 1 < iterations t → env.cancelled j = false
  seen : .cancelSeen ∈ t ↔ 0 < iterations t ∧ env.cancelled (iterations t - 1) = true
  after : ∀ a c, t = a ++ .cancelSeen :: c → iterations c = 0 ∧ readCount c ≤ 1 ∧ .cancelSeen ∉ c

/-- Invariant about iterations and cancellation. -/
structure Can (env : Env R) (s : St R) : Prop where
  k : iterations s.trace = s.k
  run : s.running = true → (∀ j < s.k, env.cancelled j = false) ∧ .cancelSeen ∉ s.trace ∧
    s.status = some (-1)
  tr : CanT env s.trace
  stop : s.running = false → (s.status = none ∧ s.surfaces = []) ∨
    (s.status = some (-1) ∧ .cancelSeen ∈ s.trace)

theorem iterations_append (a b : List Event) : iterations (a ++ b) = iterations a + iterations b :=
  List.countP_append

theorem iterations_inside {t : List Event} (h : Inside t) : iterations t = 0 := by
  unfold iterations
  rw [List.countP_eq_zero]
  intro e he
  simp
  rintro rfl
  exact h.1 he

theorem begin_cases (env : Env R) (s : St R) :
    (env.cancelled s.k = true ∧ beginIteration env s =
      { s with k := s.k + 1, running := false, trace := s.trace ++ [.iteration, .cancelSeen] }) ∨
    (env.cancelled s.k = false ∧ beginIteration env s =
      { s with k := s.k + 1, trace := s.trace ++ [.iteration] }) := by
  unfold beginIteration
  simp only [St.log]
  cases h : env.cancelled s.k with
  | true => left; simp
  | false => right; simp

/-- The trace after one more iteration. -/
theorem canT_step {env : Env R} {s : St R} (h : Can env s) (hr : s.running = true) {s' : St R}
    (hp : PhaseErr (beginIteration env s) s') :
    CanT env s'.trace ∧ iterations s'.trace = s.k + 1 ∧ s'.k = s.k + 1 ∧
    (.cancelSeen ∈ s'.trace ↔ env.cancelled s.k = true) := by
  obtain ⟨hk, hrun, htr, _⟩ := h
  obtain ⟨h1, h2, h3⟩ := hrun hr
  obtain ⟨⟨t, ht, hin, hrc⟩, hk'⟩ := hp
  have hit := iterations_inside hin
  rcases begin_cases env s with ⟨hc, hb⟩ | ⟨hc, hb⟩
  · rw [hb] at ht hk'
    simp only at ht hk'
    have e1 : iterations s'.trace = s.k + 1 := by
      rw [ht, iterations_append, iterations_append, hk, hit]; rfl
    have hmem : Event.cancelSeen ∈ s'.trace := by rw [ht]; simp
    refine ⟨⟨?_, ?_, ?_⟩, e1, hk', ⟨fun _ => hc, fun _ => hmem⟩⟩
    · intro j hj; rw [e1] at hj; exact h1 j (by omega)
    · rw [e1]; exact ⟨fun _ => ⟨by omega, by simpa using hc⟩, fun _ => hmem⟩
    · intro a c hs
      rw [ht] at hs
      rw [show s.trace ++ [Event.iteration, Event.cancelSeen] ++ t =
        (s.trace ++ [Event.iteration]) ++ (Event.cancelSeen :: t) by simp] at hs
      rcases split_append hs with ⟨c', _, h5⟩ | ⟨a', rfl, h5⟩
      · exfalso
        have : Event.cancelSeen ∈ s.trace ++ [Event.iteration] := by rw [h5]; simp
        simp at this
        exact h2 this
      · cases a' with
        | nil =>
          simp at h5
          subst h5
          exact ⟨hit, hrc, hin.2⟩
        | cons x a' =>
          exfalso
          simp at h5
          exact hin.2 (by rw [h5.2]; simp)
  · rw [hb] at ht hk'
    simp only at ht hk'
    have e1 : iterations s'.trace = s.k + 1 := by
      rw [ht, iterations_append, iterations_append, hk, hit]; rfl
    have hno : Event.cancelSeen ∉ s'.trace := by
      rw [ht]; simp only [List.mem_append, not_or]; exact ⟨⟨h2, by simp⟩, hin.2⟩
    refine ⟨⟨?_, ?_, ?_⟩, e1, hk', ⟨fun h => absurd h hno, fun h => by rw [hc] at h; cases h⟩⟩
    · intro j hj; rw [e1] at hj; exact h1 j (by omega)
    · rw [e1]
      refine ⟨fun h => absurd h hno, fun ⟨_, h⟩ => ?_⟩
      rw [show s.k + 1 - 1 = s.k by omega, hc] at h; cases h
    · intro a c hs
      exact absurd (by rw [hs]; simp) hno

theorem can_step {env : Env R} {s s' : St R} (h : Can env s) (hr : s.running = true)
    (hst : StepRel env s s') : Can env s' := by
  have key : ∀ s2, Phase (beginIteration env s) s2 1 →
      Can env s2 ∧ (.cancelSeen ∉ s2.trace → s2.running = true) := by
    intro s2 hp
    obtain ⟨c1, c2, c3, c4⟩ := canT_step h hr (hp.err (by omega))
    have hrun2 := hp.running
    have hst2 := hp.status
    obtain ⟨hj, _, hstat⟩ := h.run hr
    refine ⟨⟨by rw [c2, c3], ?_, c1, ?_⟩, ?_⟩
    · intro hr2
      rcases begin_cases env s with ⟨hc, hb⟩ | ⟨hc, hb⟩
      · rw [hrun2, hb] at hr2; cases hr2
      · refine ⟨?_, ?_, ?_⟩
        · intro j hj2; rw [c3] at hj2
          by_cases hjk : j = s.k
          · rw [hjk]; exact hc
          · exact hj j (by omega)
        · rw [c4, hc]; simp
        · rw [hst2, hb]; exact hstat
    · intro hr2
      rcases begin_cases env s with ⟨hc, hb⟩ | ⟨hc, hb⟩
      · right; exact ⟨by rw [hst2, hb]; exact hstat, c4.2 hc⟩
      · rw [hrun2, hb] at hr2
        simp only at hr2
        rw [hr] at hr2; cases hr2
    · intro hno
      rcases begin_cases env s with ⟨hc, hb⟩ | ⟨hc, hb⟩
      · exact absurd (c4.2 hc) hno
      · rw [hrun2, hb]; exact hr
  cases hst with
  | cont _ hin => exact (key _ (phase_input hin)).1
  | full s1 s2 _ hin hs he =>
    obtain ⟨hcan, _⟩ := key s2 ((phase_input hin).trans (phase_surf hs))
    cases he with
    | go _ => exact hcan
    | gapEnd h1 _ _ =>
      have hin1 : Inside ([.gapDone] : List Event) := by simp [Inside]
      obtain ⟨a, b, c, d⟩ := hcan
      refine ⟨?_, ?_, ⟨?_, ?_, ?_⟩, ?_⟩
      · show iterations (s2.trace ++ _) = _; rw [iterations_append, a]; rfl
      · intro hr2; obtain ⟨b1, b2, b3⟩ := b hr2
        exact ⟨b1, by simpa using b2, b3⟩
      · intro j hj; simp only [iterations_append, iterations_inside hin1, Nat.add_zero] at hj; exact c.first j hj
      · simp only [iterations_append, iterations_inside hin1, Nat.add_zero]
        rw [← c.seen]; simp
      · intro x y hs
        rcases split_append hs with ⟨c', rfl, h3⟩ | ⟨a', rfl, h3⟩
        · obtain ⟨d1, d2, d3⟩ := c.after x c' h3
          refine ⟨by rw [iterations_append, d1]; rfl, by rw [readCount_append]; simpa [readCount] using d2, by simpa using d3⟩
        · exfalso; rcases a' with _ | ⟨z, a'⟩ <;> simp at h3
      · intro hr2
        rcases d hr2 with ⟨d1, d2⟩ | ⟨d1, d2⟩
        · exact Or.inl ⟨d1, d2⟩
        · exact Or.inr ⟨d1, by simp [d2]⟩
    | stop h1 _ =>
      obtain ⟨a, b, c, d⟩ := hcan
      exact ⟨a, by simp, c, fun _ => Or.inl ⟨rfl, h1⟩⟩

theorem can_start (env : Env R) (surfaces : List (Beams.Surf (Pk R))) (packets : List (Pk R × Bool))
    (items : List (Item R)) : Can env (start surfaces packets items) := by
  refine ⟨rfl, ?_, ⟨?_, ?_, ?_⟩, ?_⟩ <;> simp [start, iterations]

/-! ## The gap monitor -/

theorem gapsOf_append (a b : List Event) : gapsOf (a ++ b) = b.foldl gapStep (gapsOf a) := by
  unfold gapsOf; rw [List.foldl_append]

/-- Events that do not concern the gap monitor. -/
def NoSub (t : List Event) : Prop := ∀ e ∈ t, (∀ g k, e ≠ .gapStart g k) ∧ e ≠ .gapProgress

theorem gapsOf_quiet (a b : List Event) (h : NoSub b) : gapsOf (a ++ b) = gapsOf a := by
  rw [gapsOf_append]
  generalize gapsOf a = acc
  induction b with
  | nil => rfl
  | cons e b ih =>
    have he := h e (by simp)
    have hb : NoSub b := fun x hx => h x (by simp [hx])
    rw [List.foldl_cons]
    have : gapStep acc e = acc := by
      cases e with
      | gapStart g k => exact absurd rfl (he.1 g k)
      | gapProgress => exact absurd rfl he.2
      | _ => rfl
    rw [this]
    exact ih hb

/-- Invariant about the gap monitor; `d` is 1 between iterations, 0 before the surface phase. -/
structure Mon (d : Nat) (s : St R) : Prop where
  all : ∀ x ∈ gapsOf s.trace, x.2 < x.1
  now : s.gapProcessing = true → ∃ t k acc, gapsOf s.trace = (t, k) :: acc ∧
    k + s.surfaces.length + d = t

theorem Mon.quiet {d : Nat} {s s' : St R} (h : Mon d s) (t : List Event) (ht : NoSub t)
    (htr : s'.trace = s.trace ++ t) (hs : s'.surfaces.length = s.surfaces.length)
    (hg : s'.gapProcessing = s.gapProcessing) : Mon d s' := by
  obtain ⟨a, b⟩ := h
  refine ⟨?_, ?_⟩
  · rw [htr, gapsOf_quiet _ _ ht]; exact a
  · rw [htr, gapsOf_quiet _ _ ht, hs, hg]; exact b

/-- Without gap processing. -/
theorem Mon.free {d d' : Nat} {s s' : St R} (h : Mon d s) (t : List Event) (ht : NoSub t)
    (htr : s'.trace = s.trace ++ t) (hg : s'.gapProcessing = false) : Mon d' s' := by
  obtain ⟨a, b⟩ := h
  refine ⟨?_, ?_⟩
  · rw [htr, gapsOf_quiet _ _ ht]; exact a
  · intro h; rw [hg] at h; cases h

theorem mon_begin {env : Env R} {s : St R} (h : Mon 1 s) : Mon 1 (beginIteration env s) := by
  rcases begin_cases env s with ⟨_, hb⟩ | ⟨_, hb⟩
  · rw [hb]; exact h.quiet _ (by simp [NoSub]) rfl rfl rfl
  · rw [hb]; exact h.quiet _ (by simp [NoSub]) rfl rfl rfl

theorem mon_read {d : Nat} {s s' : St R} (h : Mon d s) (hr : ReadRel s s') : Mon d s' := by
  cases hr with
  | resumed _ => exact h
  | atEnd _ _ _ => exact h.quiet [.endOfInput] (by simp [NoSub]) rfl rfl rfl
  | invalid _ _ _ => exact h.quiet [.read none, .progress] (by simp [NoSub]) rfl rfl rfl
  | record _ p _ _ => exact h.quiet [.read (some p.counter), .progress] (by simp [NoSub]) rfl rfl rfl

theorem mon_input {env : Env R} {s s' : St R} {b : Bool} (hc : Ctl s) (h : Mon 1 s)
    (hr : InputRel env s b s') : if b = true then Mon 1 s' else Mon 0 s' := by
  cases hr with
  | gap hg hs =>
    obtain ⟨t, k, acc, h1, h2⟩ := h.now hg
    have hne := (hc.gap hg).1
    have hlen : 0 < s.surfaces.length := List.length_pos_iff.2 hne
    have e : gapsOf (s.trace ++ [.gapProgress]) = (t, k + 1) :: acc := by
      rw [gapsOf_append, h1]; rfl
    rw [if_neg (by simp)]
    refine ⟨?_, ?_⟩
    · show ∀ x ∈ gapsOf (s.trace ++ [.gapProgress]), x.2 < x.1
      rw [e]
      intro x hx
      rcases List.mem_cons.1 hx with rfl | hx
      · simp; omega
      · exact h.all x (by rw [h1]; simp [hx])
    · intro _
      exact ⟨t, k + 1, acc, e, by show k + 1 + s.surfaces.length + 0 = t; omega⟩
  | gapNoSub hg hs =>
    have := (hc.gap hg).2.1
    rw [hs] at this; cases this
  | noPacket hg s1 hr _ =>
    have h1 := mon_read h hr
    rw [if_neg (by simp)]
    exact h1.free [] (by simp [NoSub]) (by simp) ((read_gap hr).trans hg)
  | packet hg s1 hr p _ _ _ hp =>
    have h1 := mon_read h hr
    have hg1 := (read_gap hr).trans hg
    cases hp with
    | nothing _ _ _ =>
      rw [if_pos rfl]
      exact h1.free [.calibrated p.counter, .accepted p.counter] (by simp [NoSub]) rfl hg1
    | created _ =>
      rw [if_neg (by simp)]
      exact h1.free [.calibrated p.counter, .accepted p.counter, .created s1.count] (by simp [NoSub]) rfl hg1
    | gap t ht _ =>
      have hne : s1.surfaces ≠ [] := by
        cases hr with
        | resumed _ => exact hc.time (by rw [ht]; simp)
        | atEnd _ _ _ => exact hc.time (by simp only [St.log] at ht; rw [ht]; simp)
        | invalid _ _ _ => exact hc.time (by simp only at ht; rw [ht]; simp)
        | record _ _ _ _ => exact hc.time (by simp only at ht; rw [ht]; simp)
      have hlen : 0 < s1.surfaces.length := List.length_pos_iff.2 hne
      rw [if_neg (by simp)]
      have e : gapsOf (s1.trace ++ [.calibrated p.counter, .gapStart p.counter s1.surfaces.length]) =
          (s1.surfaces.length, 0) :: gapsOf s1.trace := by
        rw [gapsOf_append]; rfl
      refine ⟨?_, fun _ => ⟨_, _, _, e, by simp⟩⟩
      show ∀ x ∈ gapsOf (s1.trace ++ [.calibrated p.counter, .gapStart p.counter s1.surfaces.length]), x.2 < x.1
      rw [e]
      intro x hx
      rcases List.mem_cons.1 hx with rfl | hx
      · exact hlen
      · exact h1.all x hx

theorem noSub_beams (new : List (Pk R)) : NoSub (new.map (fun p => Event.beams p.counter)) := by
  intro e he
  obtain ⟨p, _, rfl⟩ := List.mem_map.1 he
  simp

theorem mon_loop {s s1 : St R} {todo : List (Pk R × Bool)} {new : List (Pk R)} {n : Nat} {d : Nat}
    (h : Mon d s) (hl : LoopSpec todo s.begun s1 new n) : Mon d s1 := by
  refine h.quiet _ (noSub_beams new) hl.trace hl.surfaces.length_eq.symm ?_
  rw [hl.frame]; rfl

theorem mon_surf {env : Env R} {s s' : St R} (h : Mon 0 s) (hr : SurfRel env s s') : Mon 1 s' := by
  cases hr with
  | idle hi =>
    push Not at hi
    exact h.free [] (by simp [NoSub]) (by simp) (by simpa using hi.2.2)
  | dropped _ s1 new n loop pk w rest hw few =>
    obtain ⟨a, b⟩ := mon_loop h loop
    refine ⟨?_, ?_⟩
    · show ∀ x ∈ gapsOf (s1.trace ++ [.dropped w.counter (stackIds w)]), x.2 < x.1
      rw [gapsOf_quiet _ _ (by simp [NoSub])]; exact a
    · intro hg
      obtain ⟨t, k, acc, h1, h2⟩ := b hg
      refine ⟨t, k, acc, ?_, ?_⟩
      · show gapsOf (s1.trace ++ [.dropped w.counter (stackIds w)]) = _
        rw [gapsOf_quiet _ _ (by simp [NoSub])]; exact h1
      · show k + rest.length + 1 = t
        rw [hw] at h2; simp at h2; omega
  | written _ s1 new n loop pk w rest hw en pks suf =>
    obtain ⟨a, b⟩ := mon_loop h loop
    have hq : NoSub (Event.l1b w.counter (stackIds w) :: (if env.skipL1bs then [] else [.l1bs w.counter])) := by
      split <;> simp [NoSub]
    refine ⟨?_, ?_⟩
    · show ∀ x ∈ gapsOf (s1.trace ++ _), x.2 < x.1
      rw [gapsOf_quiet _ _ hq]; exact a
    · intro hg
      obtain ⟨t, k, acc, h1, h2⟩ := b hg
      refine ⟨t, k, acc, ?_, ?_⟩
      · show gapsOf (s1.trace ++ _) = _
        rw [gapsOf_quiet _ _ hq]; exact h1
      · show k + rest.length + 1 = t
        rw [hw] at h2; simp at h2; omega

theorem mon_end {s s' : St R} (h : Mon 1 s) (hr : EndRel s s') : Mon 1 s' := by
  cases hr with
  | gapEnd _ _ _ => exact h.free [.gapDone] (by simp [NoSub]) rfl rfl
  | stop _ _ => exact h.quiet [] (by simp [NoSub]) (by simp) rfl rfl
  | go _ => exact h

theorem mon_step {env : Env R} {s s' : St R} (hc : Ctl s) (h : Mon 1 s) (hr : StepRel env s s') :
    Mon 1 s' := by
  have hcb := ctl_begin env s hc
  cases hr with
  | cont _ hin => exact mon_input hcb (mon_begin h) hin
  | full s1 s2 _ hin hs he => exact mon_end (mon_surf (mon_input hcb (mon_begin h) hin) hs) he

theorem mon_stepErr {env : Env R} {s s' : St R} {e : PyErr} (hc : Ctl s) (h : Mon 1 s)
    (hr : StepErr env s e s') : ∀ x ∈ gapsOf s'.trace, x.2 < x.1 := by
  have hcb := ctl_begin env s hc
  have hb := mon_begin (env := env) h
  cases hr with
  | input _ hin =>
    cases hin with
    | read _ _ _ hr =>
      cases hr with
      | insufficient _ _ _ =>
        show ∀ x ∈ gapsOf (_ ++ [.endOfInput]), x.2 < x.1
        rw [gapsOf_quiet _ _ (by simp [NoSub])]; exact hb.all
      | failure _ _ _ _ => exact hb.all
    | packet _ s1 hr p _ _ _ hp =>
      cases hp with
      | cal _ => exact (mon_read hb hr).all
      | location _ _ _ =>
        show ∀ x ∈ gapsOf (s1.trace ++ _), x.2 < x.1
        rw [gapsOf_quiet _ _ (by simp [NoSub])]; exact (mon_read hb hr).all
  | surf s1 _ hin hs =>
    have h1 : Mon 0 s1 := mon_input hcb hb hin
    cases hs with
    | empty _ _ => exact h1.all
    | loop _ _ _ new n loop => exact (mon_loop h1 loop).all
    | writing _ s2 new n loop w rest hw en _ t ht =>
      show ∀ x ∈ gapsOf (s2.trace ++ t), x.2 < x.1
      rw [gapsOf_quiet _ _ (by rcases ht with rfl | ⟨_, rfl⟩ <;> simp [NoSub])]
      exact (mon_loop h1 loop).all
  | noSub s1 s2 hin hs _ _ => 
    have h1 : Mon 0 s1 := mon_input hcb hb hin
    exact (mon_surf h1 hs).all

theorem mon_start (surfaces : List (Beams.Surf (Pk R))) (packets : List (Pk R × Bool))
    (items : List (Item R)) : Mon 1 (start surfaces packets items) := by
  refine ⟨?_, ?_⟩ <;> simp [start, gapsOf]

/-! ## Segments -/

/-- The last `n` surfaces created are those created since the last gap, or since the start. -/
def Recent (t : List Event) (n : Nat) : Prop :=
  ∃ a c, t = a ++ c ∧ (a = [] ∨ ∃ a', a = a' ++ [.gapDone]) ∧ NoGap c ∧ .gapDone ∉ c ∧
    (createdOf c).length = n

theorem Recent.ext {t t' : List Event} {n : Nat} (h : Recent t n) (h1 : NoGap t') (h2 : .gapDone ∉ t') :
    Recent (t ++ t') (n + (createdOf t').length) := by
  obtain ⟨a, c, rfl, h3, h4, h5, h6⟩ := h
  refine ⟨a, c ++ t', by simp, h3, ?_, ?_, ?_⟩
  · intro g k hm
    rcases List.mem_append.1 hm with hm | hm
    · exact h4 g k hm
    · exact h1 g k hm
  · simp only [List.mem_append, not_or]; exact ⟨h5, h2⟩
  · rw [createdOf_append, List.length_append, h6]

/-- Invariant at the start of an iteration: before surface processing starts the queue holds the
surfaces created since the last gap. -/
structure Fre (items : List (Item R)) (s : St R) : Prop where
  rest : s.rest <:+ items
  recent : s.surfaceProcessing = false → Recent s.trace s.surfaces.length ∧ s.surfaces.length < minSurfs

/-- The same after the input phase. -/
structure Fre1 (items : List (Item R)) (s : St R) : Prop where
  rest : s.rest <:+ items
  recent : s.surfaceProcessing = false → s.gapProcessing = false → Recent s.trace s.surfaces.length

theorem fre_begin {items : List (Item R)} {env : Env R} {s : St R} (h : Fre items s) :
    Fre items (beginIteration env s) := by
  obtain ⟨h1, h2⟩ := h
  rcases begin_cases env s with ⟨_, hb⟩ | ⟨_, hb⟩ <;> rw [hb] <;> refine ⟨h1, fun hp => ?_⟩
  · exact ⟨(h2 hp).1.ext (t' := [.iteration, .cancelSeen]) (by simp [NoGap]) (by simp), (h2 hp).2⟩
  · exact ⟨(h2 hp).1.ext (t' := [.iteration]) (by simp [NoGap]) (by simp), (h2 hp).2⟩

theorem fre_read {items : List (Item R)} {s s' : St R} (h : Fre items s) (hr : ReadRel s s') :
    Fre items s' := by
  obtain ⟨h1, h2⟩ := h
  cases hr with
  | resumed _ => exact ⟨h1, h2⟩
  | atEnd _ _ _ =>
    refine ⟨h1, fun hp => ⟨?_, (h2 hp).2⟩⟩
    exact (h2 hp).1.ext (t' := [.endOfInput]) (by simp [NoGap]) (by simp)
  | invalid _ rest hr =>
    refine ⟨(List.suffix_cons _ _).trans (hr ▸ h1), fun hp => ⟨?_, (h2 hp).2⟩⟩
    exact (h2 hp).1.ext (t' := [.read none, .progress]) (by simp [NoGap]) (by simp)
  | record _ p rest hr =>
    refine ⟨(List.suffix_cons _ _).trans (hr ▸ h1), fun hp => ⟨?_, (h2 hp).2⟩⟩
    exact (h2 hp).1.ext (t' := [.read (some p.counter), .progress]) (by simp [NoGap]) (by simp)

theorem fre_input {items : List (Item R)} {env : Env R} {s s' : St R} {b : Bool} (hc : Ctl s)
    (h : Fre items s) (hr : InputRel env s b s') : if b = true then Fre items s' else Fre1 items s' := by
  cases hr with
  | gap hg _ =>
    rw [if_neg (by simp)]
    refine ⟨h.rest, fun hp => ?_⟩
    have := (hc.gap hg).2.2.2.2.2
    have hp : s.surfaceProcessing = false := hp
    rw [hp] at this; cases this
  | gapNoSub hg hs =>
    have := (hc.gap hg).2.1
    rw [hs] at this; cases this
  | noPacket hg s1 hr _ =>
    rw [if_neg (by simp)]
    have h1 := fre_read h hr
    exact ⟨h1.rest, fun hp _ => (h1.recent hp).1⟩
  | packet hg s1 hr p _ _ _ hp =>
    have h1 := fre_read h hr
    cases hp with
    | nothing _ _ _ =>
      rw [if_pos rfl]
      refine ⟨h1.rest, fun hp => ⟨?_, (h1.recent hp).2⟩⟩
      exact (h1.recent hp).1.ext (t' := [.calibrated p.counter, .accepted p.counter]) (by simp [NoGap]) (by simp)
    | created _ =>
      rw [if_neg (by simp)]
      refine ⟨h1.rest, fun hp _ => ?_⟩
      have := (h1.recent hp).1.ext
        (t' := [.calibrated p.counter, .accepted p.counter, .created s1.count]) (by simp [NoGap]) (by simp)
      simpa [createdOf] using this
    | gap t _ _ =>
      rw [if_neg (by simp)]
      exact ⟨h1.rest, fun _ hg => by simp at hg⟩

theorem fre_surf {items : List (Item R)} {env : Env R} {s s' : St R} (h : Fre1 items s)
    (hr : SurfRel env s s') : Fre items s' := by
  obtain ⟨h1, h2⟩ := h
  have hc := surf_ctl env s s' hr
  refine ⟨by rw [hc.2.2.2.2.2.1]; exact h1, fun hp => ?_⟩
  cases hr with
  | idle hi =>
    push Not at hi
    exact ⟨h2 (by simpa using hi.1) (by simpa using hi.2.2), hi.2.1⟩
  | dropped _ s1 new n loop pk w rest hw few =>
    exfalso
    have : s1.surfaceProcessing = false := hp
    rw [loop.frame] at this; cases this
  | written _ s1 new n loop pk w rest hw en pks suf =>
    exfalso
    have : s1.surfaceProcessing = false := hp
    rw [loop.frame] at this; cases this

theorem fre_end {items : List (Item R)} {s s' : St R} (h : Fre items s) (hr : EndRel s s') :
    Fre items s' := by
  obtain ⟨h1, h2⟩ := h
  cases hr with
  | gapEnd hs _ _ =>
    refine ⟨h1, fun _ => ⟨⟨s.trace ++ [.gapDone], [], by simp, Or.inr ⟨_, rfl⟩, by simp [NoGap], by simp, ?_⟩, ?_⟩⟩
    · show (createdOf []).length = s.surfaces.length
      rw [hs]; rfl
    · show s.surfaces.length < _
      rw [hs]; simp [minSurfs]
  | stop _ _ => exact ⟨h1, h2⟩
  | go _ => exact ⟨h1, h2⟩

theorem fre_step {items : List (Item R)} {env : Env R} {s s' : St R} (hc : Ctl s) (h : Fre items s)
    (hr : StepRel env s s') : Fre items s' := by
  have hcb := ctl_begin env s hc
  cases hr with
  | cont _ hin => exact fre_input hcb (fre_begin h) hin
  | full s1 s2 _ hin hs he =>
    exact fre_end (fre_surf (fre_input hcb (fre_begin h) hin) hs) he

/-- The ways an iteration can raise. -/
theorem fre_stepErr {items : List (Item R)} {env : Env R} {s s' : St R} {e : PyErr} (hc : Ctl s)
    (h : Fre items s) (hr : StepErr env s e s') :
    Raises env e ∨ .failure e ∈ items ∨ (e = .indexError ∧ env.nLooks < 2) ∨
    (e = .other "insufficient input records" ∧ ∃ n < minSurfs, Recent s'.trace n ∧ s'.rest = []) := by
  have hcb := ctl_begin env s hc
  have hb := fre_begin (env := env) h
  cases hr with
  | input _ hin =>
    cases hin with
    | read hg _ _ hr =>
      cases hr with
      | insufficient _ hrest hp =>
        right; right; right
        obtain ⟨h1, h2⟩ := hb.recent hp
        exact ⟨rfl, _, h2, h1.ext (t' := [.endOfInput]) (by simp [NoGap]) (by simp), hrest⟩
      | failure _ _ rest hrest =>
        right; left
        exact hb.rest.subset (by rw [hrest]; simp)
    | packet _ s1 hr p _ _ _ hp =>
      left
      cases hp with
      | cal h => exact Or.inl ⟨_, _, h⟩
      | location he _ _ => exact he
  | surf s1 _ hin hs =>
    have c1 := ((input_ctl env _ hcb false s1 hin).2 rfl).1
    cases hs with
    | empty h0 he =>
      exfalso
      rcases h0 with h0 | h0 | h0
      · exact c1.surf h0 he
      · rw [he] at h0; simp [minSurfs] at h0
      · exact (c1.gap h0).1 he
    | loop _ he _ _ _ _ => exact Or.inl he
    | writing _ s2 new n loop w rest hw en he t ht =>
      rcases he with he | ⟨rfl, hbu⟩
      · exact Or.inl he
      · right; right; left
        refine ⟨rfl, ?_⟩
        rw [hbu] at en
        simp at en
        omega
  | noSub s1 s2 hin hs hg hsub =>
    exfalso
    have c1 := ((input_ctl env _ hcb false s1 hin).2 rfl).1
    have c2 := surf_ctl env s1 s2 hs
    rw [c2.1] at hg
    have := (c1.gap hg).2.1
    rw [← c2.2.2.1, hsub] at this
    cases this

theorem fre_start (packets : List (Pk R × Bool)) (items : List (Item R)) :
    Fre items (start [] packets items) := by
  refine ⟨List.suffix_refl _, fun _ => ⟨⟨[], [], rfl, Or.inl rfl, by simp [NoGap], by simp, rfl⟩, ?_⟩⟩
  simp [start, minSurfs]

end Dedop.Process
