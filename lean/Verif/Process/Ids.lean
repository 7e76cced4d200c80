import Verif.Process.Order

/-! # Records, bursts and progress (lemmas) -/
namespace Dedop.Process

variable {R : Type} [Field R] [LinearOrder R]

theorem readOf_append (a b : List Event) : readOf (a ++ b) = readOf a ++ readOf b := List.filterMap_append
theorem acceptedOf_append (a b : List Event) : acceptedOf (a ++ b) = acceptedOf a ++ acceptedOf b :=
  List.filterMap_append
theorem calibratedOf_append (a b : List Event) : calibratedOf (a ++ b) = calibratedOf a ++ calibratedOf b :=
  List.filterMap_append
theorem gapOf_append (a b : List Event) : gapOf (a ++ b) = gapOf a ++ gapOf b := List.filterMap_append
theorem beamsOf_append (a b : List Event) : beamsOf (a ++ b) = beamsOf a ++ beamsOf b :=
  List.filterMap_append
theorem readCount_append (a b : List Event) : readCount (a ++ b) = readCount a + readCount b :=
  List.countP_append
theorem progressCount_append (a b : List Event) :
    progressCount (a ++ b) = progressCount a + progressCount b := List.countP_append

/-- Facts about a trace alone, for a stream with the given ids. -/
structure TraceOk (ids : List Nat) (t : List Event) : Prop where
  read : readOf t <+: ids
  pend : readOf t = acceptedOf t ∨ ∃ p, readOf t = acceptedOf t ++ [p]
  cal : ∀ id, (calibratedOf t).count id = (acceptedOf t).count id + (gapOf t).count id
  gap : (gapOf t).Sublist (readOf t)
  prog : progressCount t = readCount t
  beams : (beamsOf t).Sublist (acceptedOf t)

/-- The record found after the gap being processed. -/
def pending (s : St R) : List Nat :=
  if s.gapProcessing ∨ s.gapResume then (s.input.map (·.counter)).toList else []

/-- Bursts in the queue not yet processed. -/
def unprocessed (s : St R) : List Nat := (s.packets.filter (fun x => !x.2)).map (·.1.counter)

/-- Invariant about records and bursts. -/
structure Ids (ids : List Nat) (s : St R) : Prop where
  all : readOf s.trace ++ itemIds s.rest = ids
  pend : readOf s.trace = acceptedOf s.trace ++ pending s
  cal : ∀ id, (calibratedOf s.trace).count id = (acceptedOf s.trace).count id + (gapOf s.trace).count id
  gap : (gapOf s.trace).Sublist (readOf s.trace)
  prog : progressCount s.trace = readCount s.trace
  beams : (beamsOf s.trace ++ unprocessed s).Sublist (acceptedOf s.trace)

theorem pending_length (s : St R) : pending s = [] ∨ ∃ p, pending s = [p] := by
  unfold pending
  split
  · cases s.input with
    | none => left; rfl
    | some p => right; exact ⟨p.counter, rfl⟩
  · left; rfl

theorem Ids.ok {ids : List Nat} {s : St R} (h : Ids ids s) : TraceOk ids s.trace := by
  refine ⟨⟨_, h.all⟩, ?_, h.cal, h.gap, h.prog, ?_⟩
  · rcases pending_length s with hp | ⟨p, hp⟩
    · left; rw [h.pend, hp]; simp
    · right; exact ⟨p, by rw [h.pend, hp]⟩
  · exact (List.sublist_append_left _ _).trans h.beams

/-- Events that say nothing about records and bursts. -/
def Event.quiet : Event → Prop
  | .read _ | .progress | .calibrated _ | .accepted _ | .gapStart _ _ | .beams _ => False
  | _ => True

theorem quiet_proj (t : List Event) (h : ∀ e ∈ t, e.quiet) :
    readOf t = [] ∧ acceptedOf t = [] ∧ calibratedOf t = [] ∧ gapOf t = [] ∧ beamsOf t = [] ∧
    readCount t = 0 ∧ progressCount t = 0 := by
  induction t with
  | nil => simp [readOf, acceptedOf, calibratedOf, gapOf, beamsOf, readCount, progressCount]
  | cons e t ih =>
    obtain ⟨h1, h2, h3, h4, h5, h6, h7⟩ := ih (fun e he => h e (by simp [he]))
    have he := h e (by simp)
    unfold readOf acceptedOf calibratedOf gapOf beamsOf readCount progressCount at *
    cases e <;> simp_all [Event.quiet]

theorem Ids.quiet {ids : List Nat} {s s' : St R} (h : Ids ids s) (t : List Event)
    (ht : ∀ e ∈ t, e.quiet) (h1 : s'.trace = s.trace ++ t) (h2 : itemIds s'.rest = itemIds s.rest)
    (h3 : pending s' = pending s) (h4 : (unprocessed s').Sublist (unprocessed s)) : Ids ids s' := by
  obtain ⟨n1, n2, n3, n4, n5, n6, n7⟩ := quiet_proj t ht
  obtain ⟨a, b, c, d, e, f⟩ := h
  refine ⟨?_, ?_, ?_, ?_, ?_, ?_⟩
  · rw [h1, readOf_append, n1, h2]; simpa using a
  · rw [h1, readOf_append, acceptedOf_append, n1, n2, h3]; simpa using b
  · intro id; rw [h1, calibratedOf_append, acceptedOf_append, gapOf_append, n2, n3, n4]; simpa using c id
  · rw [h1, gapOf_append, readOf_append, n1, n4]; simpa using d
  · rw [h1, progressCount_append, readCount_append, n6, n7, e]
  · rw [h1, beamsOf_append, acceptedOf_append, n2, n5]
    simp only [List.append_nil]
    exact (List.Sublist.append_left h4 _).trans f

theorem ids_begin {ids : List Nat} {env : Env R} {s : St R} (h : Ids ids s) :
    Ids ids (beginIteration env s) := by
  unfold beginIteration
  simp only [St.log]
  split
  · exact h.quiet [.iteration, .cancelSeen] (by simp [Event.quiet]) (by simp) rfl rfl (List.Sublist.refl _)
  · exact h.quiet [.iteration] (by simp [Event.quiet]) rfl rfl rfl (List.Sublist.refl _)

theorem ids_loop {ids : List Nat} {s s1 : St R} {new : List (Pk R)} {n : Nat} (h : Ids ids s)
    (hl : LoopSpec s.packets s.begun s1 new n)
    (pk : s1.packets = (s.packets.take n).map (fun x => (x.1, true)) ++ s.packets.drop n) :
    Ids ids s1 := by
  have hbeams : new.map (·.counter) = ((s.packets.take n).filter (fun x => !x.2)).map (·.1.counter) := by
    rw [← hl.new]; simp
  have htr : s1.trace = s.trace ++ new.map (fun p => Event.beams p.counter) := hl.trace
  have hproj : beamsOf (new.map (fun p => Event.beams p.counter)) = new.map (·.counter) := by
    unfold beamsOf; rw [List.filterMap_map]; simp [Function.comp_def]
  have hz : ∀ (f : Event → Option Nat), (∀ n, f (.beams n) = none) →
      (new.map (fun p => Event.beams p.counter)).filterMap f = [] := by
    intro f hf; rw [List.filterMap_map]; simp [Function.comp_def, hf]
  have z1 : readOf (new.map (fun p => Event.beams p.counter)) = [] := hz _ (fun _ => rfl)
  have z2 : acceptedOf (new.map (fun p => Event.beams p.counter)) = [] := hz _ (fun _ => rfl)
  have z3 : calibratedOf (new.map (fun p => Event.beams p.counter)) = [] := hz _ (fun _ => rfl)
  have z4 : gapOf (new.map (fun p => Event.beams p.counter)) = [] := hz _ (fun _ => rfl)
  have z5 : readCount (new.map (fun p => Event.beams p.counter)) = 0 := by
    unfold readCount; rw [List.countP_map]; simp [Function.comp_def]
  have z6 : progressCount (new.map (fun p => Event.beams p.counter)) = 0 := by
    unfold progressCount; rw [List.countP_map]; simp [Function.comp_def]
  have hun : new.map (·.counter) ++ unprocessed s1 = unprocessed s := by
    unfold unprocessed
    rw [hbeams, pk]
    conv => rhs; rw [← List.take_append_drop n s.packets]
    rw [List.filter_append, List.filter_append, List.map_append, List.map_append]
    have hz : ((s.packets.take n).map (fun x => (x.1, true))).filter (fun x => !x.2) = [] := by
      rw [List.filter_eq_nil_iff]
      intro x hx
      obtain ⟨y, _, rfl⟩ := List.mem_map.1 hx
      simp
    rw [hz]; simp
  have hpend : pending s1 = pending s := by rw [hl.frame]; rfl
  have hrest : s1.rest = s.rest := by rw [hl.frame]; rfl
  obtain ⟨a, b, c, d, e, f⟩ := h
  refine ⟨?_, ?_, ?_, ?_, ?_, ?_⟩
  · rw [htr, readOf_append, z1, hrest]; simpa using a
  · rw [htr, readOf_append, acceptedOf_append, z1, z2, hpend]; simpa using b
  · intro id; rw [htr, calibratedOf_append, acceptedOf_append, gapOf_append, z2, z3, z4]; simpa using c id
  · rw [htr, gapOf_append, readOf_append, z1, z4]; simpa using d
  · rw [htr, progressCount_append, readCount_append, z5, z6, e]
  · rw [htr, beamsOf_append, acceptedOf_append, hproj, z2, List.append_nil, List.append_assoc, hun]
    exact f

theorem ids_loop_ok {ids : List Nat} {s s1 : St R} {new : List (Pk R)} {n : Nat} (h : Ids ids s)
    (hl : LoopSpec s.packets s.begun s1 new n) : TraceOk ids s1.trace := by
  have h2 : LoopSpec s.packets s.begun
      { s1 with packets := (s.packets.take n).map (fun x => (x.1, true)) ++ s.packets.drop n } new n := by
    obtain ⟨a, b, c, d⟩ := hl
    refine ⟨a, b, c, ?_⟩
    rw [d]
  exact (ids_loop h h2 rfl).ok

theorem ids_surf {ids : List Nat} {env : Env R} {s s' : St R} (h : Ids ids s) (hr : SurfRel env s s') :
    Ids ids s' := by
  cases hr with
  | idle _ => exact h
  | dropped _ s1 new n loop pk w rest hw few =>
    exact (ids_loop h loop pk).quiet [.dropped w.counter (stackIds w)] (by simp [Event.quiet]) rfl rfl rfl
      (List.Sublist.refl _)
  | written _ s1 new n loop pk w rest hw en pks suf =>
    refine (ids_loop h loop pk).quiet
      (.l1b w.counter (stackIds w) :: (if env.skipL1bs then [] else [.l1bs w.counter])) ?_ rfl rfl rfl ?_
    · intro e he
      split at he <;> simp at he
      · subst he; simp [Event.quiet]
      · rcases he with rfl | rfl <;> simp [Event.quiet]
    · unfold unprocessed
      exact ((suf.sublist.filter _).map _)

theorem ids_end {ids : List Nat} {s s' : St R} (h : Ids ids s) (hr : EndRel s s') : Ids ids s' := by
  cases hr with
  | gapEnd _ hg _ =>
    refine h.quiet [.gapDone] (by simp [Event.quiet]) rfl rfl ?_ (List.Sublist.refl _)
    simp [pending, hg]
  | stop _ _ => exact h.quiet [] (by simp) (by simp) rfl rfl (List.Sublist.refl _)
  | go _ => exact h

theorem itemIds_record (p : Pk R) (rest : List (Item R)) :
    itemIds (.record p :: rest) = p.counter :: itemIds rest := rfl
theorem itemIds_invalid (rest : List (Item R)) : itemIds (.invalid :: rest) = itemIds rest := rfl
theorem itemIds_failure (e : PyErr) (rest : List (Item R)) :
    itemIds (.failure e :: rest) = itemIds rest := rfl

theorem ids_input {ids : List Nat} {env : Env R} {s s' : St R} {b : Bool} (hc : Ctl s) (h : Ids ids s)
    (hr : InputRel env s b s') : Ids ids s' := by
  cases hr with
  | gap _ _ => exact h.quiet [.gapProgress] (by simp [Event.quiet]) rfl rfl rfl (List.Sublist.refl _)
  | gapNoSub _ _ => exact h
  | noPacket hg s1 hr hi =>
    cases hr with
    | resumed hres => exact absurd hi (hc.resume hres).2.2.2
    | atEnd hres hrest hp =>
      refine h.quiet [.endOfInput] (by simp [Event.quiet]) rfl rfl ?_ (List.Sublist.refl _)
      simp [pending, St.log, hg, hres]
    | invalid hres rest hrest =>
      obtain ⟨a, b, c, d, e, f⟩ := h
      have hp : pending s = [] := by simp [pending, hg, hres]
      rw [hp] at b
      refine ⟨?_, ?_, ?_, ?_, ?_, ?_⟩
      · show readOf (s.trace ++ _) ++ itemIds rest = ids
        rw [readOf_append, ← itemIds_invalid, ← hrest, ← a]; simp [readOf]
      · show readOf (s.trace ++ _) = acceptedOf (s.trace ++ _) ++ _
        rw [readOf_append, acceptedOf_append, b]; simp [readOf, acceptedOf, pending, hg, hres]
      · intro id
        show (calibratedOf (s.trace ++ _)).count id = (acceptedOf (s.trace ++ _)).count id + (gapOf (s.trace ++ _)).count id
        rw [calibratedOf_append, acceptedOf_append, gapOf_append]
        simpa [calibratedOf, acceptedOf, gapOf] using c id
      · show (gapOf (s.trace ++ _)).Sublist (readOf (s.trace ++ _))
        rw [gapOf_append, readOf_append]; simpa [gapOf, readOf] using d
      · show progressCount (s.trace ++ _) = readCount (s.trace ++ _)
        rw [progressCount_append, readCount_append, e]; simp [progressCount, readCount]
      · show (beamsOf (s.trace ++ _) ++ unprocessed s).Sublist (acceptedOf (s.trace ++ _))
        rw [beamsOf_append, acceptedOf_append]; simpa [beamsOf, acceptedOf] using f
    | record hres p rest hrest => simp at hi
  | packet hg s1 hr p hi b s2 hp =>
    cases hr with
    | atEnd hres hrest hp => simp [St.log] at hi
    | invalid hres rest hrest => simp at hi
    | resumed hres =>
      obtain ⟨_, _, hpt, _⟩ := hc.resume hres
      obtain ⟨a, b, c, d, e, f⟩ := h
      have hpd : pending s = [p.counter] := by simp [pending, hres, hi]
      rw [hpd] at b
      cases hp with
      | nothing _ _ hres' => rw [hres] at hres'; cases hres'
      | gap t ht _ => rw [hpt] at ht; cases ht
      | created _ =>
        refine ⟨?_, ?_, ?_, ?_, ?_, ?_⟩
        · show readOf (s.trace ++ _) ++ itemIds s.rest = ids
          rw [readOf_append, ← a]; simp [readOf]
        · show readOf (s.trace ++ _) = acceptedOf (s.trace ++ _) ++ _
          rw [readOf_append, acceptedOf_append, b]; simp [readOf, acceptedOf, pending, hg]
        · intro id
          show (calibratedOf (s.trace ++ _)).count id = (acceptedOf (s.trace ++ _)).count id + (gapOf (s.trace ++ _)).count id
          rw [calibratedOf_append, acceptedOf_append, gapOf_append, List.count_append, List.count_append,
            List.count_append, c id]
          simp [calibratedOf, acceptedOf, gapOf]; omega
        · show (gapOf (s.trace ++ _)).Sublist (readOf (s.trace ++ _))
          rw [gapOf_append, readOf_append]; simpa [gapOf, readOf] using d
        · show progressCount (s.trace ++ _) = readCount (s.trace ++ _)
          rw [progressCount_append, readCount_append, e]; simp [progressCount, readCount]
        · show (beamsOf (s.trace ++ _) ++ (List.map _ (List.filter _ (s.packets ++ [(p, false)])))).Sublist (acceptedOf (s.trace ++ _))
          rw [beamsOf_append, acceptedOf_append, List.filter_append, List.map_append, ← List.append_assoc]
          refine List.Sublist.append ?_ (by simp [acceptedOf])
          simpa [beamsOf, unprocessed] using f
    | record hres q rest hrest =>
      have hq : q = p := by simpa using hi
      subst hq
      obtain ⟨a, b, c, d, e, f⟩ := h
      have hpd : pending s = [] := by simp [pending, hg, hres]
      rw [hpd, List.append_nil] at b
      rw [hrest, itemIds_record] at a
      cases hp with
      | nothing _ _ _ =>
        refine ⟨?_, ?_, ?_, ?_, ?_, ?_⟩
        · show readOf (s.trace ++ _ ++ _) ++ itemIds rest = ids
          rw [readOf_append, readOf_append, ← a]; simp [readOf]
        · show readOf (s.trace ++ _ ++ _) = acceptedOf (s.trace ++ _ ++ _) ++ _
          rw [readOf_append, readOf_append, acceptedOf_append, acceptedOf_append, b]
          simp [readOf, acceptedOf, pending, hg, hres]
        · intro id
          show (calibratedOf (s.trace ++ _ ++ _)).count id = (acceptedOf (s.trace ++ _ ++ _)).count id + (gapOf (s.trace ++ _ ++ _)).count id
          simp only [calibratedOf_append, acceptedOf_append, gapOf_append, List.count_append, c id]
          simp [calibratedOf, acceptedOf, gapOf]; omega
        · show (gapOf (s.trace ++ _ ++ _)).Sublist (readOf (s.trace ++ _ ++ _))
          simp only [gapOf_append, readOf_append]
          simpa [gapOf, readOf] using d.trans (List.sublist_append_left _ [q.counter])
        · show progressCount (s.trace ++ _ ++ _) = readCount (s.trace ++ _ ++ _)
          simp only [progressCount_append, readCount_append, e]; simp [progressCount, readCount]
        · show (beamsOf (s.trace ++ _ ++ _) ++ (List.map _ (List.filter _ (s.packets ++ [(q, false)])))).Sublist (acceptedOf (s.trace ++ _ ++ _))
          simp only [beamsOf_append, acceptedOf_append]
          rw [List.filter_append, List.map_append, ← List.append_assoc]
          refine List.Sublist.append ?_ (by simp [acceptedOf])
          simpa [beamsOf, acceptedOf, unprocessed] using f
      | created _ =>
        refine ⟨?_, ?_, ?_, ?_, ?_, ?_⟩
        · show readOf (s.trace ++ _ ++ _) ++ itemIds rest = ids
          rw [readOf_append, readOf_append, ← a]; simp [readOf]
        · show readOf (s.trace ++ _ ++ _) = acceptedOf (s.trace ++ _ ++ _) ++ _
          rw [readOf_append, readOf_append, acceptedOf_append, acceptedOf_append, b]
          simp [readOf, acceptedOf, pending, hg]
        · intro id
          show (calibratedOf (s.trace ++ _ ++ _)).count id = (acceptedOf (s.trace ++ _ ++ _)).count id + (gapOf (s.trace ++ _ ++ _)).count id
          simp only [calibratedOf_append, acceptedOf_append, gapOf_append, List.count_append, c id]
          simp [calibratedOf, acceptedOf, gapOf]; omega
        · show (gapOf (s.trace ++ _ ++ _)).Sublist (readOf (s.trace ++ _ ++ _))
          simp only [gapOf_append, readOf_append]
          simpa [gapOf, readOf] using d.trans (List.sublist_append_left _ [q.counter])
        · show progressCount (s.trace ++ _ ++ _) = readCount (s.trace ++ _ ++ _)
          simp only [progressCount_append, readCount_append, e]; simp [progressCount, readCount]
        · show (beamsOf (s.trace ++ _ ++ _) ++ (List.map _ (List.filter _ (s.packets ++ [(q, false)])))).Sublist (acceptedOf (s.trace ++ _ ++ _))
          simp only [beamsOf_append, acceptedOf_append]
          rw [List.filter_append, List.map_append, ← List.append_assoc]
          refine List.Sublist.append ?_ (by simp [acceptedOf])
          simpa [beamsOf, acceptedOf, unprocessed] using f
      | gap t _ _ =>
        refine ⟨?_, ?_, ?_, ?_, ?_, ?_⟩
        · show readOf (s.trace ++ _ ++ _) ++ itemIds rest = ids
          rw [readOf_append, readOf_append, ← a]; simp [readOf]
        · show readOf (s.trace ++ _ ++ _) = acceptedOf (s.trace ++ _ ++ _) ++ _
          rw [readOf_append, readOf_append, acceptedOf_append, acceptedOf_append, b]
          simp [readOf, acceptedOf, pending]
        · intro id
          show (calibratedOf (s.trace ++ _ ++ _)).count id = (acceptedOf (s.trace ++ _ ++ _)).count id + (gapOf (s.trace ++ _ ++ _)).count id
          simp only [calibratedOf_append, acceptedOf_append, gapOf_append, List.count_append, c id]
          simp [calibratedOf, acceptedOf, gapOf]; omega
        · show (gapOf (s.trace ++ _ ++ _)).Sublist (readOf (s.trace ++ _ ++ _))
          simp only [gapOf_append, readOf_append]
          have := d.append (List.Sublist.refl [q.counter])
          simpa [gapOf, readOf] using this
        · show progressCount (s.trace ++ _ ++ _) = readCount (s.trace ++ _ ++ _)
          simp only [progressCount_append, readCount_append, e]; simp [progressCount, readCount]
        · show (beamsOf (s.trace ++ _ ++ _) ++ unprocessed s).Sublist (acceptedOf (s.trace ++ _ ++ _))
          simp only [beamsOf_append, acceptedOf_append]
          simpa [beamsOf, acceptedOf] using f

theorem ids_step {ids : List Nat} {env : Env R} {s s' : St R} (hc : Ctl s) (h : Ids ids s)
    (hr : StepRel env s s') : Ids ids s' := by
  cases hr with
  | cont _ hi => exact ids_input (ctl_begin env s hc) (ids_begin h) hi
  | full s1 s2 _ hi hs he =>
    exact ids_end (ids_surf (ids_input (ctl_begin env s hc) (ids_begin h) hi) hs) he

theorem TraceOk.quiet {ids : List Nat} {t t' : List Event} (h : TraceOk ids t) (ht : ∀ e ∈ t', e.quiet) :
    TraceOk ids (t ++ t') := by
  obtain ⟨n1, n2, n3, n4, n5, n6, n7⟩ := quiet_proj t' ht
  obtain ⟨a, b, c, d, e, f⟩ := h
  refine ⟨?_, ?_, ?_, ?_, ?_, ?_⟩
  · rw [readOf_append, n1]; simpa using a
  · rw [readOf_append, acceptedOf_append, n1, n2]; simpa using b
  · intro id; rw [calibratedOf_append, acceptedOf_append, gapOf_append, n2, n3, n4]; simpa using c id
  · rw [gapOf_append, readOf_append, n1, n4]; simpa using d
  · rw [progressCount_append, readCount_append, n6, n7, e]
  · rw [beamsOf_append, acceptedOf_append, n2, n5]; simpa using f

theorem ids_stepErr {ids : List Nat} {env : Env R} {s s' : St R} {e : PyErr} (hc : Ctl s)
    (h : Ids ids s) (hr : StepErr env s e s') : TraceOk ids s'.trace := by
  have hb := ids_begin (env := env) h
  have hcb := ctl_begin env s hc
  cases hr with
  | input _ hi =>
    cases hi with
    | read hg _ _ hr =>
      cases hr with
      | insufficient _ _ _ => exact hb.ok.quiet (t' := [.endOfInput]) (by simp [Event.quiet])
      | failure _ _ rest _ => exact hb.ok
    | packet hg s1 hr p hi _ _ hp =>
      generalize beginIteration env s = s0 at hb hcb hg hr
      cases hr with
      | atEnd _ _ _ => simp [St.log] at hi
      | invalid _ _ _ => simp at hi
      | resumed hres =>
        cases hp with
        | cal _ => exact hb.ok
        | location _ _ hr => rw [hres] at hr; cases hr
      | record hres q rest hrest =>
        have hq : q = p := by simpa using hi
        subst hq
        cases hp with
        | cal _ =>
          obtain ⟨a, b, c, d, e, f⟩ := hb
          have hpd : pending s0 = [] := by simp [pending, hg, hres]
          rw [hpd, List.append_nil] at b
          rw [hrest, itemIds_record] at a
          have f' := (List.sublist_append_left _ _).trans f
          refine ⟨⟨itemIds rest, ?_⟩, Or.inr ⟨q.counter, ?_⟩, ?_, ?_, ?_, ?_⟩
          · show readOf (s0.trace ++ _) ++ itemIds rest = ids
            rw [readOf_append, ← a]; simp [readOf]
          · show readOf (s0.trace ++ _) = acceptedOf (s0.trace ++ _) ++ _
            rw [readOf_append, acceptedOf_append, b]; simp [readOf, acceptedOf]
          · intro id
            show (calibratedOf (s0.trace ++ _)).count id = (acceptedOf (s0.trace ++ _)).count id + (gapOf (s0.trace ++ _)).count id
            simp only [calibratedOf_append, acceptedOf_append, gapOf_append, List.count_append, c id]
            simp [calibratedOf, acceptedOf, gapOf]
          · show (gapOf (s0.trace ++ _)).Sublist (readOf (s0.trace ++ _))
            simp only [gapOf_append, readOf_append]
            simpa [gapOf, readOf] using d.trans (List.sublist_append_left _ [q.counter])
          · show progressCount (s0.trace ++ _) = readCount (s0.trace ++ _)
            simp only [progressCount_append, readCount_append, e]; simp [progressCount, readCount]
          · show (beamsOf (s0.trace ++ _)).Sublist (acceptedOf (s0.trace ++ _))
            simp only [beamsOf_append, acceptedOf_append]
            simpa [beamsOf, acceptedOf] using f'
        | location _ hs hr =>
          obtain ⟨a, b, c, d, e, f⟩ := hb
          have hpd : pending s0 = [] := by simp [pending, hg, hres]
          rw [hpd, List.append_nil] at b
          rw [hrest, itemIds_record] at a
          have f' := (List.sublist_append_left _ _).trans f
          refine ⟨⟨itemIds rest, ?_⟩, Or.inl ?_, ?_, ?_, ?_, ?_⟩
          · show readOf (s0.trace ++ _ ++ _) ++ itemIds rest = ids
            rw [readOf_append, readOf_append, ← a]; simp [readOf]
          · show readOf (s0.trace ++ _ ++ _) = acceptedOf (s0.trace ++ _ ++ _)
            simp only [readOf_append, acceptedOf_append, b]; simp [readOf, acceptedOf]
          · intro id
            show (calibratedOf (s0.trace ++ _ ++ _)).count id = (acceptedOf (s0.trace ++ _ ++ _)).count id + (gapOf (s0.trace ++ _ ++ _)).count id
            simp only [calibratedOf_append, acceptedOf_append, gapOf_append, List.count_append, c id]
            simp [calibratedOf, acceptedOf, gapOf]; omega
          · show (gapOf (s0.trace ++ _ ++ _)).Sublist (readOf (s0.trace ++ _ ++ _))
            simp only [gapOf_append, readOf_append]
            simpa [gapOf, readOf] using d.trans (List.sublist_append_left _ [q.counter])
          · show progressCount (s0.trace ++ _ ++ _) = readCount (s0.trace ++ _ ++ _)
            simp only [progressCount_append, readCount_append, e]; simp [progressCount, readCount]
          · show (beamsOf (s0.trace ++ _ ++ _)).Sublist (acceptedOf (s0.trace ++ _ ++ _))
            simp only [beamsOf_append, acceptedOf_append]
            simpa [beamsOf, acceptedOf] using f'.trans (List.sublist_append_left _ [q.counter])
  | surf s1 _ hi hs =>
    have h1 := ids_input hcb hb hi
    cases hs with
    | empty _ _ => exact h1.ok
    | loop _ _ _ new n loop => exact ids_loop_ok h1 loop
    | writing _ s2 new n loop w rest hw en _ t ht =>
      refine (ids_loop_ok h1 loop).quiet ?_
      intro e he
      rcases ht with rfl | ⟨_, rfl⟩ <;> simp at he
      · subst he; simp [Event.quiet]
      · rcases he with rfl | rfl <;> simp [Event.quiet]
  | noSub s1 s2 hi hs _ _ => exact (ids_surf (ids_input hcb hb hi) hs).ok

theorem ids_start (packets : List (Pk R × Bool)) (hp : ∀ x ∈ packets, x.2 = true) (items : List (Item R)) :
    Ids (itemIds items) (start [] packets items) := by
  have : packets.filter (fun x => !x.2) = [] := by
    rw [List.filter_eq_nil_iff]; intro x hx; simp [hp x hx]
  refine ⟨?_, ?_, ?_, ?_, ?_, ?_⟩ <;>
    simp [start, readOf, acceptedOf, calibratedOf, gapOf, progressCount, readCount, beamsOf, pending,
      unprocessed, this]

end Dedop.Process
