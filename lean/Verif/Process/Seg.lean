import Verif.Process.Ids

/-! # Stacks and gaps (lemmas) -/
namespace Dedop.Process

set_option linter.unusedSectionVars false

variable {R : Type} [Field R] [LinearOrder R]

theorem split_append {x t a c : List Event} {e : Event} (h : x ++ t = a ++ e :: c) :
    (∃ c', c = c' ++ t ∧ x = a ++ e :: c') ∨ (∃ a', a = x ++ a' ∧ t = a' ++ e :: c) := by
  rcases List.append_eq_append_iff.1 h with ⟨a', h1, h2⟩ | ⟨c', h1, h2⟩
  · exact Or.inr ⟨a', h1, h2⟩
  · cases c' with
    | nil => exact Or.inr ⟨[], by simpa using h1.symm, by simpa using h2.symm⟩
    | cons y c' =>
      simp only [List.cons_append, List.cons.injEq] at h2
      obtain ⟨rfl, h2⟩ := h2
      exact Or.inl ⟨c', h2, h1⟩

/-- A surface created before a gap only has bursts accepted before it when it is written; and every
surface only has bursts whose beams were formed after its creation. -/
structure SegT (t : List Event) : Prop where
  before : ∀ a g k c, t = a ++ .gapStart g k :: c → ∀ n ∈ createdOf a, ∀ stack, .l1b n stack ∈ c →
    ∀ id ∈ stack, id ∈ acceptedOf a
  own : ∀ x n stack y, t = x ++ .l1b n stack :: y →
    ∃ a c, x = a ++ .created n :: c ∧ stack.Sublist (beamsOf c)

/-- Invariant about stacks and gaps. -/
structure Seg (s : St R) : Prop where
  tr : SegT s.trace
  gap : ∀ a g k c, s.trace = a ++ .gapStart g k :: c →
    ((s.gapProcessing = true ∧ acceptedOf c = []) ∨ ∀ n ∈ createdOf a, n ∉ s.surfaces.map (·.counter))
  held : ∀ w ∈ s.surfaces, ∃ a c, s.trace = a ++ .created w.counter :: c ∧
    (stackIds w).Sublist (beamsOf c)

/-- Events that write no L1B record. -/
def NoL1b (t : List Event) : Prop := ∀ n stack, .l1b n stack ∉ t
/-- Events that start no gap.  No gap begins in the trace. -/
def NoGap (t : List Event) : Prop := ∀ g k, .gapStart g k ∉ t

theorem SegT.ext {t t' : List Event} (h : SegT t) (h1 : NoL1b t') : SegT (t ++ t') := by
  constructor
  · intro a g k c hs n hn stack hm
    rcases split_append hs with ⟨c', rfl, h2⟩ | ⟨a', rfl, h2⟩
    · rcases List.mem_append.1 hm with hm | hm
      · exact h.before a g k c' h2 n hn stack hm
      · exact absurd hm (h1 _ _)
    · exact absurd (by rw [h2]; simp [hm]) (h1 n stack)
  · intro x n stack y hs
    rcases split_append hs with ⟨c', rfl, h2⟩ | ⟨a', rfl, h2⟩
    · exact h.own x n stack c' h2
    · exact absurd (by rw [h2]; simp) (h1 n stack)

theorem gainsAll_stackIds {new : List (Pk R)} {w w' : Beams.Surf (Pk R)} (h : GainsAll new w w') :
    ∃ added, stackIds w' = stackIds w ++ added ∧ added.Sublist (new.map (·.counter)) := by
  obtain ⟨_, added, h1, h2⟩ := h
  exact ⟨added.map (·.counter), by simp [stackIds, h1], h2.map _⟩

theorem forall₂_mem_right {α : Type} {P : α → α → Prop} {a b : List α} (h : List.Forall₂ P a b)
    {y : α} (hy : y ∈ b) : ∃ x ∈ a, P x y := by
  induction h with
  | nil => simp at hy
  | cons hx _ ih =>
    rcases List.mem_cons.1 hy with rfl | hy
    · exact ⟨_, by simp, hx⟩
    · obtain ⟨x, hx, hp⟩ := ih hy
      exact ⟨x, by simp [hx], hp⟩

/-- Moves that keep the invariant. -/
theorem Seg.ext {s s' : St R} (h : Seg s) (t : List Event) (new : List (Pk R))
    (htr : s'.trace = s.trace ++ t) (h1 : NoL1b t) (h2 : NoGap t)
    (hacc : acceptedOf t = [] ∨ s.gapProcessing = false)
    (hsurf : List.Forall₂ (GainsAll new) s.surfaces s'.surfaces)
    (hnew : (new.map (·.counter)).Sublist (beamsOf t))
    (hg : s'.gapProcessing = s.gapProcessing) : Seg s' := by
  refine ⟨by rw [htr]; exact h.tr.ext h1, ?_, ?_⟩
  · intro a g k c hs
    rw [htr] at hs
    rcases split_append hs with ⟨c', rfl, h3⟩ | ⟨a', rfl, h3⟩
    · rcases h.gap a g k c' h3 with ⟨h4, h5⟩ | h4
      · rcases hacc with h6 | h6
        · left; rw [hg, acceptedOf_append, h5, h6]; exact ⟨h4, rfl⟩
        · rw [h4] at h6; cases h6
      · right; rw [gainsAll_counters hsurf]; exact h4
    · exact absurd (by rw [h3]; simp) (h2 g k)
  · intro w' hw'
    obtain ⟨w, hw, hgw⟩ := forall₂_mem_right hsurf hw'
    obtain ⟨a, c, h3, h4⟩ := h.held w hw
    obtain ⟨added, h5, h6⟩ := gainsAll_stackIds hgw
    refine ⟨a, c ++ t, by rw [htr, h3, hgw.1]; simp, ?_⟩
    rw [h5, beamsOf_append]
    exact h4.append (h6.trans hnew)

/-- Moves without effect on surfaces. -/
theorem Seg.plain {s s' : St R} (h : Seg s) (t : List Event)
    (htr : s'.trace = s.trace ++ t) (h1 : NoL1b t) (h2 : NoGap t)
    (hacc : acceptedOf t = [] ∨ s.gapProcessing = false)
    (hsurf : s'.surfaces = s.surfaces) (hg : s'.gapProcessing = s.gapProcessing) : Seg s' :=
  h.ext t [] htr h1 h2 hacc (by rw [hsurf]; exact gainsAll_nil _) (by simp) hg

theorem seg_begin {env : Env R} {s : St R} (h : Seg s) : Seg (beginIteration env s) := by
  unfold beginIteration
  simp only [St.log]
  split
  · exact h.plain [.iteration, .cancelSeen] (by simp) (by simp [NoL1b]) (by simp [NoGap])
      (Or.inl rfl) rfl rfl
  · exact h.plain [.iteration] rfl (by simp [NoL1b]) (by simp [NoGap]) (Or.inl rfl) rfl rfl

theorem seg_read {s s' : St R} (h : Seg s) (hr : ReadRel s s') : Seg s' := by
  cases hr with
  | resumed _ => exact h
  | atEnd _ _ _ =>
    exact h.plain [.endOfInput] rfl (by simp [NoL1b]) (by simp [NoGap]) (Or.inl rfl) rfl rfl
  | invalid _ _ _ =>
    exact h.plain [.read none, .progress] rfl (by simp [NoL1b]) (by simp [NoGap]) (Or.inl rfl) rfl rfl
  | record _ p _ _ =>
    exact h.plain [.read (some p.counter), .progress] rfl (by simp [NoL1b]) (by simp [NoGap]) (Or.inl rfl) rfl rfl

theorem mem_createdOf {n : Nat} {t : List Event} : n ∈ createdOf t ↔ .created n ∈ t := by
  unfold createdOf
  rw [List.mem_filterMap]
  constructor
  · rintro ⟨e, he, h⟩
    cases e <;> simp at h
    subst h; exact he
  · intro h; exact ⟨_, h, rfl⟩

theorem seg_packet {env : Env R} {s s' : St R} {p : Pk R} {b : Bool} (ho : Ord env s)
    (hgp : s.gapProcessing = false) (h : Seg s) (hr : PacketRel env s p b s') : Seg s' := by
  cases hr with
  | nothing _ _ _ =>
    exact h.plain [.calibrated p.counter, .accepted p.counter] rfl (by simp [NoL1b]) (by simp [NoGap])
      (Or.inr hgp) rfl rfl
  | created _ =>
    refine ⟨h.tr.ext (by simp [NoL1b]), ?_, ?_⟩
    · intro a g k c hs
      rcases split_append hs with ⟨c', rfl, h3⟩ | ⟨a', rfl, h3⟩
      · rcases h.gap a g k c' h3 with ⟨h4, h5⟩ | h4
        · rw [h4] at hgp; cases hgp
        · right
          intro n hn
          show n ∉ (s.surfaces ++ [(⟨s.count, [], [], []⟩ : Beams.Surf (Pk R))]).map (fun x => x.counter)
          have : n ∈ createdOf s.trace := by
            rw [h3, createdOf_append]; simp [hn]
          rw [ho.created] at this
          have hlt := List.mem_range.1 this
          simp only [List.map_append, List.mem_append, not_or]
          exact ⟨h4 n hn, by simp; omega⟩
      · exfalso
        have : Event.gapStart g k ∈ ([.calibrated p.counter, .accepted p.counter, .created s.count] : List Event) := by
          rw [h3]; simp
        simp at this
    · intro w hw
      have hw : w ∈ s.surfaces ++ [⟨s.count, [], [], []⟩] := hw
      rcases List.mem_append.1 hw with hw | hw
      · obtain ⟨a, c, h3, h4⟩ := h.held w hw
        refine ⟨a, c ++ [.calibrated p.counter, .accepted p.counter, .created s.count], ?_, ?_⟩
        · show s.trace ++ _ = _
          rw [h3]; simp
        · rw [beamsOf_append]; exact h4.trans (List.sublist_append_left _ _)
      · have := List.mem_singleton.1 hw
        subst this
        exact ⟨s.trace ++ [.calibrated p.counter, .accepted p.counter], [], by simp, by simp [stackIds]⟩
  | gap t _ _ =>
    refine ⟨h.tr.ext (by simp [NoL1b]), ?_, ?_⟩
    · intro a g k c hs
      rcases split_append hs with ⟨c', rfl, h3⟩ | ⟨a', rfl, h3⟩
      · rcases h.gap a g k c' h3 with ⟨h4, h5⟩ | h4
        · rw [h4] at hgp; cases hgp
        · right; exact h4
      · left
        refine ⟨rfl, ?_⟩
        rcases a' with _ | ⟨x, _ | ⟨y, a'⟩⟩
        · simp at h3
        · simp at h3; rw [h3.2.2]; rfl
        · simp at h3
    · intro w hw
      obtain ⟨a, c, h3, h4⟩ := h.held w hw
      refine ⟨a, c ++ [.calibrated p.counter, .gapStart p.counter s.surfaces.length], ?_, ?_⟩
      · show s.trace ++ _ = _
        rw [h3]; simp
      · rw [beamsOf_append]; exact h4.trans (List.sublist_append_left _ _)

theorem read_gap {s s' : St R} (hr : ReadRel s s') : s'.gapProcessing = s.gapProcessing := by
  cases hr <;> rfl

theorem seg_input {env : Env R} {s s' : St R} {b : Bool} (ho : Ord env s) (h : Seg s)
    (hr : InputRel env s b s') : Seg s' := by
  cases hr with
  | gap _ _ =>
    exact h.plain [.gapProgress] rfl (by simp [NoL1b]) (by simp [NoGap]) (Or.inl rfl) rfl rfl
  | gapNoSub _ _ => exact h
  | noPacket _ _ hr _ => exact seg_read h hr
  | packet hg s1 hr p _ _ _ hp =>
    exact seg_packet (ord_read ho hr) ((read_gap hr).trans hg) (seg_read h hr) hp

theorem beamsOf_map (new : List (Pk R)) :
    beamsOf (new.map (fun p => Event.beams p.counter)) = new.map (·.counter) := by
  unfold beamsOf; rw [List.filterMap_map]; simp [Function.comp_def]

theorem acceptedOf_beams (new : List (Pk R)) :
    acceptedOf (new.map (fun p => Event.beams p.counter)) = [] := by
  unfold acceptedOf; rw [List.filterMap_map]; simp [Function.comp_def]

theorem seg_loop {s s1 : St R} {todo : List (Pk R × Bool)} {new : List (Pk R)} {n : Nat}
    (h : Seg s) (hl : LoopSpec todo s.begun s1 new n) : Seg s1 := by
  refine h.ext _ new hl.trace ?_ ?_ (Or.inl (acceptedOf_beams new)) hl.surfaces ?_ ?_
  · intro n st hm; obtain ⟨_, _, h⟩ := List.mem_map.1 hm; cases h
  · intro n st hm; obtain ⟨_, _, h⟩ := List.mem_map.1 hm; cases h
  · rw [beamsOf_map]
  · rw [hl.frame]; rfl

/-- Writing the head of the queue. -/
theorem segT_write {ids : List Nat} {s : St R} {w : Beams.Surf (Pk R)} {rest : List (Beams.Surf (Pk R))}
    (hi : TraceOk ids s.trace) (h : Seg s) (hw : s.surfaces = w :: rest) (t : List Event) (ht : NoL1b t) :
    SegT (s.trace ++ .l1b w.counter (stackIds w) :: t) := by
  have hmem : w ∈ s.surfaces := by rw [hw]; simp
  have base : SegT (s.trace ++ [.l1b w.counter (stackIds w)]) := by
    constructor
    · intro a g k c hs n hn stack hm
      rcases split_append hs with ⟨c', rfl, h3⟩ | ⟨a', rfl, h3⟩
      · rcases List.mem_append.1 hm with hm | hm
        · exact h.tr.before a g k c' h3 n hn stack hm
        · simp only [List.mem_singleton, Event.l1b.injEq] at hm
          obtain ⟨rfl, rfl⟩ := hm
          rcases h.gap a g k c' h3 with ⟨_, h4⟩ | h4
          · intro id hid
            obtain ⟨x, y, h5, h6⟩ := h.held w hmem
            have h7 : id ∈ beamsOf s.trace := by
              rw [h5, beamsOf_append]
              refine List.mem_append_right _ ?_
              have := h6.subset hid
              simpa [beamsOf] using this
            have h8 := hi.beams.subset h7
            rw [h3, acceptedOf_append] at h8
            rcases List.mem_append.1 h8 with h8 | h8
            · exact h8
            · exfalso
              have : acceptedOf (Event.gapStart g k :: c') = acceptedOf c' := rfl
              rw [this, h4] at h8
              simp at h8
          · exact absurd (by rw [hw]; simp) (h4 _ hn)
      · exfalso
        rcases a' with _ | ⟨x, a'⟩ <;> simp at h3
    · intro x n stack y hs
      rcases split_append hs with ⟨c', rfl, h3⟩ | ⟨a', rfl, h3⟩
      · exact h.tr.own x n stack c' h3
      · rcases a' with _ | ⟨z, a'⟩
        · simp only [List.nil_append, List.cons.injEq, Event.l1b.injEq] at h3
          obtain ⟨⟨rfl, rfl⟩, _⟩ := h3
          rw [List.append_nil]
          exact h.held w hmem
        · simp at h3
  have := base.ext ht
  simpa using this

theorem seg_surf {ids : List Nat} {env : Env R} {s s' : St R} (hi : Ids ids s) (h : Seg s)
    (hr : SurfRel env s s') : Seg s' := by
  cases hr with
  | idle _ => exact h
  | dropped _ s1 new n loop pk w rest hw few =>
    have h1 := seg_loop h loop
    refine ⟨h1.tr.ext (by simp [NoL1b]), ?_, ?_⟩
    · intro a g k c hs
      rcases split_append hs with ⟨c', rfl, h3⟩ | ⟨a', rfl, h3⟩
      · rcases h1.gap a g k c' h3 with ⟨h4, h5⟩ | h4
        · left; refine ⟨h4, ?_⟩; rw [acceptedOf_append, h5]; rfl
        · right
          intro n hn hm
          refine h4 n hn ?_
          rw [hw]; exact List.mem_cons_of_mem _ hm
      · exfalso
        rcases a' with _ | ⟨x, a'⟩ <;> simp at h3
    · intro w' hw'
      obtain ⟨a, c, h3, h4⟩ := h1.held w' (by rw [hw]; exact List.mem_cons_of_mem _ hw')
      refine ⟨a, c ++ [.dropped w.counter (stackIds w)], ?_, ?_⟩
      · show s1.trace ++ _ = _
        rw [h3]; simp
      · rw [beamsOf_append]; exact h4.trans (List.sublist_append_left _ _)
  | written _ s1 new n loop pk w rest hw en pks suf =>
    have h1 := seg_loop h loop
    have hid := (ids_loop hi loop pk).ok
    set tl : List Event := if env.skipL1bs then [] else [.l1bs w.counter] with htl
    have hq : (∀ g k, Event.gapStart g k ∉ Event.l1b w.counter (stackIds w) :: tl) ∧
        acceptedOf (Event.l1b w.counter (stackIds w) :: tl) = [] ∧ NoL1b tl := by
      rw [htl]; unfold NoL1b
      split <;> simp [acceptedOf]
    refine ⟨segT_write hid h1 hw tl hq.2.2, ?_, ?_⟩
    · intro a g k c hs
      rcases split_append hs with ⟨c', rfl, h3⟩ | ⟨a', rfl, h3⟩
      · rcases h1.gap a g k c' h3 with ⟨h4, h5⟩ | h4
        · left; refine ⟨h4, ?_⟩; rw [acceptedOf_append, h5, hq.2.1]; rfl
        · right
          intro n hn hm
          refine h4 n hn ?_
          rw [hw]; exact List.mem_cons_of_mem _ hm
      · exact absurd (by rw [h3]; simp) (hq.1 g k)
    · intro w' hw'
      obtain ⟨a, c, h3, h4⟩ := h1.held w' (by rw [hw]; exact List.mem_cons_of_mem _ hw')
      refine ⟨a, c ++ .l1b w.counter (stackIds w) :: tl, ?_, ?_⟩
      · show s1.trace ++ _ = _
        rw [h3]; simp
      · rw [beamsOf_append]; exact h4.trans (List.sublist_append_left _ _)

theorem seg_end {s s' : St R} (h : Seg s) (hr : EndRel s s') : Seg s' := by
  cases hr with
  | gapEnd hs _ _ =>
    refine ⟨h.tr.ext (by simp [NoL1b]), ?_, ?_⟩
    · intro a g k c _
      right; intro n _; show n ∉ s.surfaces.map _; rw [hs]; simp
    · intro w hw; have hw : w ∈ s.surfaces := hw; rw [hs] at hw; simp at hw
  | stop _ _ => exact h.plain [] (by simp) (by simp [NoL1b]) (by simp [NoGap]) (Or.inl rfl) rfl rfl
  | go _ => exact h

theorem seg_step {ids : List Nat} {env : Env R} {s s' : St R} (hc : Ctl s) (ho : Ord env s)
    (hi : Ids ids s) (h : Seg s) (hr : StepRel env s s') : Seg s' := by
  have hcb := ctl_begin env s hc
  have hob := ord_begin (env := env) ho
  have hib := ids_begin (env := env) hi
  have hsb := seg_begin (env := env) h
  cases hr with
  | cont _ hin => exact seg_input hob hsb hin
  | full s1 s2 _ hin hs he =>
    exact seg_end (seg_surf (ids_input hcb hib hin) (seg_input hob hsb hin) hs) he

theorem seg_stepErr {ids : List Nat} {env : Env R} {s s' : St R} {e : PyErr} (hc : Ctl s)
    (ho : Ord env s) (hi : Ids ids s) (h : Seg s) (hr : StepErr env s e s') : SegT s'.trace := by
  have hcb := ctl_begin env s hc
  have hob := ord_begin (env := env) ho
  have hib := ids_begin (env := env) hi
  have hsb := seg_begin (env := env) h
  cases hr with
  | input _ hin =>
    cases hin with
    | read _ _ _ hr =>
      cases hr with
      | insufficient _ _ _ => exact hsb.tr.ext (t' := [.endOfInput]) (by simp [NoL1b])
      | failure _ _ _ _ => exact hsb.tr
    | packet _ s1 hr p _ _ _ hp =>
      cases hp with
      | cal _ => exact (seg_read hsb hr).tr
      | location _ _ _ => exact (seg_read hsb hr).tr.ext (by simp [NoL1b])
  | surf s1 _ hin hs =>
    have h1 := seg_input hob hsb hin
    have hi1 := ids_input hcb hib hin
    cases hs with
    | empty _ _ => exact h1.tr
    | loop _ _ _ new n loop => exact (seg_loop h1 loop).tr
    | writing _ s2 new n loop w rest hw en _ t ht =>
      rcases ht with rfl | ⟨_, rfl⟩
      · exact segT_write (ids_loop_ok hi1 loop) (seg_loop h1 loop) hw [] (by simp [NoL1b])
      · exact segT_write (ids_loop_ok hi1 loop) (seg_loop h1 loop) hw _ (by simp [NoL1b])
  | noSub s1 s2 hin hs _ _ => exact (seg_surf (ids_input hcb hib hin) (seg_input hob hsb hin) hs).tr

theorem seg_start (packets : List (Pk R × Bool)) (items : List (Item R)) :
    Seg (start [] packets items) := by
  refine ⟨⟨?_, ?_⟩, ?_, ?_⟩ <;> simp [start]

end Dedop.Process
