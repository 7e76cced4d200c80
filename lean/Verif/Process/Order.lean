import Verif.Process.Control
import Verif.Process.Spec

/-! # Order of creation and writing (lemmas) -/
namespace Dedop.Process

variable {R : Type} [Field R] [LinearOrder R]

/-- The sizes of the stacks of the surfaces written and dropped are right. -/
def SizesOk (nLooks : Nat) (t : List Event) : Prop :=
  (∀ n stack, .l1b n stack ∈ t → nLooks / 2 ≤ min stack.length nLooks) ∧
  (∀ n stack, .dropped n stack ∈ t → min stack.length nLooks < nLooks / 2)

/-- Invariant for the order of surfaces. -/
structure Ord (env : Env R) (s : St R) : Prop where
  created : createdOf s.trace = List.range s.count
  done : doneOf s.trace ++ s.surfaces.map (·.counter) = List.range s.count
  both : l1bsOf s.trace = if env.skipL1bs then [] else l1bOf s.trace
  sizes : SizesOk env.nLooks s.trace

/-- What remains of it when something raises. -/
structure OrdErr (env : Env R) (s : St R) : Prop where
  created : createdOf s.trace = List.range s.count
  done : doneOf s.trace <+: List.range s.count
  both : if env.skipL1bs then l1bsOf s.trace = []
    else l1bsOf s.trace = l1bOf s.trace ∨ ∃ n, l1bsOf s.trace ++ [n] = l1bOf s.trace
  sizes : SizesOk env.nLooks s.trace

theorem Ord.err {env : Env R} {s : St R} (h : Ord env s) : OrdErr env s := by
  obtain ⟨h1, h2, h3, h4⟩ := h
  refine ⟨h1, ⟨_, h2⟩, ?_, h4⟩
  split at h3
  · rename_i hs; rw [if_pos hs]; exact h3
  · rename_i hs; rw [if_neg hs]; exact Or.inl h3

/-- Events that say nothing about surfaces. -/
def Event.neutral : Event → Prop
  | .created _ | .dropped _ _ | .l1b _ _ | .l1bs _ => False
  | _ => True

theorem neutral_proj (t : List Event) (h : ∀ e ∈ t, e.neutral) :
    createdOf t = [] ∧ doneOf t = [] ∧ l1bOf t = [] ∧ l1bsOf t = [] := by
  induction t with
  | nil => simp [createdOf, doneOf, l1bOf, l1bsOf]
  | cons e t ih =>
    obtain ⟨h1, h2, h3, h4⟩ := ih (fun e he => h e (by simp [he]))
    have he := h e (by simp)
    unfold createdOf doneOf l1bOf l1bsOf at *
    cases e <;> simp_all [Event.neutral]

theorem createdOf_append (a b : List Event) : createdOf (a ++ b) = createdOf a ++ createdOf b :=
  List.filterMap_append
theorem doneOf_append (a b : List Event) : doneOf (a ++ b) = doneOf a ++ doneOf b := List.filterMap_append
theorem l1bOf_append (a b : List Event) : l1bOf (a ++ b) = l1bOf a ++ l1bOf b := List.filterMap_append
theorem l1bsOf_append (a b : List Event) : l1bsOf (a ++ b) = l1bsOf a ++ l1bsOf b :=
  List.filterMap_append

/-- Neutral events and unchanged counters keep the invariant. -/
theorem Ord.neutral {env : Env R} {s s' : St R} (h : Ord env s) (t : List Event)
    (ht : ∀ e ∈ t, e.neutral) (h1 : s'.trace = s.trace ++ t)
    (h2 : s'.surfaces.map (·.counter) = s.surfaces.map (·.counter)) (h3 : s'.count = s.count) :
    Ord env s' := by
  obtain ⟨a, b, c, d⟩ := h
  obtain ⟨n1, n2, n3, n4⟩ := neutral_proj t ht
  refine ⟨?_, ?_, ?_, ?_⟩
  · rw [h1, createdOf_append, n1, h3, a]; simp
  · rw [h1, doneOf_append, n2, h2, h3, ← b]; simp
  · rw [h1, l1bsOf_append, l1bOf_append, n3, n4]; simpa using c
  · rw [h1]
    constructor
    · intro n stack hm
      rcases List.mem_append.1 hm with hm | hm
      · exact d.1 n stack hm
      · exact absurd (ht _ hm) (by simp [Event.neutral])
    · intro n stack hm
      rcases List.mem_append.1 hm with hm | hm
      · exact d.2 n stack hm
      · exact absurd (ht _ hm) (by simp [Event.neutral])

theorem Ord.neutralErr {env : Env R} {s s' : St R} (h : Ord env s) (t : List Event)
    (ht : ∀ e ∈ t, e.neutral) (h1 : s'.trace = s.trace ++ t)
    (h2 : s'.surfaces.map (·.counter) = s.surfaces.map (·.counter)) (h3 : s'.count = s.count) :
    OrdErr env s' := (h.neutral t ht h1 h2 h3).err

theorem gainsAll_counters {new : List (Pk R)} {a b : List (Beams.Surf (Pk R))}
    (h : List.Forall₂ (GainsAll new) a b) : b.map (·.counter) = a.map (·.counter) := by
  induction h with
  | nil => rfl
  | cons hx _ ih => simp [hx.1, ih]

theorem beams_neutral (new : List (Pk R)) :
    ∀ e ∈ new.map (fun p => Event.beams p.counter), e.neutral := by
  intro e he
  obtain ⟨p, _, rfl⟩ := List.mem_map.1 he
  simp [Event.neutral]

theorem ord_begin {env : Env R} {s : St R} (h : Ord env s) : Ord env (beginIteration env s) := by
  unfold beginIteration
  simp only [St.log]
  split
  · exact h.neutral [.iteration, .cancelSeen] (by simp [Event.neutral]) (by simp) rfl rfl
  · exact h.neutral [.iteration] (by simp [Event.neutral]) rfl rfl rfl

theorem ord_read {env : Env R} {s s' : St R} (h : Ord env s) (hr : ReadRel s s') : Ord env s' := by
  cases hr with
  | resumed _ => exact h
  | atEnd _ _ _ => exact h.neutral [.endOfInput] (by simp [Event.neutral]) rfl rfl rfl
  | invalid _ rest _ => exact h.neutral [.read none, .progress] (by simp [Event.neutral]) rfl rfl rfl
  | record _ p rest _ =>
    exact h.neutral [.read (some p.counter), .progress] (by simp [Event.neutral]) rfl rfl rfl

theorem ord_packet {env : Env R} {s s' : St R} {p : Pk R} {b : Bool} (h : Ord env s)
    (hr : PacketRel env s p b s') : Ord env s' := by
  cases hr with
  | nothing _ _ _ =>
    exact h.neutral [.calibrated p.counter, .accepted p.counter] (by simp [Event.neutral]) rfl rfl rfl
  | created _ =>
    obtain ⟨a, b, c, d⟩ := h
    refine ⟨?_, ?_, ?_, ?_⟩
    · show createdOf (s.trace ++ _) = _
      rw [createdOf_append, a]
      simp [createdOf, List.range_succ]
    · show doneOf (s.trace ++ _) ++ _ = _
      rw [doneOf_append, List.range_succ, ← b]
      simp [doneOf]
    · show l1bsOf (s.trace ++ _) = if env.skipL1bs then [] else l1bOf (s.trace ++ _)
      rw [l1bsOf_append, l1bOf_append]
      simpa [l1bsOf, l1bOf] using c
    · constructor
      · intro n stack hm; exact d.1 n stack (by simpa using hm)
      · intro n stack hm; exact d.2 n stack (by simpa using hm)
  | gap t _ _ =>
    exact h.neutral [.calibrated p.counter, .gapStart p.counter s.surfaces.length]
      (by simp [Event.neutral]) rfl rfl rfl

theorem ord_input {env : Env R} {s s' : St R} {b : Bool} (h : Ord env s) (hr : InputRel env s b s') :
    Ord env s' := by
  cases hr with
  | gap _ _ => exact h.neutral [.gapProgress] (by simp [Event.neutral]) rfl rfl rfl
  | gapNoSub _ _ => exact h
  | noPacket _ _ hr _ => exact ord_read h hr
  | packet _ s1 hr p _ _ _ hp => exact ord_packet (ord_read h hr) hp

theorem ord_loop {env : Env R} {s s1 : St R} {todo : List (Pk R × Bool)} {new : List (Pk R)} {n : Nat}
    (h : Ord env s) (hl : LoopSpec todo s.begun s1 new n) : Ord env s1 := by
  refine h.neutral _ (beams_neutral new) hl.trace ?_ ?_
  · exact gainsAll_counters hl.surfaces
  · rw [hl.frame]; rfl

theorem ord_surf {env : Env R} {s s' : St R} (h : Ord env s) (hr : SurfRel env s s') : Ord env s' := by
  cases hr with
  | idle _ => exact h
  | dropped _ s1 new n loop pk w rest hw few =>
    obtain ⟨a, b, c, d⟩ := ord_loop h loop
    rw [hw] at b
    refine ⟨?_, ?_, ?_, ?_⟩
    · show createdOf (s1.trace ++ _) = List.range s1.count
      rw [createdOf_append, a]; simp [createdOf]
    · show doneOf (s1.trace ++ _) ++ rest.map (·.counter) = List.range s1.count
      rw [doneOf_append, ← b]; simp [doneOf]
    · show l1bsOf (s1.trace ++ _) = if env.skipL1bs then [] else l1bOf (s1.trace ++ _)
      rw [l1bsOf_append, l1bOf_append]; simpa [l1bsOf, l1bOf] using c
    · constructor
      · intro n stack hm; exact d.1 n stack (by simpa [St.log] using hm)
      · intro n stack hm
        simp only [St.log, List.mem_append, List.mem_singleton] at hm
        rcases hm with hm | hm
        · exact d.2 n stack hm
        · cases hm; simpa [stackIds] using few
  | written _ s1 new n loop pk w rest hw en pks suf =>
    obtain ⟨a, b, c, d⟩ := ord_loop h loop
    rw [hw] at b
    by_cases hsk : env.skipL1bs = true
    · simp only [hsk, if_true] at c ⊢
      refine ⟨?_, ?_, ?_, ?_⟩
      · show createdOf (s1.trace ++ _) = _
        rw [createdOf_append, a]; simp [createdOf]
      · show doneOf (s1.trace ++ _) ++ _ = _
        rw [doneOf_append, ← b]; simp [doneOf]
      · show l1bsOf (s1.trace ++ _) = if env.skipL1bs then [] else l1bOf (s1.trace ++ _)
        rw [l1bsOf_append]; simp [hsk, l1bsOf] at c ⊢; exact c
      · constructor
        · intro n stack hm
          simp only [List.mem_append, List.mem_singleton] at hm
          rcases hm with hm | hm
          · exact d.1 n stack hm
          · cases hm; simpa [stackIds] using en
        · intro n stack hm; exact d.2 n stack (by simpa using hm)
    · simp only [hsk] at c ⊢
      refine ⟨?_, ?_, ?_, ?_⟩
      · show createdOf (s1.trace ++ _) = _
        rw [createdOf_append, a]; simp [createdOf]
      · show doneOf (s1.trace ++ _) ++ _ = _
        rw [doneOf_append, ← b]; simp [doneOf]
      · show l1bsOf (s1.trace ++ _) = if env.skipL1bs then [] else l1bOf (s1.trace ++ _)
        rw [l1bsOf_append, l1bOf_append]
        simp [hsk, l1bsOf, l1bOf] at c ⊢
        exact c
      · constructor
        · intro n stack hm
          simp at hm
          rcases hm with hm | ⟨rfl, rfl⟩
          · exact d.1 n stack hm
          · simpa [stackIds] using en
        · intro n stack hm; exact d.2 n stack (by simpa using hm)

theorem ord_end {env : Env R} {s s' : St R} (h : Ord env s) (hr : EndRel s s') : Ord env s' := by
  cases hr with
  | gapEnd _ _ _ => exact h.neutral [.gapDone] (by simp [Event.neutral]) rfl rfl rfl
  | stop _ _ => exact h.neutral [] (by simp) (by simp) rfl rfl
  | go _ => exact h

theorem ord_step {env : Env R} {s s' : St R} (h : Ord env s) (hr : StepRel env s s') : Ord env s' := by
  cases hr with
  | cont _ hi => exact ord_input (ord_begin h) hi
  | full s1 s2 _ hi hs he => exact ord_end (ord_surf (ord_input (ord_begin h) hi) hs) he

theorem ord_surfErr {env : Env R} {s s' : St R} {e : PyErr} (h : Ord env s) (hr : SurfErr env s e s') :
    OrdErr env s' := by
  cases hr with
  | empty _ _ => exact (h.neutral (s' := s.begun) [] (by simp) (by simp [St.begun]) rfl rfl).err
  | loop e _ s1 new n loop => exact (ord_loop h loop).err
  | writing e s1 new n loop w rest hw en _ t ht =>
    obtain ⟨a, b, c, d⟩ := ord_loop h loop
    rw [hw] at b
    have hdone : doneOf t = [w.counter] := by rcases ht with rfl | ⟨_, rfl⟩ <;> simp [doneOf]
    have hcr : createdOf t = [] := by rcases ht with rfl | ⟨_, rfl⟩ <;> simp [createdOf]
    have hlb : l1bOf t = [w.counter] := by rcases ht with rfl | ⟨_, rfl⟩ <;> simp [l1bOf]
    refine ⟨?_, ?_, ?_, ?_⟩
    · show createdOf (s1.trace ++ t) = _
      rw [createdOf_append, hcr, a]; simp
    · show doneOf (s1.trace ++ t) <+: List.range s1.count
      rw [doneOf_append, hdone, ← b]
      exact ⟨rest.map (·.counter), by simp⟩
    · show if env.skipL1bs then l1bsOf (s1.trace ++ t) = []
        else l1bsOf (s1.trace ++ t) = l1bOf (s1.trace ++ t) ∨ ∃ n, l1bsOf (s1.trace ++ t) ++ [n] = l1bOf (s1.trace ++ t)
      rw [l1bsOf_append, l1bOf_append, hlb]
      by_cases hsk : env.skipL1bs = true
      · simp only [hsk, if_true] at c ⊢
        rw [c]
        rcases ht with rfl | ⟨h, _⟩
        · simp [l1bsOf]
        · rw [hsk] at h; cases h
      · simp only [hsk] at c ⊢
        simp only [Bool.false_eq_true, if_false] at c ⊢
        rw [c]
        rcases ht with rfl | ⟨_, rfl⟩
        · right; exact ⟨w.counter, by simp [l1bsOf]⟩
        · left; simp [l1bsOf]
    · constructor
      · intro n stack hm
        have hm : Event.l1b n stack ∈ s1.trace ++ t := hm
        rcases List.mem_append.1 hm with hm | hm
        · exact d.1 n stack hm
        · have : n = w.counter ∧ stack = stackIds w := by
            rcases ht with rfl | ⟨_, rfl⟩ <;> simpa using hm
          rw [this.2]; simpa [stackIds] using en
      · intro n stack hm
        have hm : Event.dropped n stack ∈ s1.trace ++ t := hm
        rcases List.mem_append.1 hm with hm | hm
        · exact d.2 n stack hm
        · exfalso
          rcases ht with rfl | ⟨_, rfl⟩ <;> simp at hm

theorem ord_stepErr {env : Env R} {s s' : St R} {e : PyErr} (h : Ord env s) (hr : StepErr env s e s') :
    OrdErr env s' := by
  have hb := ord_begin h
  cases hr with
  | input _ hi =>
    cases hi with
    | read _ _ _ hr =>
      cases hr with
      | insufficient _ _ _ => exact hb.neutralErr [.endOfInput] (by simp [Event.neutral]) rfl rfl rfl
      | failure _ _ rest _ => exact hb.neutralErr [] (by simp) (by simp) rfl rfl
    | packet _ s1 hr p _ _ _ hp =>
      have h1 := ord_read hb hr
      cases hp with
      | cal _ => exact h1.err
      | location _ _ _ =>
        exact h1.neutralErr [.calibrated p.counter, .accepted p.counter] (by simp [Event.neutral]) rfl rfl rfl
  | surf s1 _ hi hs => exact ord_surfErr (ord_input hb hi) hs
  | noSub s1 s2 hi hs _ _ =>
    exact (ord_surf (ord_input hb hi) hs).neutralErr [] (by simp) (by simp) rfl rfl

theorem ord_start (env : Env R) (packets : List (Pk R × Bool)) (items : List (Item R)) :
    Ord env (start [] packets items) := by
  refine ⟨rfl, rfl, ?_, ?_⟩
  · simp [start, l1bsOf, l1bOf]
  · constructor <;> intro n stack hm <;> simp [start] at hm

end Dedop.Process
