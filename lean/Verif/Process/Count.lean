import Verif.Process.Late

/-!
# C99: the record counter of the L1B-S product

`records_count_l1bs_echo_sar_ku` is described in the product as "l1b record counters within the product"
(`l1bs_writer.py:160-168`); its value is the number of the surface (`l1bs_writer.py:658`, `processor.py:556-559`),
which is the number in the events `l1b` and `l1bs`.
-/
namespace Dedop.Process

variable {R : Type} [Field R] [LinearOrder R]

/-- Surfaces not written for lack of looks. -/
def droppedOf (t : List Event) : List Nat := t.filterMap (fun | .dropped n _ => some n | _ => none)

theorem done_length (t : List Event) : (doneOf t).length = (l1bOf t).length + (droppedOf t).length := by
  induction t with
  | nil => rfl
  | cons e t ih =>
    unfold doneOf l1bOf droppedOf at *
    cases e <;> simp_all <;> omega

/-- The surfaces written or dropped are numbered in order. -/
theorem done_in_order (env : Env R) (packets : List (Pk R × Bool)) (hp : ∀ x ∈ packets, x.2 = true)
    (items : List (Item R)) : ∃ n, doneOf (processWith env [] packets items).trace <+: List.range n := by
  have h := process_inv env packets hp items
  revert h
  generalize processWith env [] packets items = o
  intro h
  cases o with
  | finished s =>
    obtain ⟨s0, h1, _, _, rfl⟩ := h
    refine ⟨s0.count, ?_⟩
    have : doneOf s0.trace <+: List.range s0.count := ⟨_, h1.ord.done⟩
    simp only [Outcome.trace, Outcome.state, St.log]
    rw [doneOf_append]
    simpa [doneOf] using this
  | failed e s =>
    rcases h with h | ⟨h, _, _⟩
    · exact ⟨_, h.ord.done⟩
    · exact ⟨_, _, h.ord.done⟩
  | timeout s => exact h.elim

theorem prefix_range {a : List Nat} {x n : Nat} {b : List Nat} (h : a ++ x :: b <+: List.range n) :
    x = a.length := by
  have h2 := List.IsPrefix.getElem h (i := a.length) (by simp)
  simpa using h2

/-- The `i`-th entry among the written surfaces comes from an event after `i` others. -/
theorem l1b_split (t : List Event) (i n : Nat) (h : (l1bOf t)[i]? = some n) :
    ∃ a stack b, t = a ++ .l1b n stack :: b ∧ (l1bOf a).length = i := by
  induction t generalizing i with
  | nil => cases h
  | cons e t ih =>
    by_cases he : ∃ m st, e = .l1b m st
    · obtain ⟨m, st, rfl⟩ := he
      cases i with
      | zero =>
        have : m = n := by simpa [l1bOf] using h
        exact ⟨[], st, t, by rw [this]; rfl, rfl⟩
      | succ i =>
        obtain ⟨a, stack, b, h1, h2⟩ := ih i (by simpa [l1bOf] using h)
        refine ⟨.l1b m st :: a, stack, b, by rw [h1]; rfl, ?_⟩
        have : l1bOf (.l1b m st :: a) = m :: l1bOf a := by simp [l1bOf]
        rw [this, List.length_cons, h2]
    · have hne : ∀ l, l1bOf (e :: l) = l1bOf l := by
        intro l
        cases e <;> simp_all [l1bOf]
      rw [hne] at h
      obtain ⟨a, stack, b, h1, h2⟩ := ih i h
      exact ⟨e :: a, stack, b, by rw [h1]; rfl, by rw [hne, h2]⟩

/-- **C99 (`_partial`)**: in every finished call the counter of the record at position `i` of the L1B-S product
is `i` plus the number of surfaces that were dropped before it; so the counters increase from record to record.
Missing: that it is `i`. -/
theorem record_counter_partial (env : Env R) (packets : List (Pk R × Bool)) (hp : ∀ x ∈ packets, x.2 = true)
    (items : List (Item R)) (s : St R) (hf : processWith env [] packets items = .finished s)
    (i n : Nat) (h : (l1bsOf s.trace)[i]? = some n) :
    ∃ a stack b, s.trace = a ++ .l1b n stack :: b ∧ (l1bOf a).length = i ∧ n = i + (droppedOf a).length := by
  have hb := both_files env packets hp items s hf
  have h' : (l1bOf s.trace)[i]? = some n := by
    rw [hb] at h
    split at h
    · simp at h
    · exact h
  obtain ⟨a, stack, b, h1, h2⟩ := l1b_split s.trace i n h'
  refine ⟨a, stack, b, h1, h2, ?_⟩
  obtain ⟨m, hm⟩ := done_in_order env packets hp items
  rw [hf] at hm
  have hm : doneOf s.trace <+: List.range m := hm
  rw [h1, doneOf_append] at hm
  have : doneOf (.l1b n stack :: b) = n :: doneOf b := by simp [doneOf]
  rw [this] at hm
  rw [prefix_range hm, done_length, h2]

/-- If no surface was dropped, the counter of every record is its position. -/
theorem record_counter_no_drops (env : Env R) (packets : List (Pk R × Bool)) (hp : ∀ x ∈ packets, x.2 = true)
    (items : List (Item R)) (s : St R) (hf : processWith env [] packets items = .finished s)
    (hd : ∀ n stack, .dropped n stack ∉ s.trace) (i n : Nat) (h : (l1bsOf s.trace)[i]? = some n) : n = i := by
  obtain ⟨a, stack, b, h1, _, h3⟩ := record_counter_partial env packets hp items s hf i n h
  have : droppedOf a = [] := by
    refine List.filterMap_eq_nil_iff.2 fun e he => ?_
    cases e with
    | dropped m st => exact absurd (h1 ▸ List.mem_append_left _ he) (hd m st)
    | _ => rfl
  rw [h3, this, List.length_nil, Nat.add_zero]

/-- **C99 is violated**: with six looks required, the first surface of a file (which only two bursts see) is
dropped, and the first record of the product has the counter 1. -/
theorem record_counter_violated : ∃ (env : Env ℚ) (items : List (Item ℚ)) (s : St ℚ),
    process env items = .finished s ∧ s.status = none ∧ (l1bsOf s.trace)[0]? = some 1 := by
  have h : raised (process { demo with nLooks := 6 } (recs 0 81 0)) = none ∧
    (process { demo with nLooks := 6 } (recs 0 81 0)).state.status = none ∧
    (l1bsOf (process { demo with nLooks := 6 } (recs 0 81 0)).state.trace)[0]? = some 1 := by decide +kernel
  obtain ⟨h1, h2⟩ := h
  cases hs : process { demo with nLooks := 6 } (recs 0 81 0) with
  | finished s => rw [hs] at h2; exact ⟨_, _, s, hs, h2⟩
  | failed e s => rw [hs] at h1; cases h1
  | timeout s =>
    unfold process processWith at hs
    exact absurd hs (process_terminates _ [] [] (recs 0 81 0) s)

/-- A run without dropped surfaces. -/
example : droppedOf (process demo (recs 0 81 0)).state.trace = [] ∧
    l1bsOf (process demo (recs 0 81 0)).state.trace = List.range 81 := by decide +kernel

end Dedop.Process
