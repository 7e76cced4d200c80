import Verif.Monitor.Lemmas
import Verif.Monitor.ConsoleSpec
import Mathlib.Algebra.Order.AbsoluteValue.Basic

namespace Dedop.Monitor

theorem pyRound_nearest (q : ℚ) : IsNearestEven q (pyRound q) := by
  have h1 : (⌊q⌋ : ℚ) ≤ q := Int.floor_le q
  have h2 : q < ⌊q⌋ + 1 := Int.lt_floor_add_one q
  unfold IsNearestEven pyRound
  simp only
  split
  · rename_i h
    have e : |(⌊q⌋ : ℚ) - q| = q - ⌊q⌋ := by rw [abs_sub_comm, abs_of_nonneg]; linarith
    rw [e]
    exact ⟨by linarith, fun h' => by linarith⟩
  · rename_i h
    split
    · rename_i h'
      have e : |((⌊q⌋ + 1 : ℤ) : ℚ) - q| = ⌊q⌋ + 1 - q := by
        push_cast; rw [abs_of_nonneg]; linarith
      rw [e]
      exact ⟨by linarith, fun h'' => by linarith⟩
    · rename_i h'
      have e0 : q - ⌊q⌋ = 1/2 := le_antisymm (not_lt.1 h') (not_lt.1 h)
      split
      · rename_i h3
        have e : |(⌊q⌋ : ℚ) - q| = q - ⌊q⌋ := by rw [abs_sub_comm, abs_of_nonneg]; linarith
        rw [e, e0]
        exact ⟨le_refl _, fun _ => h3⟩
      · rename_i h3
        have e : |((⌊q⌋ + 1 : ℤ) : ℚ) - q| = ⌊q⌋ + 1 - q := by
          push_cast; rw [abs_of_nonneg]; linarith
        rw [e]
        exact ⟨by linarith, fun _ => by omega⟩

theorem workSum_append (a b : List Call) : workSum (a ++ b) = workSum a + workSum b := by
  induction a with
  | nil => simp [workSum]
  | cons x a ih => obtain ⟨w, m⟩ := x; simp [workSum, ih]; ring

theorem workSum_nonneg {a : List Call} (h : ∀ x ∈ a, ∀ w, x.1 = some w → 0 ≤ w) : 0 ≤ workSum a := by
  induction a with
  | nil => simp [workSum]
  | cons x a ih =>
    obtain ⟨w, m⟩ := x
    have := ih (fun y hy => h y (List.mem_cons_of_mem _ hy))
    cases w with
    | none => simpa [workSum] using this
    | some w =>
      have := h (some w, m) List.mem_cons_self w rfl
      simp only [workSum, Option.getD_some]; linarith

theorem calls_append (c : Console) (a b : List Call) : c.calls (a ++ b) = (c.calls a).calls b := by
  induction a generalizing c with
  | nil => rfl
  | cons x a ih => obtain ⟨w, m⟩ := x; simp [Console.calls, ih]

theorem calls_state {c : Console} {t w0 : ℚ} (ht : c.total = some t) (h0 : t ≠ 0)
    (hw : c.worked = some w0) (a : List Call) :
    (c.calls a).total = some t ∧ (c.calls a).worked = some (w0 + workSum a) := by
  induction a generalizing c w0 with
  | nil => simp [Console.calls, workSum, ht, hw]
  | cons x a ih =>
    obtain ⟨w, m⟩ := x
    cases w with
    | none =>
      have := ih (c := (c.progress none m).1) (w0 := w0) (by simp [Console.progress, Console.finish, ht])
        (by simp [Console.progress, Console.finish, hw])
      simpa [Console.calls, workSum] using this
    | some w =>
      have := ih (c := (c.progress (some w) m).1) (w0 := w0 + w)
        (by simp [Console.progress, Console.calcPercentage, Console.finish, ht, hw, h0])
        (by simp [Console.progress, Console.calcPercentage, Console.finish, ht, hw, h0])
      simp only [Console.calls, workSum, Option.getD_some]
      rw [this.1, this.2]
      exact ⟨rfl, by congr 1; ring⟩

/-- One call from a started console. -/
theorem progress_started {c : Console} {t w0 : ℚ} (ht : c.total = some t) (h0 : t ≠ 0)
    (hw : c.worked = some w0) (call : Call) :
    (c.progress call.1 call.2).2 = none ∧
    (let p := call.1.map (fun w => pyRound (100 * (w0 + w) / t))
     (c.progress call.1 call.2).1.percentage = p ∧
     (c.progress call.1 call.2).1.msg = call.2 ∧
     (c.progress call.1 call.2).1.reports =
      c.reports ++ (if p = c.percentage ∧ call.2 = c.msg then [] else [⟨p, call.2⟩])) := by
  obtain ⟨w, m⟩ := call
  cases w with
  | none =>
    simp only [Console.progress, Console.finish, Option.map_none, true_and]
    by_cases h1 : none = c.percentage <;> by_cases h2 : m = c.msg <;> simp [h1, h2]
  | some w =>
    simp only [Console.progress, Console.calcPercentage, Console.finish, ht, hw, h0, if_false,
      Option.map_some, true_and]
    by_cases h1 : some (pyRound (100 * (w0 + w) / t)) = c.percentage <;>
      by_cases h2 : m = c.msg <;> simp [h1, h2]

end Dedop.Monitor
