import Verif.Basic.Tactics
import Verif.Names.Model
import Mathlib.Data.Finset.Card
import Mathlib.Data.Finset.Image
import Mathlib.Data.List.Basic

namespace Dedop.Names

/-- Left inverse of `decimal`. -/
def undecimal (l : Name) : Nat := l.foldl (fun n c => n * 10 + (c.toNat - 48)) 0

theorem undecimal_decimal (n : Nat) : undecimal (decimal n) = n := by
  have digit : ∀ d, d < 10 → (digitChar d).toNat - 48 = d := by decide
  induction n using Nat.strongRecOn with
  | ind n ih =>
    rw [decimal]
    split
    · rename_i h
      simp [undecimal, digit n h]
    · rename_i h
      have h1 := ih (n / 10) (by omega)
      unfold undecimal at h1 ⊢
      rw [List.foldl_append, h1]
      simp only [List.foldl_cons, List.foldl_nil]
      rw [digit _ (by omega)]
      omega

theorem decimal_injective {a b : Nat} (h : decimal a = decimal b) : a = b := by
  rw [← undecimal_decimal a, ← undecimal_decimal b, h]

/-- Among `k ↦ f k` for `k` in `start, …, start + l.length` one value is not in `l`, if `f` is
injective. -/
theorem exists_free {α : Type} [DecidableEq α] (l : List α) (f : Nat → α)
    (hf : ∀ a b, f a = f b → a = b) (start : Nat) : ∃ k, k ≤ l.length ∧ f (start + k) ∉ l := by
  by_contra hcon
  push Not at hcon
  have hsub : (Finset.range (l.length + 1)).image (fun k => f (start + k)) ⊆ l.toFinset := by
    intro x hx
    rw [Finset.mem_image] at hx
    obtain ⟨k, hk, rfl⟩ := hx
    rw [Finset.mem_range] at hk
    rw [List.mem_toFinset]
    exact hcon k (by omega)
  have hcard := Finset.card_le_card hsub
  rw [Finset.card_image_of_injective _ (fun a b h => by have := hf _ _ h; omega),
    Finset.card_range] at hcard
  have := List.toFinset_card_le l
  omega

theorem suffixed_injective (base : Name) {a b : Nat}
    (h : base ++ ['_'] ++ decimal a = base ++ ['_'] ++ decimal b) : a = b :=
  decimal_injective (List.append_cancel_left h)

theorem notebookName_injective (base : Name) {a b : Nat}
    (h : notebookName base a = notebookName base b) : a = b := by
  unfold notebookName at h
  have h1 := List.append_cancel_right h
  exact decimal_injective (List.append_cancel_left h1)

/-- The loop, entered with the candidate of index `i` known to be taken or not: it stops at the
first free index. -/
theorem uniqueLoop_finds (existing : List Name) (base : Name) (i d fuel : Nat)
    (hfree : base ++ ['_'] ++ decimal (i + d) ∉ existing)
    (htaken : ∀ j, i ≤ j → j < i + d → base ++ ['_'] ++ decimal j ∈ existing) (hfuel : d < fuel) :
    uniqueLoop existing base fuel (base ++ ['_'] ++ decimal i) (i + 1) =
      some (base ++ ['_'] ++ decimal (i + d)) := by
  induction d generalizing i fuel with
  | zero =>
    obtain ⟨f, rfl⟩ : ∃ f, fuel = f + 1 := ⟨fuel - 1, by omega⟩
    unfold uniqueLoop
    rw [if_neg (by simpa using hfree)]
    simp
  | succ d ih =>
    obtain ⟨f, rfl⟩ : ∃ f, fuel = f + 1 := ⟨fuel - 1, by omega⟩
    unfold uniqueLoop
    rw [if_pos (htaken i (le_refl _) (by omega))]
    have := ih (i + 1) f (by rwa [show i + 1 + d = i + (d + 1) by omega])
      (fun j h1 h2 => htaken j (by omega) (by omega)) (by omega)
    rw [this, show i + 1 + d = i + (d + 1) by omega]

/-- Smallest natural number with a property. -/
theorem exists_smallest (P : Nat → Prop) (h : ∃ k, P k) : ∃ k, P k ∧ ∀ j, j < k → ¬ P j := by
  classical
  obtain ⟨n, hn⟩ := h
  induction n using Nat.strongRecOn with
  | ind n ih =>
    by_cases hex : ∃ j, j < n ∧ P j
    · obtain ⟨j, h1, h2⟩ := hex
      exact ih j h1 h2
    · exact ⟨n, hn, fun j h1 h2 => hex ⟨j, h1, h2⟩⟩

theorem notebookLoop_finds (dir : Dict Name String) (base : Name) (i d fuel : Nat)
    (hfree : dir.get? (notebookName base (i + 1 + d)) = none)
    (htaken : ∀ j, i < j → j < i + 1 + d → dir.get? (notebookName base j) ≠ none)
    (hfuel : d < fuel) : notebookLoop dir base fuel i = some (i + 1 + d) := by
  induction d generalizing i fuel with
  | zero =>
    obtain ⟨f, rfl⟩ : ∃ f, fuel = f + 1 := ⟨fuel - 1, by omega⟩
    unfold notebookLoop
    simp only [Nat.add_zero] at hfree
    rw [hfree]
  | succ d ih =>
    obtain ⟨f, rfl⟩ : ∃ f, fuel = f + 1 := ⟨fuel - 1, by omega⟩
    unfold notebookLoop
    have h1 := htaken (i + 1) (by omega) (by omega)
    cases h2 : dir.get? (notebookName base (i + 1)) with
    | none => exact absurd h2 h1
    | some _ =>
      simp only
      have := ih (i + 1) f (by rwa [show i + 1 + 1 + d = i + 1 + (d + 1) by omega])
        (fun j h3 h4 => htaken j (by omega) (by omega)) (by omega)
      rw [this]; congr 1; omega

theorem get?_none_of_not_mem {K V : Type} [DecidableEq K] (d : Dict K V) (k : K)
    (h : k ∉ d.map Prod.fst) : d.get? k = none := by
  induction d with
  | nil => rfl
  | cons p d ih =>
    simp only [List.map_cons, List.mem_cons, not_or] at h
    obtain ⟨k', v⟩ := p
    simp only [Dict.get?]
    rw [if_neg h.1]
    exact ih h.2

/-! ## Listing -/

theorem insertName_perm (a : Name) (l : List Name) : (insertName a l).Perm (a :: l) := by
  induction l with
  | nil => exact List.Perm.refl _
  | cons b l ih =>
    unfold insertName
    split
    · exact List.Perm.refl _
    · exact (List.Perm.cons b ih).trans (List.Perm.swap a b l)

theorem sortNames_perm (l : List Name) : (sortNames l).Perm l := by
  induction l with
  | nil => exact List.Perm.refl _
  | cons a l ih => exact (insertName_perm a _).trans (List.Perm.cons a ih)

theorem insertName_sorted (a : Name) (l : List Name) (h : l.Pairwise (· ≤ ·)) :
    (insertName a l).Pairwise (· ≤ ·) := by
  induction l with
  | nil => simp [insertName]
  | cons b l ih =>
    rw [List.pairwise_cons] at h
    unfold insertName
    split
    · rename_i hab
      rw [List.pairwise_cons, List.pairwise_cons]
      refine ⟨?_, h⟩
      intro x hx
      rcases List.mem_cons.1 hx with rfl | hx
      · exact hab
      · exact List.le_trans hab (h.1 x hx)
    · rename_i hab
      rw [List.pairwise_cons]
      refine ⟨?_, ih h.2⟩
      intro x hx
      have hx' := (insertName_perm a l).mem_iff.1 hx
      rcases List.mem_cons.1 hx' with rfl | hx'
      · exact (List.le_total b x).resolve_right hab
      · exact h.1 x hx'

theorem sortNames_sorted (l : List Name) : (sortNames l).Pairwise (· ≤ ·) := by
  induction l with
  | nil => exact List.Pairwise.nil
  | cons a l ih => exact insertName_sorted a _ ih

/-! ## Output products -/

theorem part_injective {a b c : Name} (h : part a ++ c = part b ++ c) : a = b := by
  have h := List.append_cancel_right h
  unfold part at h
  split at h <;> split at h <;> simp_all

end Dedop.Names
