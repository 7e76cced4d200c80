import Verif.Workspace.Spec
import Verif.Workspace.FSLemmas

namespace Dedop.Workspace
open Dedop.Names

/-! ## Paths -/

theorem prefix_snoc {p r : Path} {n : Name} : p <+: r ++ [n] ↔ p = r ++ [n] ∨ p <+: r := by
  rw [List.prefix_concat_iff]

theorem level_len {b : Path} (h : Level b) : b.length = 0 ∨ b.length = 2 := by
  rcases h with rfl | ⟨w, -, rfl⟩ <;> simp

theorem snoc_inj {a b : Path} {x y : Name} : a ++ [x] = b ++ [y] ↔ a = b ∧ x = y := by
  constructor
  · intro h
    have h1 := List.append_inj' h rfl
    exact ⟨h1.1, by simpa using h1.2⟩
  · rintro ⟨rfl, rfl⟩; rfl

theorem current_not_plain : ¬ Plain ".current".toList := fun h => h.2.2.2.2.2.2 rfl

/-- If a level directory lies inside `b/y`, the corresponding place inside `b/x` is a level too. -/
theorem level_swap {b t : Path} {x y : Name} (hb : Level b) (hx : Plain x)
    (h : Level (b ++ [y] ++ t)) : Level (b ++ [x] ++ t) := by
  rcases hb with rfl | ⟨w, hw, rfl⟩
  · rcases h with h | ⟨w, hw, h⟩
    · simp at h
    · simp only [List.nil_append, List.singleton_append, List.cons.injEq] at h
      obtain ⟨rfl, rfl⟩ := h
      exact Or.inr ⟨x, hx, rfl⟩
  · rcases h with h | ⟨w', hw', h⟩
    · simp at h
    · simp at h

/-! ## Effects of the primitive operations on views -/

/-- Marker part of the invariant, for all levels. -/
def Marked (g : View) : Prop := ∀ b, Level b → NotDangling g b

theorem tidied_remove {g g' : View} {p : Path} (hp : p ≠ [])
    (hg : ∀ r, g' r = if p <+: r then none else g r) (h : Tidied g) : Tidied g' := by
  refine ⟨?_, ?_⟩
  · intro r n hr
    rw [hg] at hr ⊢
    split at hr
    · exact absurd rfl hr
    · rename_i h1
      rw [if_neg (fun h2 => h1 (h2.trans (List.prefix_append _ _)))]
      exact h.1 r n hr
  · intro b hb n hn
    rw [hg] at hn ⊢
    split at hn
    · exact absurd rfl hn
    · rename_i h1
      rw [if_neg h1]
      exact h.2 b hb n hn

theorem notDangling_remove {g g' : View} {b c : Path} {x : Name} (hx : Plain x)
    (hg : ∀ r, g' r = if b ++ [x] <+: r then none else g r) (h : NotDangling g c)
    (hne : c = b → ∀ s, g (b ++ [".current".toList]) = some (.file s) → firstLine s ≠ x) :
    NotDangling g' c := by
  intro s hs
  rw [hg] at hs
  split at hs
  · cases hs
  · rename_i h1
    rcases h s hs with h2 | h2
    · exact Or.inl h2
    · right
      rw [hg, if_neg, h2]
      intro h3
      rcases prefix_snoc.1 h3 with h4 | h4
      · obtain ⟨rfl, rfl⟩ := snoc_inj.1 h4
        exact hne rfl s hs rfl
      · exact h1 (h4.trans (List.prefix_append _ _))

theorem tidied_copy {g g' : View} {b : Path} {x y : Name} (hb : Level b) (hx : Plain x) (hy : Plain y)
    (hdir : g b = some .dir) (hsrc : g (b ++ [x]) = some .dir)
    (hg : ∀ r, g' r = if b ++ [y] <+: r then g (b ++ [x] ++ r.drop (b ++ [y]).length) else g r)
    (h : Tidied g) : Tidied g' := by
  have hin : ∀ t, g' (b ++ [y] ++ t) = g (b ++ [x] ++ t) := by
    intro t
    rw [hg, if_pos (List.prefix_append _ _), List.drop_left]
  have hout : ∀ r, ¬ b ++ [y] <+: r → g' r = g r := fun r hr => by rw [hg, if_neg hr]
  refine ⟨?_, ?_⟩
  · intro r n hr
    by_cases h1 : b ++ [y] <+: r ++ [n]
    · rcases prefix_snoc.1 h1 with h2 | h2
      · obtain ⟨rfl, rfl⟩ := snoc_inj.1 h2
        rw [hout b (fun h3 => by have := h3.length_le; simp at this)]
        exact hdir
      · obtain ⟨t, rfl⟩ := h2
        rw [List.append_assoc _ t, hin, ← List.append_assoc] at hr
        rw [hin]
        exact h.1 _ n hr
    · rw [hout _ h1] at hr
      rw [hout r (fun h3 => h1 (h3.trans (List.prefix_append _ _)))]
      exact h.1 r n hr
  · intro c hc n hn
    by_cases h1 : b ++ [y] <+: c ++ [n]
    · rcases prefix_snoc.1 h1 with h2 | h2
      · obtain ⟨rfl, rfl⟩ := snoc_inj.1 h2
        right
        refine ⟨hy, ?_⟩
        have := hin []
        simp only [List.append_nil] at this
        rw [this]; exact hsrc
      · obtain ⟨t, rfl⟩ := h2
        have hl := level_swap hb hx hc
        rw [List.append_assoc _ t, hin, ← List.append_assoc] at hn ⊢
        exact h.2 _ hl n hn
    · rw [hout _ h1] at hn ⊢
      exact h.2 c hc n hn

theorem marked_copy {g g' : View} {b : Path} {x y : Name} (hb : Level b) (hx : Plain x) (hy : Plain y)
    (hsrc : g (b ++ [x]) = some .dir)
    (hg : ∀ r, g' r = if b ++ [y] <+: r then g (b ++ [x] ++ r.drop (b ++ [y]).length) else g r)
    (h : Marked g) : Marked g' := by
  have hin : ∀ t, g' (b ++ [y] ++ t) = g (b ++ [x] ++ t) := by
    intro t
    rw [hg, if_pos (List.prefix_append _ _), List.drop_left]
  have hout : ∀ r, ¬ b ++ [y] <+: r → g' r = g r := fun r hr => by rw [hg, if_neg hr]
  intro c hc s hs
  by_cases h1 : b ++ [y] <+: c
  · obtain ⟨t, rfl⟩ := h1
    have hl := level_swap hb hx hc
    rw [List.append_assoc _ t, hin, ← List.append_assoc] at hs
    rw [List.append_assoc _ t, hin, ← List.append_assoc]
    exact h _ hl s hs
  · have h2 : ¬ b ++ [y] <+: c ++ [".current".toList] := by
      intro h3
      rcases prefix_snoc.1 h3 with h4 | h4
      · obtain ⟨-, rfl⟩ := snoc_inj.1 h4
        exact current_not_plain hy
      · exact h1 h4
    rw [hout _ h2] at hs
    rcases h c hc s hs with h3 | h3
    · exact Or.inl h3
    · right
      by_cases h4 : b ++ [y] <+: c ++ [firstLine s]
      · rcases prefix_snoc.1 h4 with h5 | h5
        · rw [← h5]
          have := hin []
          simp only [List.append_nil] at this
          rw [this]; exact hsrc
        · exact absurd h5 h1
      · rw [hout _ h4]; exact h3

/-- Writing the marker of a level. -/
theorem tidied_mark {g g' : View} {b : Path} {s : Name} (hdir : g b = some .dir) (hb : Level b)
    (hg : ∀ r, g' r = if r = b ++ [".current".toList] then some (.file s) else g r)
    (h : Tidied g) : Tidied g' := by
  have hnd : g (b ++ [".current".toList]) ≠ some .dir := by
    intro hd
    rcases h.2 b hb ".current".toList (by rw [hd]; simp) with h1 | h1
    · exact h1.2 hd
    · exact current_not_plain h1.1
  refine ⟨?_, ?_⟩
  · intro r n hr
    rw [hg] at hr ⊢
    split at hr
    · rename_i h1
      obtain ⟨rfl, -⟩ := snoc_inj.1 h1
      rw [if_neg (fun h2 => by have := congrArg List.length h2; simp at this)]
      exact hdir
    · have h1 := h.1 r n hr
      rw [if_neg]
      · exact h1
      · rintro rfl; exact hnd h1
  · intro c hc n hn
    rw [hg] at hn ⊢
    split at hn
    · rename_i h1
      rw [if_pos h1]
      obtain ⟨-, rfl⟩ := snoc_inj.1 h1
      exact Or.inl ⟨rfl, by simp⟩
    · rename_i h1
      rw [if_neg h1]
      exact h.2 c hc n hn

theorem marked_mark {g g' : View} {b : Path} {s : Name} (hb : Level b)
    (hg : ∀ r, g' r = if r = b ++ [".current".toList] then some (.file s) else g r)
    (ht : Tidied g) (hs : firstLine s = [] ∨ g (b ++ [firstLine s]) = some .dir)
    (h : ∀ c, Level c → c ≠ b → NotDangling g c) : Marked g' := by
  have hnd : g (b ++ [".current".toList]) ≠ some .dir := by
    intro hd
    rcases ht.2 b hb ".current".toList (by rw [hd]; simp) with h1 | h1
    · exact h1.2 hd
    · exact current_not_plain h1.1
  intro c hc u hu
  rw [hg] at hu
  split at hu
  · rename_i h1
    obtain ⟨rfl, -⟩ := snoc_inj.1 h1
    cases hu
    rcases hs with h2 | h2
    · exact Or.inl h2
    · right
      rw [hg, if_neg, h2]
      intro h3
      rw [h3] at h2; exact hnd h2
  · rename_i h1
    have hcb : c ≠ b := by rintro rfl; exact h1 rfl
    rcases h c hc hcb u hu with h2 | h2
    · exact Or.inl h2
    · right
      rw [hg, if_neg, h2]
      intro h3
      rw [h3] at h2; exact hnd h2

/-- Making the directory of a new workspace (and the workspaces directory). -/
theorem tidied_mkws {g g' : View} {w : Name} (hw : Plain w)
    (hg : ∀ r, g' r = if r <+: [w] then some .dir else g r) (h : Tidied g) : Tidied g' := by
  refine ⟨?_, ?_⟩
  · intro r n hr
    rw [hg] at hr ⊢
    split at hr
    · rename_i h1
      rw [if_pos ((List.prefix_append _ _).trans h1)]
    · have := h.1 r n hr
      rw [this]; simp
  · intro c hc n hn
    rw [hg] at hn ⊢
    split at hn
    · rename_i h1
      rw [if_pos h1]
      have hl : (c ++ [n]).length ≤ 1 := h1.length_le
      have hc0 : c = [] := by
        cases c with
        | nil => rfl
        | cons a c => simp at hl
      subst hc0
      have : n = w := by simpa using h1
      subst this
      exact Or.inr ⟨hw, rfl⟩
    · rename_i h1
      rw [if_neg h1]
      exact h.2 c hc n hn

theorem marked_mkws {g g' : View} {w : Name} (hw : Plain w)
    (hg : ∀ r, g' r = if r <+: [w] then some .dir else g r) (h : Marked g) : Marked g' := by
  intro c hc u hu
  rw [hg] at hu
  split at hu
  · cases hu
  · rcases h c hc u hu with h2 | h2
    · exact Or.inl h2
    · right; rw [hg, h2]; simp

/-- Making the directory of a new configuration in a workspace. -/
theorem tidied_mkcfg {g g' : View} {w c : Name} (hw : Plain w) (hc : Plain c)
    (hg : ∀ r, g' r = if r <+: [w, "configs".toList, c] then some .dir else g r) (h : Tidied g) :
    Tidied g' := by
  refine ⟨?_, ?_⟩
  · intro r n hr
    rw [hg] at hr ⊢
    split at hr
    · rename_i h1
      rw [if_pos ((List.prefix_append _ _).trans h1)]
    · have := h.1 r n hr
      rw [this]; simp
  · intro b hb n hn
    rw [hg] at hn ⊢
    split at hn
    · rename_i h1
      rw [if_pos h1]
      right
      refine ⟨?_, rfl⟩
      rcases hb with rfl | ⟨w', hw', rfl⟩
      · simp at h1
        exact h1 ▸ hw
      · simp at h1
        exact h1.2 ▸ hc
    · rename_i h1
      rw [if_neg h1]
      exact h.2 b hb n hn

theorem marked_mkcfg {g g' : View} {p : Path}
    (hg : ∀ r, g' r = if r <+: p then some .dir else g r) (h : Marked g) : Marked g' := by
  intro c hc u hu
  rw [hg] at hu
  split at hu
  · cases hu
  · rcases h c hc u hu with h2 | h2
    · exact Or.inl h2
    · right; rw [hg, h2]; simp

/-- Writing a file inside a configuration. -/
theorem tidied_file {g g' : View} {w c f s : Name} (hdir : g [w, "configs".toList, c] = some .dir)
    (hnd : g [w, "configs".toList, c, f] ≠ some .dir)
    (hg : ∀ r, g' r = if r = [w, "configs".toList, c, f] then some (.file s) else g r)
    (h : Tidied g) : Tidied g' := by
  refine ⟨?_, ?_⟩
  · intro r n hr
    rw [hg] at hr ⊢
    split at hr
    · rename_i h1
      have h2 : r ++ [n] = [w, "configs".toList, c] ++ [f] := h1
      obtain ⟨rfl, -⟩ := snoc_inj.1 h2
      rw [if_neg (by simp)]; exact hdir
    · have h1 := h.1 r n hr
      rw [if_neg]
      · exact h1
      · rintro rfl; exact hnd h1
  · intro b hb n hn
    have hne : b ++ [n] ≠ [w, "configs".toList, c, f] := by
      intro h1
      have := congrArg List.length h1
      rcases level_len hb with h2 | h2 <;> simp [h2] at this
    rw [hg, if_neg hne] at hn ⊢
    exact h.2 b hb n hn

theorem marked_file {g g' : View} {w c f s : Name}
    (hg : ∀ r, g' r = if r = [w, "configs".toList, c, f] then some (.file s) else g r)
    (h : Marked g) : Marked g' := by
  intro b hb u hu
  have hne : ∀ n, b ++ [n] ≠ [w, "configs".toList, c, f] := by
    intro n h1
    have := congrArg List.length h1
    rcases level_len hb with h2 | h2 <;> simp [h2] at this
  rw [hg, if_neg (hne _)] at hu
  rw [hg, if_neg (hne _)]
  exact h b hb u hu

/-- Nothing lies below what does not exist. -/
theorem tree_none_below {g : View} (h : IsTree g) {q : Path} (hq : g q = none) (t : Path) :
    g (q ++ t) = none := by
  induction t using List.reverseRecOn with
  | nil => simpa using hq
  | append_singleton t n ih =>
    by_contra hne
    rw [← List.append_assoc] at hne
    have := h _ n hne
    rw [ih] at this
    cases this

end Dedop.Workspace
