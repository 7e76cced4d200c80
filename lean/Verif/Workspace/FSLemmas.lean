import Verif.Basic.Tactics
import Verif.Workspace.FS
import Verif.Names.Lemmas

namespace Dedop.Workspace
open Dedop.Names
namespace FS

theorem get?_append (a b : FS) (r : Path) :
    Dict.get? (a ++ b) r = (match Dict.get? a r with | some e => some e | none => Dict.get? b r) := by
  induction a with
  | nil => rfl
  | cons x a ih =>
    obtain ⟨k, v⟩ := x
    simp only [List.cons_append, Dict.get?]
    split
    · rfl
    · exact ih

theorem get?_filter (fs : FS) (P : Path → Bool) (r : Path) :
    Dict.get? (fs.filter (fun e => P e.1)) r = if P r then Dict.get? fs r else none := by
  induction fs with
  | nil => simp [Dict.get?]
  | cons x fs ih =>
    obtain ⟨k, v⟩ := x
    rw [List.filter_cons]
    by_cases hr : r = k
    · subst hr
      by_cases hP : P r = true
      · simp [hP, Dict.get?]
      · simp only [hP, Dict.get?]
        rw [if_neg (by simp), ih]
        simp [hP]
    · by_cases hk : P k = true
      · simp only [hk, if_true, Dict.get?, hr, if_false]; exact ih
      · simp only [hk, Dict.get?, hr, if_false]
        rw [if_neg (by simp)]; exact ih

theorem get?_rmtree (fs : FS) (p r : Path) :
    Dict.get? (fs.rmtree p) r = if p <+: r then none else Dict.get? fs r := by
  unfold rmtree
  have := get?_filter fs (fun q => decide (¬ p <+: q)) r
  rw [this]
  by_cases h : p <+: r <;> simp [h]

theorem get?_map_rebase (fs : FS) (p q r : Path) (hall : ∀ e ∈ fs, p <+: e.1) :
    Dict.get? (fs.map (fun e => (q ++ e.1.drop p.length, e.2))) r =
      if q <+: r then Dict.get? fs (p ++ r.drop q.length) else none := by
  induction fs with
  | nil => simp [Dict.get?]
  | cons x fs ih =>
    obtain ⟨k, v⟩ := x
    have ih' := ih (fun e he => hall e (List.mem_cons_of_mem _ he))
    obtain ⟨t, ht⟩ := hall (k, v) List.mem_cons_self
    simp only at ht
    subst ht
    simp only [List.map_cons, Dict.get?, List.drop_left]
    by_cases hq : q <+: r
    · obtain ⟨s, rfl⟩ := hq
      simp only [List.append_cancel_left_eq, List.prefix_append, if_true, List.drop_left] at ih' ⊢
      split
      · rfl
      · exact ih'
    · rw [if_neg hq] at ih' ⊢
      rw [if_neg (fun h => hq ⟨t, h.symm⟩)]
      exact ih'

theorem get?_rebase (fs : FS) (p q r : Path) :
    Dict.get? (fs.rebase p q) r =
      if q <+: r then Dict.get? fs (p ++ r.drop q.length) else none := by
  unfold rebase
  rw [get?_map_rebase _ p q r (by
    intro e he
    simpa using (List.mem_filter.1 he).2)]
  have := get?_filter fs (fun x => decide (p <+: x)) (p ++ r.drop q.length)
  rw [this]
  simp

/-- Contents after `copytree` to a place where nothing is. -/
theorem get?_copytree (fs : FS) (p q r : Path) (hq : ∀ t, Dict.get? fs (q ++ t) = none) :
    Dict.get? (fs.copytree p q) r =
      if q <+: r then Dict.get? fs (p ++ r.drop q.length) else Dict.get? fs r := by
  unfold copytree
  rw [get?_append, get?_rebase]
  by_cases h : q <+: r
  · obtain ⟨t, rfl⟩ := h
    rw [hq t]
  · rw [if_neg h, if_neg h]
    cases Dict.get? fs r <;> rfl

/-- Contents after `rename` to a place where nothing is. -/
theorem get?_rename (fs : FS) (p q r : Path) (hq : ∀ t, Dict.get? fs (q ++ t) = none) :
    Dict.get? (fs.rename p q) r =
      if q <+: r then Dict.get? fs (p ++ r.drop q.length)
      else if p <+: r then none else Dict.get? fs r := by
  unfold rename
  rw [get?_append, get?_rebase, get?_rmtree]
  by_cases h : q <+: r
  · obtain ⟨t, rfl⟩ := h
    rw [hq t]
    simp
  · rw [if_neg h, if_neg h]
    by_cases hp : p <+: r
    · simp [hp]
    · simp only [hp, if_false]
      cases Dict.get? fs r <;> rfl

theorem mem_of_get? {fs : FS} {p : Path} {e : Entry} (h : Dict.get? fs p = some e) :
    (p, e) ∈ fs := by
  induction fs with
  | nil => simp [Dict.get?] at h
  | cons x fs ih =>
    obtain ⟨k, v⟩ := x
    simp only [Dict.get?] at h
    split at h
    · rename_i hk; subst hk; cases h; exact List.mem_cons_self
    · exact List.mem_cons_of_mem _ (ih h)

theorem exists_get?_of_mem {fs : FS} {p : Path} {e : Entry} (h : (p, e) ∈ fs) :
    ∃ e', Dict.get? fs p = some e' := by
  induction fs with
  | nil => cases h
  | cons x fs ih =>
    obtain ⟨k, v⟩ := x
    simp only [Dict.get?]
    split
    · exact ⟨v, rfl⟩
    · rename_i hk
      rcases List.mem_cons.1 h with h | h
      · cases h; exact absurd rfl hk
      · exact ih h

theorem mem_listdir (fs : FS) (p : Path) (n : Name) :
    n ∈ fs.listdir p ↔ Dict.get? fs (p ++ [n]) ≠ none := by
  unfold listdir
  rw [List.mem_filterMap]
  constructor
  · rintro ⟨⟨k, v⟩, hm, h⟩
    split at h
    · rename_i hk
      obtain ⟨⟨t, ht⟩, hl⟩ := hk
      simp only at ht hl h
      subst ht
      rw [List.length_append] at hl
      obtain ⟨c, rfl⟩ : ∃ c, t = [c] := by
        match t, hl with
        | [], hl => simp at hl
        | [c], _ => exact ⟨c, rfl⟩
        | _ :: _ :: _, hl => simp at hl
      simp only [List.getLast?_append, List.getLast?_singleton, Option.some_or, Option.some.injEq] at h
      subst h
      obtain ⟨e', he'⟩ := exists_get?_of_mem hm
      rw [he']; simp
    · cases h
  · intro h
    obtain ⟨e, he⟩ := Option.ne_none_iff_exists'.1 h
    refine ⟨(p ++ [n], e), mem_of_get? he, ?_⟩
    simp

theorem isDir_iff (fs : FS) (p : Path) : fs.isDir p = true ↔ Dict.get? fs p = some .dir := by
  unfold isDir; simp

theorem exists?_iff (fs : FS) (p : Path) : fs.exists? p = true ↔ Dict.get? fs p ≠ none := by
  unfold exists?; rw [Option.isSome_iff_ne_none]

theorem get?_set (fs : FS) (p r : Path) (e : Entry) :
    Dict.get? (Dict.set fs p e) r = if r = p then some e else Dict.get? fs r := Dict.get?_set fs p r e

theorem mkdirOk_ok {fs fs' : FS} {p : Path} (h : fs.mkdirOk p = .ok fs') (r : Path) :
    Dict.get? fs' r = if r = p then some .dir else Dict.get? fs r := by
  unfold mkdirOk at h
  split at h
  · cases h; exact get?_set _ _ _ _
  · rename_i hd
    cases h
    by_cases hr : r = p
    · subst hr; simp [hd]
    · simp [hr]
  · cases h

theorem makedirsFrom_ok {fs fs' : FS} {pre t : Path} (h : fs.makedirsFrom pre t = .ok fs') (r : Path) :
    Dict.get? fs' r = if pre <+: r ∧ r <+: pre ++ t then some .dir else Dict.get? fs r := by
  induction t generalizing fs pre with
  | nil =>
    rw [mkdirOk_ok h r, List.append_nil]
    by_cases hr : r = pre
    · subst hr; simp
    · rw [if_neg hr, if_neg]
      rintro ⟨h1, h2⟩
      exact hr (List.IsPrefix.eq_of_length_le h2 h1.length_le)
  | cons c t ih =>
    simp only [makedirsFrom] at h
    split at h
    · cases h
    · rename_i fs1 h1
      rw [ih h, mkdirOk_ok h1]
      by_cases hr : r = pre
      · subst hr
        rw [if_neg (by
          rintro ⟨h2, -⟩
          have := h2.length_le
          simp at this), if_pos rfl, if_pos]
        exact ⟨List.prefix_refl _, by simp⟩
      · rw [if_neg hr]
        rw [List.append_assoc, List.singleton_append]
        by_cases h2 : pre <+: r ∧ r <+: pre ++ c :: t
        · rw [if_pos h2, if_pos]
          refine ⟨?_, h2.2⟩
          obtain ⟨⟨s, rfl⟩, h3⟩ := h2
          cases s with
          | nil => simp at hr
          | cons d s =>
            rw [List.prefix_append_right_inj, List.cons_prefix_cons] at h3
            rw [h3.1, List.prefix_append_right_inj]
            simp
        · rw [if_neg h2, if_neg]
          rintro ⟨h3, h4⟩
          exact h2 ⟨(List.prefix_append _ _).trans h3, h4⟩

theorem makedirs_ok {fs fs' : FS} {p : Path} (h : fs.makedirs p = .ok fs') (r : Path) :
    Dict.get? fs' r = if r <+: p then some .dir else Dict.get? fs r := by
  have := makedirsFrom_ok h r
  simpa using this

theorem write_ok {fs fs' : FS} {p : Path} {c : Name} (h : fs.write p c = .ok fs') (r : Path) :
    Dict.get? fs' r = if r = p then some (.file c) else Dict.get? fs r := by
  unfold write at h
  split at h
  · cases h; exact get?_set _ _ _ _
  · cases h

theorem write_succeeds (fs : FS) (p : Path) (c : Name) (h1 : Dict.get? fs p.dropLast = some .dir)
    (h2 : Dict.get? fs p ≠ some .dir) : fs.write p c = .ok (Dict.set fs p (.file c)) := by
  unfold write
  rw [if_pos]
  refine ⟨(isDir_iff _ _).2 h1, ?_⟩
  rw [isDir_iff]; exact h2

end FS
end Dedop.Workspace
