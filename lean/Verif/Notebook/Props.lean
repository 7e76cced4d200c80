import Verif.Notebook.Shipped
/-!
# Notebooks and the products they show (C85, C86)
-/
namespace Dedop.Notebook
open Dedop.Names (Name basename)
open Dedop.Figures (dirname)

/-! ## C85: which products are compared -/

/-- Specification, from the help text of the command: a file name stands for a file in the outputs of the configuration, anything
else is a path. -/
def product (outputs cwd f : Name) : Name := if dirname f = [] then join outputs f else join cwd f

/-- **C85** for `inspect`. -/
theorem inspect_product (d : Dirs) (f : Name) : inspectPath d f = product d.outputs1 d.cwd f := by
  unfold inspectPath product abspath
  by_cases h : dirname f = []
  · rw [if_neg (not_not.mpr h), if_pos h]
  · rw [if_pos h, if_neg h]

/-- **C85** for `compare`, the part that holds: two file names or two paths. -/
theorem compare_products_partial (d : Dirs) (f1 f2 : Name) (h : dirname f1 = [] ↔ dirname f2 = []) :
    comparePaths d f1 (some f2) = .ok (product d.outputs1 d.cwd f1, product d.outputs2 d.cwd f2) := by
  unfold comparePaths product abspath
  by_cases h1 : dirname f1 = []
  · have h2 := h.mp h1
    simp [h1, h2]
  · have h2 : ¬ dirname f2 = [] := fun e => h1 (h.mpr e)
    simp [h1, h2]

/-- The first product is always the one named; the second one too if it is an absolute path. -/
theorem compare_first (d : Dirs) (f1 f2 : Name) : ∃ p2, comparePaths d f1 (some f2) = .ok (product d.outputs1 d.cwd f1, p2) ∧
    (f2.head? = some '/' → p2 = f2) := by
  unfold comparePaths product abspath
  by_cases h1 : dirname f1 = []
  · refine ⟨join d.outputs2 f2, by simp [h1], fun h => ?_⟩
    simp [join, h]
  · refine ⟨join d.cwd f2, by simp [h1], fun h => ?_⟩
    simp [join, h]

/-- **C85 is violated** by a path and a file name: the file name is looked up in the current directory. -/
theorem compare_path_name_violated (d : Dirs) (f1 f2 : Name) (h1 : dirname f1 ≠ []) (h2 : dirname f2 = [])
    (hd : join d.outputs2 f2 ≠ join d.cwd f2) :
    ∃ p2, comparePaths d f1 (some f2) = .ok (product d.outputs1 d.cwd f1, p2) ∧ p2 ≠ product d.outputs2 d.cwd f2 := by
  refine ⟨join d.cwd f2, ?_, ?_⟩
  · unfold comparePaths product abspath
    simp [h1]
  · unfold product
    rw [if_pos h2]
    exact Ne.symm hd

/-- **C85 is violated** by a file name and a relative path: the path is looked up in the outputs. -/
theorem compare_name_path_violated (d : Dirs) (f1 f2 : Name) (h1 : dirname f1 = []) (h2 : dirname f2 ≠ [])
    (hd : join d.outputs2 f2 ≠ join d.cwd f2) :
    ∃ p2, comparePaths d f1 (some f2) = .ok (product d.outputs1 d.cwd f1, p2) ∧ p2 ≠ product d.outputs2 d.cwd f2 := by
  refine ⟨join d.outputs2 f2, ?_, ?_⟩
  · unfold comparePaths product abspath
    simp [h1]
  · unfold product
    rw [if_neg h2]
    exact hd

/-- **C85 is violated** without a second name, for which the help text promises the first one. -/
theorem compare_omitted_violated (d : Dirs) (f1 : Name) : comparePaths d f1 none = .error .typeError := rfl

example : comparePaths ⟨"/o1".toList, "/o2".toList, "/home".toList⟩ "a.nc".toList (some "b.nc".toList) =
    .ok ("/o1/a.nc".toList, "/o2/b.nc".toList) := by decide +kernel
example : comparePaths ⟨"/o1".toList, "/o2".toList, "/home".toList⟩ "x/a.nc".toList (some "b.nc".toList) =
    .ok ("/home/x/a.nc".toList, "/home/b.nc".toList) := by decide +kernel
example : comparePaths ⟨"/o1".toList, "/o2".toList, "/home".toList⟩ "a.nc".toList (some "x/b.nc".toList) =
    .ok ("/o1/a.nc".toList, "/o2/x/b.nc".toList) := by decide +kernel

/-! ## Placeholders in lines -/

theorem prefix_cut {c : Char} {pat : Name} (hc : c ∉ pat) : ∀ a b : Name, pat <+: a ++ c :: b → pat <+: a := by
  induction pat with
  | nil => intro a b _; exact List.nil_prefix
  | cons p pat ih =>
    intro a b h
    cases a with
    | nil =>
      simp only [List.nil_append, List.cons_prefix_cons] at h
      exact absurd (h.1 ▸ List.mem_cons_self) hc
    | cons x a =>
      simp only [List.cons_append, List.cons_prefix_cons] at h ⊢
      exact ⟨h.1, ih (fun hm => hc (List.mem_cons_of_mem _ hm)) a b h.2⟩

theorem infix_cut {c : Char} {pat : Name} (hc : c ∉ pat) : ∀ a b : Name, pat <:+: a ++ c :: b → pat <:+: a ∨ pat <:+: b := by
  intro a b
  induction a with
  | nil =>
    intro h
    rw [List.nil_append, List.infix_cons_iff] at h
    rcases h with h | h
    · exact .inl (prefix_cut hc [] b h).isInfix
    · exact .inr h
  | cons x a ih =>
    intro h
    rw [List.cons_append, List.infix_cons_iff] at h
    rcases h with h | h
    · exact .inl (prefix_cut hc (x :: a) b h).isInfix
    · rcases ih h with h | h
      · exact .inl (List.infix_cons_iff.mpr (.inr h))
      · exact .inr h

theorem infix_lines {pat : Name} (hc : '\n' ∉ pat) (lines : List String) (s : Name) (h : pat <:+: unlines lines ++ s) :
    (∃ l ∈ lines, pat <:+: l.toList) ∨ pat <:+: s := by
  induction lines with
  | nil => exact .inr h
  | cons l t ih =>
    unfold unlines at h
    rw [List.append_assoc, List.cons_append] at h
    rcases infix_cut hc _ _ h with h | h
    · exact .inl ⟨l, List.mem_cons_self, h⟩
    · rcases ih h with ⟨m, hm, h⟩ | h
      · exact .inl ⟨m, List.mem_cons_of_mem _ hm, h⟩
      · exact .inr h

theorem infix_drop {pat : Name} {p : Char} (hp : pat.head? = some p) : ∀ l r : Name, p ∉ l → pat <:+: l ++ r → pat <:+: r := by
  intro l r
  induction l with
  | nil => intro _ h; exact h
  | cons x l ih =>
    intro hm h
    rw [List.cons_append, List.infix_cons_iff] at h
    rcases h with h | h
    · obtain ⟨t, rfl⟩ : ∃ t, pat = p :: t := by
        cases pat with
        | nil => cases hp
        | cons a t => exact ⟨t, by simp at hp; rw [hp]⟩
      rw [List.cons_prefix_cons] at h
      exact absurd (h.1 ▸ List.mem_cons_self) hm
    · exact ih (fun h' => hm (List.mem_cons_of_mem _ h')) h

/-! ## C86 -/

theorem inspect_once : Once mark (inspectPre ++ '"' :: inspectBefore) (inspectAfter ++ '"' :: inspectPost) := by
  have hn : '\n' ∉ mark := by decide
  have hq : '"' ∉ mark := by decide
  constructor
  · unfold inspectPre
    rw [List.append_assoc, List.append_assoc]
    intro h
    rcases infix_lines hn _ _ h with h | h
    · revert h
      decide +kernel
    · revert h
      decide +kernel
  · intro h
    rcases infix_cut hq _ _ h with h | h
    · revert h
      decide +kernel
    · unfold inspectPost at h
      rcases infix_lines hn _ _ h with h | h
      · revert h
        decide +kernel
      · revert h
        decide +kernel

theorem plain_of (s : Name) (h : s.all fun c => c ≠ '"' && c ≠ '\\' && decide (32 ≤ c.toNat)) : Plain s := by
  intro c hc
  have := List.all_eq_true.mp h c hc
  simp only [Bool.and_eq_true, decide_eq_true_eq] at this
  exact ⟨by simpa using this.1.1, by simpa using this.1.2, this.2⟩

/-- **C86** for one product and the shipped template: the notebook calls `inspect_l1b_product` with the path, exactly if there is no
quote in the path. -/
theorem inspect_notebook_partial (printable : Char → Bool) (path : Name) :
    Calls (inspectNotebook printable inspectTemplate path) inspectPre inspectBefore path inspectAfter inspectPost ↔
      '\'' ∉ path ∧ '"' ∉ path := by
  have e : inspectNotebook printable inspectTemplate path =
      inspectPre ++ '"' :: inspectBefore ++ pathText printable path ++ (inspectAfter ++ '"' :: inspectPost) := by
    unfold inspectNotebook inspectTemplate
    exact replace_once mark _ _ _ (by decide) inspect_once
  rw [e]
  constructor
  · intro h
    by_contra hq
    have hq : '\'' ∈ path ∨ '"' ∈ path := by
      by_contra h'
      rw [not_or] at h'
      exact hq h'
    exact text_calls_violated printable _ _ _ _ _ path (plain_of _ (by decide +kernel)) hq h
  · intro h
    exact text_calls_partial printable _ _ _ _ _ path (plain_of _ (by decide +kernel))
      (encodes_plain (plain_of _ (by decide +kernel))) h.1 h.2

/-- **C86 is violated** for one product: a directory name with an apostrophe. -/
theorem inspect_quote_violated (printable : Char → Bool) :
    ¬ Calls (inspectNotebook printable inspectTemplate "/home/o'neil/L1B.nc".toList) inspectPre inspectBefore
      "/home/o'neil/L1B.nc".toList inspectAfter inspectPost := by
  rw [inspect_notebook_partial]
  decide +kernel

example : '\'' ∉ "/home/me/a b\\c.nc".toList ∧ '"' ∉ "/home/me/a b\\c.nc".toList := by decide +kernel
example : inspectBefore = "insp = inspect_l1b_product(".toList := rfl

/-- Escaping a path does not create a text without backslashes that was not there. -/
theorem escaped_infix (printable : Char → Bool) (pat : Name) (hb : '\\' ∉ pat) (p : Char) (hp : pat.head? = some p)
    (hx : p ∉ "tnrxuU0123456789abcdef'\"".toList) (s : Name) (r : Char) (hr : r ∉ pat) :
    pat <:+: (s.flatMap fun c => doubleBackslash (reprChar printable '\'' c)) ++ [r] → pat <:+: s := by
  have cases : ∀ c, doubleBackslash (reprChar printable '\'' c) = [c] ∨
      ∃ u, doubleBackslash (reprChar printable '\'' c) = '\\' :: u ∧ p ∉ '\\' :: u := by
    intro c
    have hbp : p ≠ '\\' := by
      intro e
      subst e
      apply hb
      cases pat with
      | nil => cases hp
      | cons a t => simp at hp; rw [hp]; exact List.mem_cons_self
    have hesc : ∀ v : Name, (∀ x ∈ v, x = '\\' ∨ x ∈ "tnrxuU0123456789abcdef'\"".toList) → p ∉ doubleBackslash v := by
      intro v hv hm
      unfold doubleBackslash at hm
      obtain ⟨x, hxv, hxm⟩ := List.mem_flatMap.mp hm
      have : p = x := by
        split at hxm
        · rename_i h
          rw [h]
          simpa using hxm
        · simpa using hxm
      subst this
      rcases hv p hxv with h | h
      · exact hbp h
      · exact hx h
    have go : ∀ v : Name, (∀ x ∈ v, x = '\\' ∨ x ∈ "tnrxuU0123456789abcdef'\"".toList) →
        reprChar printable '\'' c = '\\' :: v → ∃ u, doubleBackslash (reprChar printable '\'' c) = '\\' :: u ∧ p ∉ '\\' :: u := by
      intro v hv he
      refine ⟨'\\' :: doubleBackslash v, ?_, ?_⟩
      · rw [he]
        simp [doubleBackslash]
      · simp only [List.mem_cons, not_or]
        exact ⟨hbp, hbp, hesc v hv⟩
    have hexs : ∀ e k n, e ∈ "xuU".toList → ∀ x ∈ e :: hex k n, x = '\\' ∨ x ∈ "tnrxuU0123456789abcdef'\"".toList := by
      intro e k n he x hxm
      right
      rcases List.mem_cons.mp hxm with rfl | hxm
      · revert he
        generalize x = y
        intro he
        have hall : ∀ y ∈ "xuU".toList, y ∈ "tnrxuU0123456789abcdef'\"".toList := by decide +kernel
        exact hall y he
      · have hall : ∀ y ∈ "0123456789abcdef".toList, y ∈ "tnrxuU0123456789abcdef'\"".toList := by decide +kernel
        exact hall x (hex_mem _ _ _ hxm)
    have single : ∀ e, e ∈ "tnrxuU0123456789abcdef'\"".toList ∨ e = '\\' → ∀ x ∈ ([e] : Name), x = '\\' ∨ x ∈ "tnrxuU0123456789abcdef'\"".toList := by
      intro e he x hxm
      rw [List.mem_singleton] at hxm
      subst hxm
      exact he.symm
    have raw : c ≠ '\\' → reprChar printable '\'' c = [c] → doubleBackslash (reprChar printable '\'' c) = [c] := by
      intro h1 h2
      rw [h2]
      simp [doubleBackslash, h1]
    by_cases h1 : c = '\'' ∨ c = '\\'
    · right
      refine go [c] (single c ?_) (by unfold reprChar; rw [if_pos h1])
      rcases h1 with rfl | rfl
      · left; decide +kernel
      · right; rfl
    by_cases h2 : c = '\t'
    · right
      exact go ['t'] (single 't' (.inl (by decide +kernel))) (by unfold reprChar; rw [if_neg h1, if_pos h2])
    by_cases h3 : c = '\n'
    · right
      exact go ['n'] (single 'n' (.inl (by decide +kernel))) (by unfold reprChar; rw [if_neg h1, if_neg h2, if_pos h3])
    by_cases h4 : c = '\r'
    · right
      exact go ['r'] (single 'r' (.inl (by decide +kernel))) (by unfold reprChar; rw [if_neg h1, if_neg h2, if_neg h3, if_pos h4])
    by_cases h5 : c.toNat < 32 ∨ c.toNat = 127
    · right
      exact go _ (hexs 'x' 2 _ (by decide +kernel)) (by unfold reprChar; rw [if_neg h1, if_neg h2, if_neg h3, if_neg h4, if_pos h5]; rfl)
    push Not at h1
    by_cases h6 : c.toNat < 127
    · left
      exact raw h1.2 (by unfold reprChar; rw [if_neg (by simp [h1]), if_neg h2, if_neg h3, if_neg h4, if_neg h5, if_pos h6])
    by_cases h7 : printable c = true
    · left
      exact raw h1.2 (by unfold reprChar; rw [if_neg (by simp [h1]), if_neg h2, if_neg h3, if_neg h4, if_neg h5, if_neg h6, if_pos h7])
    right
    by_cases h8 : c.toNat < 256
    · exact go _ (hexs 'x' 2 _ (by decide +kernel)) (by unfold reprChar; rw [if_neg (by simp [h1]), if_neg h2, if_neg h3, if_neg h4, if_neg h5, if_neg h6, if_neg h7, if_pos h8]; rfl)
    by_cases h9 : c.toNat < 65536
    · exact go _ (hexs 'u' 4 _ (by decide +kernel)) (by unfold reprChar; rw [if_neg (by simp [h1]), if_neg h2, if_neg h3, if_neg h4, if_neg h5, if_neg h6, if_neg h7, if_neg h8, if_pos h9]; rfl)
    exact go _ (hexs 'U' 8 _ (by decide +kernel)) (by unfold reprChar; rw [if_neg (by simp [h1]), if_neg h2, if_neg h3, if_neg h4, if_neg h5, if_neg h6, if_neg h7, if_neg h8, if_neg h9]; rfl)
  -- prefixes
  have pre : ∀ (pat : Name), '\\' ∉ pat → r ∉ pat → ∀ s : Name,
      pat <+: (s.flatMap fun c => doubleBackslash (reprChar printable '\'' c)) ++ [r] → pat <+: s := by
    intro pat
    induction pat with
    | nil => intro _ _ s _; exact List.nil_prefix
    | cons a pat ih =>
      intro h1 h2 s h
      cases s with
      | nil =>
        simp only [List.flatMap_nil, List.nil_append, List.cons_prefix_cons] at h
        exact absurd (h.1 ▸ List.mem_cons_self) h2
      | cons c s =>
        rw [List.flatMap_cons, List.append_assoc] at h
        rcases cases c with hc | ⟨u, hc, -⟩
        · rw [hc, List.cons_append, List.cons_prefix_cons] at h
          rw [List.cons_prefix_cons]
          exact ⟨h.1, ih (fun h' => h1 (List.mem_cons_of_mem _ h')) (fun h' => h2 (List.mem_cons_of_mem _ h')) s h.2⟩
        · rw [hc, List.cons_append, List.cons_prefix_cons] at h
          exact absurd (h.1 ▸ List.mem_cons_self) h1
  induction s with
  | nil =>
    intro h
    simp only [List.flatMap_nil, List.nil_append, List.infix_cons_iff] at h
    rcases h with h | h
    · exact (pre pat hb hr [] h).isInfix
    · exact h
  | cons c s ih =>
    intro h
    rw [List.flatMap_cons, List.append_assoc] at h
    rcases cases c with hc | ⟨u, hc, hu⟩
    · rw [hc, List.cons_append, List.nil_append, List.infix_cons_iff] at h
      rcases h with h | h
      · apply List.IsPrefix.isInfix
        apply pre pat hb hr (c :: s)
        rw [List.flatMap_cons, hc]
        exact h
      · exact List.infix_cons_iff.mpr (.inr (ih h))
    · rw [hc] at h
      exact List.infix_cons_iff.mpr (.inr (ih (infix_drop hp _ _ hu h)))

theorem pathText_eq (printable : Char → Bool) (path : Name) (h : '\'' ∉ path) : pathText printable path =
    '\'' :: ((path.flatMap fun c => doubleBackslash (reprChar printable '\'' c)) ++ ['\'']) := by
  have hq : reprQuote path = '\'' := by
    unfold reprQuote
    rw [if_neg fun h' => h h'.1]
  unfold pathText pyRepr
  rw [hq]
  unfold doubleBackslash
  simp [List.flatMap_append, List.flatMap_assoc]

theorem pathText_mark (printable : Char → Bool) (path : Name) (h : '\'' ∉ path) (hm : ¬ mark2 <:+: path) (r : Name) :
    mark2 <:+: pathText printable path ++ r → mark2 <:+: r := by
  rw [pathText_eq printable path h]
  intro hi
  rw [List.cons_append, List.infix_cons_iff] at hi
  rcases hi with hi | hi
  · exact absurd hi (by
      intro h'
      have := (List.cons_prefix_cons.mp (show '_' :: mark2.tail <+: _ from h')).1
      revert this
      decide)
  rw [List.append_assoc, List.cons_append, List.nil_append] at hi
  rcases infix_cut (by decide) _ _ hi with hi | hi
  · exact absurd (escaped_infix printable mark2 (by decide) '_' rfl (by decide +kernel) path '\'' (by decide)
      (hi.trans (List.prefix_append _ _).isInfix)) hm
  · exact hi

theorem compare_once1 : Once mark1 (comparePre ++ '"' :: compareBefore1)
    (compareAfter1 ++ '"' :: (compareMid ++ '"' :: compareBefore2 ++ mark2 ++ (compareAfter2 ++ '"' :: comparePost))) := by
  have hn : '\n' ∉ mark1 := by decide
  have hq : '"' ∉ mark1 := by decide
  constructor
  · unfold comparePre
    rw [List.append_assoc, List.append_assoc]
    intro h
    rcases infix_lines hn _ _ h with h | h
    · revert h
      decide +kernel
    · revert h
      decide +kernel
  · intro h
    rcases infix_cut hq _ _ h with h | h
    · revert h
      decide +kernel
    rw [List.append_assoc, List.append_assoc] at h
    rcases infix_cut hq _ _ h with h | h
    · revert h
      decide +kernel
    have h : mark1 <:+: (compareBefore2 ++ mark2 ++ compareAfter2) ++ '"' :: comparePost := by
      simpa only [List.append_assoc, List.cons_append, List.append_eq] using h
    rcases infix_cut hq _ _ h with h | h
    · revert h
      decide +kernel
    · unfold comparePost at h
      rcases infix_lines hn _ _ h with h | h
      · revert h
        decide +kernel
      · revert h
        decide +kernel

theorem compare_once2 (printable : Char → Bool) (path1 : Name) (h1 : '\'' ∉ path1) (hm : ¬ mark2 <:+: path1) :
    Once mark2 (comparePre ++ '"' :: compareBefore1 ++ pathText printable path1 ++ (compareAfter1 ++ '"' :: (compareMid ++ '"' :: compareBefore2)))
      (compareAfter2 ++ '"' :: comparePost) := by
  have hn : '\n' ∉ mark2 := by decide
  have hq : '"' ∉ mark2 := by decide
  constructor
  · unfold comparePre
    simp only [List.append_assoc, List.cons_append]
    intro h
    rcases infix_lines hn _ _ h with h | h
    · revert h
      decide +kernel
    rcases infix_cut hq _ _ h with h | h
    · revert h
      decide +kernel
    -- the code before the path has no underscore at its end, the path begins with a quote
    have hb : mark2 <:+: compareBefore1 ++ pathText printable path1 ++
        (compareAfter1 ++ '"' :: (compareMid ++ '"' :: (compareBefore2 ++ mark2.dropLast))) := by
      simpa only [List.append_assoc, List.cons_append] using h
    rw [pathText_eq printable path1 h1, List.append_assoc, List.cons_append] at hb
    rcases infix_cut (by decide) _ _ hb with hb | hb
    · revert hb
      decide +kernel
    have hb' : mark2 <:+: pathText printable path1 ++
        (compareAfter1 ++ '"' :: (compareMid ++ '"' :: (compareBefore2 ++ mark2.dropLast))) := by
      rw [pathText_eq printable path1 h1, List.cons_append]
      exact List.infix_cons_iff.mpr (.inr hb)
    have := pathText_mark printable path1 h1 hm _ hb'
    revert this
    decide +kernel
  · intro h
    rcases infix_cut hq _ _ h with h | h
    · revert h
      decide +kernel
    · unfold comparePost at h
      rcases infix_lines hn _ _ h with h | h
      · revert h
        decide +kernel
      · revert h
        decide +kernel

/-- **C86** for two products and the shipped template: the notebook calls `compare_l1b_products` with the two paths, in this order.
Missing: paths with quotes (false, see below) and a first path that contains the second placeholder. -/
theorem compare_notebook_partial (printable : Char → Bool) (path1 path2 : Name) (h1 : '\'' ∉ path1) (h1' : '"' ∉ path1)
    (h2 : '\'' ∉ path2) (h2' : '"' ∉ path2) (hm : ¬ mark2 <:+: path1) :
    ∃ rest, Calls (compareNotebook printable compareTemplate path1 path2) comparePre compareBefore1 path1 [',', '\n'] rest ∧
      Calls rest compareMid compareBefore2 path2 compareAfter2 comparePost := by
  have e : compareNotebook printable compareTemplate path1 path2 =
      comparePre ++ '"' :: compareBefore1 ++ pathText printable path1 ++ (compareAfter1 ++ '"' ::
        (compareMid ++ '"' :: compareBefore2 ++ pathText printable path2 ++ (compareAfter2 ++ '"' :: comparePost))) := by
    unfold compareNotebook compareTemplate
    rw [replace_once mark1 _ _ _ (by decide) compare_once1]
    have := replace_once mark2 (pathText printable path2) _ _ (by decide) (compare_once2 printable path1 h1 hm)
    simp only [List.append_assoc, List.cons_append] at this ⊢
    exact this
  rw [e]
  exact ⟨_, text_calls_partial printable _ _ _ _ _ path1 (plain_of _ (by decide +kernel)) encodes_comma h1 h1',
    text_calls_partial printable _ _ _ _ _ path2 (plain_of _ (by decide +kernel)) (encodes_plain (plain_of _ (by decide +kernel))) h2 h2'⟩

/-- **C86 is violated** for two products: a quote in the second path, whatever the first one is. -/
theorem compare_quote_violated (printable : Char → Bool) (path1 path2 : Name) (h1 : '\'' ∉ path1) (hm : ¬ mark2 <:+: path1)
    (hq : '\'' ∈ path2 ∨ '"' ∈ path2) (h1' : '"' ∉ path1) :
    ¬ ∃ rest, Calls (compareNotebook printable compareTemplate path1 path2) comparePre compareBefore1 path1 [',', '\n'] rest ∧
      Calls rest compareMid compareBefore2 path2 compareAfter2 comparePost := by
  have e : compareNotebook printable compareTemplate path1 path2 =
      comparePre ++ '"' :: compareBefore1 ++ pathText printable path1 ++ (compareAfter1 ++ '"' ::
        (compareMid ++ '"' :: compareBefore2 ++ pathText printable path2 ++ (compareAfter2 ++ '"' :: comparePost))) := by
    unfold compareNotebook compareTemplate
    rw [replace_once mark1 _ _ _ (by decide) compare_once1]
    have := replace_once mark2 (pathText printable path2) _ _ (by decide) (compare_once2 printable path1 h1 hm)
    simp only [List.append_assoc, List.cons_append] at this ⊢
    exact this
  rintro ⟨rest, ⟨text, lit, ht, hj, -⟩, hc⟩
  obtain ⟨text', lit', ht', hj', -⟩ := text_calls_partial printable comparePre compareBefore1 compareAfter1 [',', '\n']
    (compareMid ++ '"' :: compareBefore2 ++ pathText printable path2 ++ (compareAfter2 ++ '"' :: comparePost)) path1
    (plain_of _ (by decide +kernel)) encodes_comma h1 h1'
  rw [e] at ht
  have : text = text' := List.append_cancel_left (ht.symm.trans ht')
  rw [this, hj'] at hj
  have hr := congrArg Prod.snd (Option.some.inj hj)
  simp only at hr
  rw [← hr] at hc
  exact text_calls_violated printable _ _ _ _ _ path2 (plain_of _ (by decide +kernel)) hq hc

example : '\'' ∉ "/o/L1B_1.nc".toList ∧ '"' ∉ "/o/L1B_1.nc".toList ∧ ¬ mark2 <:+: "/o/L1B_1.nc".toList := by decide +kernel

end Dedop.Notebook
