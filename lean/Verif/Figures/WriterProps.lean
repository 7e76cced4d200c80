import Verif.Figures.Model
import Verif.Basic.Tactics
/-!
# Saved figures (C74) and the output format (C79)
-/
namespace Dedop.Figures
open Dedop.Names (Name basename stem join)
variable {F : Type}

/-! ## Specification -/

/-- Saving figures one after the other under the given names. -/
def saves (l : List (Name × F)) : List (Call F) := l.map fun x => .save x.1 x.2

/-- `f` is the last figure saved under the name `n`. -/
def LastSaved (l : List (Name × F)) (n : Name) (f : F) : Prop :=
  ∃ a b, l = a ++ (n, f) :: b ∧ ∀ x ∈ b, x.1 ≠ n

/-- The figure `f` can be found in some file on disk. -/
def OnDisk (d : Disk F) (f : F) : Prop :=
  ∃ p, d p = some (.image f) ∨ ∃ pages, d p = some (.document pages) ∧ f ∈ pages

/-! ## Lemmas -/

theorem calls_append (a b : List (Call F)) : ∀ (w : Writer F) (d : Disk F),
    calls w d (a ++ b) = match calls w d a with
      | .error e => .error e
      | .ok (w', d') => calls w' d' b := by
  induction a with
  | nil => intro w d; rfl
  | cons c t ih =>
    intro w d
    cases c with
    | save n f =>
      simp only [List.cons_append, calls]
      cases savefig w d n f with
      | error e => rfl
      | ok r => exact ih _ _
    | close => exact ih _ _

theorem calls_path (cs : List (Call F)) : ∀ (w w' : Writer F) (d d' : Disk F), calls w d cs = .ok (w', d') →
    w'.path = w.path ∧ w'.format = w.format := by
  induction cs with
  | nil =>
    intro w w' d d' h
    simp only [calls, Except.ok.injEq, Prod.mk.injEq] at h
    exact ⟨by rw [h.1], by rw [h.1]⟩
  | cons c t ih =>
    intro w w' d d' h
    cases c with
    | save n f =>
      simp only [calls] at h
      cases hs : savefig w d n f with
      | error e => rw [hs] at h; cases h
      | ok r =>
        rw [hs] at h
        obtain ⟨h1, h2⟩ := ih _ _ _ _ h
        have : r.1.path = w.path ∧ r.1.format = w.format := by
          unfold savefig at hs
          split at hs
          · split at hs <;> · cases hs; exact ⟨rfl, rfl⟩
          · split at hs
            · cases hs
            · cases hs; exact ⟨rfl, rfl⟩
        exact ⟨h1.trans this.1, h2.trans this.2⟩
    | close =>
      obtain ⟨h1, h2⟩ := ih _ _ _ _ h
      have : (close w d).1.path = w.path ∧ (close w d).1.format = w.format := by
        unfold close
        split <;> exact ⟨rfl, rfl⟩
      exact ⟨h1.trans this.1, h2.trans this.2⟩

theorem pdf_more (l : List (Name × F)) : ∀ (w : Writer F) (d : Disk F) (ps : List F), w.format = .pdf → w.pages = some ps →
    calls w d (saves l) = .ok ({ w with pages := some (ps ++ l.map Prod.snd) }, d) := by
  induction l with
  | nil =>
    intro w d ps _ hp
    simp [saves, calls, ← hp]
  | cons x t ih =>
    intro w d ps hf hp
    have hs : savefig w d x.1 x.2 = .ok ({ w with pages := some (ps ++ [x.2]) }, d) := by
      unfold savefig
      rw [hf, hp]
    simp only [saves, List.map_cons, calls, hs]
    have := ih { w with pages := some (ps ++ [x.2]) } d (ps ++ [x.2]) hf rfl
    simp only [saves] at this
    rw [this]
    simp

theorem join_injective {dir a b : Name} (h : join dir a = join dir b) : a = b := by
  unfold join at h
  split at h
  · exact List.append_cancel_left h
  · exact List.append_cancel_left h

/-! ## Properties -/

/-- **C74**, PDF.  The figures saved between opening and closing are the pages of the file, all of them and in order; no other file
changes. -/
theorem pdf_kept (w : Writer F) (hf : w.format = .pdf) (hn : w.pages = none) (d : Disk F) (l : List (Name × F)) (hl : l ≠ []) :
    ∃ d', calls w d (saves l ++ [.close]) = .ok (w, d') ∧ d' w.path = some (.document (l.map Prod.snd)) ∧
      ∀ p, p ≠ w.path → d' p = d p := by
  cases l with
  | nil => exact absurd rfl hl
  | cons x t =>
    have hs : savefig w d x.1 x.2 = .ok ({ w with pages := some [x.2] }, d.put w.path .unfinished) := by
      unfold savefig
      rw [hf, hn]
    have hm := pdf_more t { w with pages := some [x.2] } (d.put w.path .unfinished) [x.2] hf rfl
    refine ⟨(d.put w.path .unfinished).put w.path (.document (x.2 :: t.map Prod.snd)), ?_, ?_, ?_⟩
    · rw [calls_append]
      have : calls w d (saves (x :: t)) = calls { w with pages := some [x.2] } (d.put w.path .unfinished) (saves t) := by
        simp only [saves, List.map_cons, calls, hs]
      rw [this, hm]
      simp only [calls, close, List.singleton_append]
      rw [← hn]
    · simp [Disk.put]
    · intro p hp
      simp [Disk.put, hp]

/-- **C74**, directory.  After any number of saved figures the file of each name holds the last figure saved under that name; no
other file changes. -/
theorem dir_kept (w : Writer F) (hf : w.format = .dir) (l : List (Name × F)) : ∀ (d : Disk F), (∀ x ∈ l, x.1 ≠ []) →
    ∃ d', calls w d (saves l) = .ok (w, d') ∧
      (∀ n f, LastSaved l n f → d' (join w.path n) = some (.image f)) ∧
      ∀ p, (∀ x ∈ l, p ≠ join w.path x.1) → d' p = d p := by
  induction l with
  | nil =>
    intro d _
    refine ⟨d, rfl, ?_, fun _ _ => rfl⟩
    rintro n f ⟨a, b, h, _⟩
    simp at h
  | cons x t ih =>
    intro d hne
    obtain ⟨d', hc, hlast, hframe⟩ := ih (d.put (join w.path x.1) (.image x.2)) fun y hy => hne y (List.mem_cons_of_mem _ hy)
    have hs : savefig w d x.1 x.2 = .ok (w, d.put (join w.path x.1) (.image x.2)) := by
      unfold savefig
      rw [hf]
      simp only [hne x List.mem_cons_self, if_false]
    refine ⟨d', ?_, ?_, ?_⟩
    · simp only [saves, List.map_cons, calls, hs]
      exact hc
    · rintro n f ⟨a, b, h, hb⟩
      cases a with
      | nil =>
        simp only [List.nil_append, List.cons.injEq] at h
        obtain ⟨rfl, rfl⟩ := h
        rw [hframe _ fun y hy he => hb y hy (join_injective he).symm]
        simp [Disk.put]
      | cons y a =>
        simp only [List.cons_append, List.cons.injEq] at h
        exact hlast n f ⟨a, b, h.2, hb⟩
    · intro p hp
      rw [hframe p fun y hy => hp y (List.mem_cons_of_mem _ hy)]
      simp [Disk.put, hp x List.mem_cons_self]

/-- **C74**, directory, for different names: every figure is kept. -/
theorem dir_all_kept_partial (w : Writer F) (hf : w.format = .dir) (d : Disk F) (l : List (Name × F)) (hne : ∀ x ∈ l, x.1 ≠ [])
    (hd : (l.map Prod.fst).Nodup) :
    ∃ d', calls w d (saves l) = .ok (w, d') ∧ ∀ x ∈ l, d' (join w.path x.1) = some (.image x.2) := by
  obtain ⟨d', hc, hlast, _⟩ := dir_kept w hf l d hne
  refine ⟨d', hc, fun x hx => ?_⟩
  obtain ⟨a, b, rfl⟩ := List.append_of_mem hx
  refine hlast x.1 x.2 ⟨a, b, rfl, fun y hy he => ?_⟩
  rw [List.map_append, List.map_cons, List.nodup_append] at hd
  have := (List.nodup_cons.mp hd.2.1).1
  rw [← he] at this
  exact this (List.mem_map_of_mem hy)

/-- Closing twice is closing once, and a directory is not affected by closing. -/
theorem close_idempotent (w : Writer F) (d : Disk F) :
    close (close w d).1 (close w d).2 = close w d := by
  cases h : w.pages <;> simp [close, h]

/-- After a writer has been closed, later figures replace the PDF file: whatever was saved before is not in it any more, for
every history of calls before. -/
theorem pdf_replaced (w : Writer F) (hf : w.format = .pdf) (d : Disk F) (before : List (Call F))
    (l : List (Name × F)) (hl : l ≠ []) (w' : Writer F) (d' : Disk F)
    (h : calls w d (before ++ [.close] ++ saves l ++ [.close]) = .ok (w', d')) :
    d' w.path = some (.document (l.map Prod.snd)) := by
  rw [List.append_assoc, calls_append] at h
  cases hb : calls w d (before ++ [.close]) with
  | error e => rw [hb] at h; cases h
  | ok r =>
    rw [hb] at h
    obtain ⟨w1, d1⟩ := r
    have hp := calls_path _ _ _ _ _ hb
    have hn : w1.pages = none := by
      rw [calls_append] at hb
      cases hb2 : calls w d before with
      | error e => rw [hb2] at hb; cases hb
      | ok r2 =>
        rw [hb2] at hb
        simp only [calls, Except.ok.injEq] at hb
        have : w1 = (close r2.1 r2.2).1 := (congrArg Prod.fst hb).symm
        rw [this]
        unfold close
        split
        · assumption
        · rfl
    obtain ⟨d2, hc, hdoc, _⟩ := pdf_kept w1 (hp.2.trans hf) hn d1 l hl
    simp only at h
    rw [hc] at h
    simp only [Except.ok.injEq, Prod.mk.injEq] at h
    rw [← h.2, ← hp.1]
    exact hdoc

theorem file_ne_nil (q : Plot) : q.file ≠ [] := by
  cases q with
  | imLine z x y => cases x <;> cases y <;> exact List.cons_ne_nil _ _
  | _ => exact List.cons_ne_nil _ _

/-- **C74 is violated** in a directory: whatever plot is made of both products of a comparator, the figure of the second product
replaces the figure of the first, because the file name does not tell them apart. -/
theorem figure_overwritten_violated (w : Writer (Product × Plot)) (hf : w.format = .dir) (q : Plot) :
    ∃ d', calls w (fun _ => none) [productCall .p1 q, productCall .p2 q] = .ok (w, d') ∧
      OnDisk d' (.p2, q) ∧ ¬ OnDisk d' (.p1, q) := by
  have hq := file_ne_nil q
  obtain ⟨d', hc, hlast, hframe⟩ := dir_kept w hf [(q.file, (Product.p1, q)), (q.file, (Product.p2, q))] (fun _ => none) (by
    intro x hx
    rcases List.mem_cons.mp hx with rfl | hx
    · exact hq
    · rcases List.mem_cons.mp hx with rfl | hx
      · exact hq
      · cases hx)
  have h2 : d' (join w.path q.file) = some (.image (.p2, q)) :=
    hlast _ _ ⟨[(q.file, (.p1, q))], [], rfl, fun x hx => by cases hx⟩
  refine ⟨d', hc, ⟨_, Or.inl h2⟩, ?_⟩
  rintro ⟨p, hp⟩
  by_cases he : p = join w.path q.file
  · subst he
    rw [h2] at hp
    rcases hp with hp | ⟨pages, hp, _⟩
    · simp only [Option.some.injEq, File.image.injEq, Prod.mk.injEq] at hp
      cases hp.1
    · cases hp
  · have := hframe p fun x hx => by
      rcases List.mem_cons.mp hx with rfl | hx
      · exact he
      · rcases List.mem_cons.mp hx with rfl | hx
        · exact he
        · cases hx
    rw [this] at hp
    rcases hp with hp | ⟨pages, hp, _⟩ <;> cases hp

/-- **C74 is violated** in a PDF file: closing one of the inspectors of a comparator closes the common writer; a figure made after
that replaces the file, and the figure saved before is lost although every writer is closed in the end. -/
theorem pages_lost_violated (w : Writer (Product × Plot)) (hf : w.format = .pdf) (hn : w.pages = none) (q : Plot) :
    ∃ d', calls w (fun _ => none) [productCall .p1 q, .close, productCall .p2 q, .close] = .ok (w, d') ∧
      OnDisk d' (.p2, q) ∧ ¬ OnDisk d' (.p1, q) := by
  obtain ⟨d1, hc1, _, hf1⟩ := pdf_kept w hf hn (fun _ => none) [(q.file, (Product.p1, q))] (List.cons_ne_nil _ _)
  obtain ⟨d2, hc2, hd2, hf2⟩ := pdf_kept w hf hn d1 [(q.file, (Product.p2, q))] (List.cons_ne_nil _ _)
  refine ⟨d2, ?_, ⟨w.path, Or.inr ⟨_, hd2, List.mem_singleton_self _⟩⟩, ?_⟩
  · have : [productCall .p1 q, .close, productCall .p2 q, .close] =
        (saves [(q.file, (Product.p1, q))] ++ [.close]) ++ (saves [(q.file, (Product.p2, q))] ++ [.close]) := rfl
    rw [this, calls_append, hc1]
    exact hc2
  · rintro ⟨p, hp⟩
    by_cases he : p = w.path
    · subst he
      rw [hd2] at hp
      rcases hp with hp | ⟨pages, hp, hm⟩
      · cases hp
      · simp only [Option.some.injEq, File.document.injEq] at hp
        subst hp
        simp only [List.map_cons, List.map_nil, List.mem_singleton, Prod.mk.injEq] at hm
        cases hm.1
    · rw [hf2 p he, hf1 p he] at hp
      rcases hp with hp | ⟨pages, hp, _⟩ <;> cases hp

example : ∃ w : Writer Nat, w.format = .pdf ∧ w.pages = none ∧ (calls w (fun _ => none)
    (saves [(['a'], 1), (['b'], 2), (['a'], 3)] ++ [.close])).toOption.map (fun r => r.2 w.path) =
      some (some (.document [1, 2, 3])) :=
  ⟨⟨"out.pdf".toList, .pdf, none⟩, rfl, rfl, by decide +kernel⟩
example : ∃ w : Writer Nat, w.format = .dir ∧ (calls w (fun _ => none)
    (saves [(['a'], 1), (['b'], 2), (['a'], 3)])).toOption.map (fun r => (r.2 ['o', '/', 'a'], r.2 ['o', '/', 'b'])) =
      some (some (.image 3), some (.image 2)) :=
  ⟨⟨['o'], .dir, none⟩, rfl, by decide +kernel⟩
example : LastSaved [(['a'], 1), (['b'], 2), (['a'], 3)] ['a'] 3 := ⟨[(['a'], 1), (['b'], 2)], [], rfl, by simp⟩

/-! ## The output format (C79) -/

/-- A given format is used whatever the path looks like: `dir` in any case of letters. -/
theorem format_dir (path fmt : Name) (hp : path ≠ []) (h : fmt.map Char.toLower = ['d', 'i', 'r']) :
    (init path fmt : Except PyErr (Writer F)) = .ok ⟨path, .dir, none⟩ := by
  have h0 : fmt ≠ [] := by rintro rfl; simp at h
  unfold init
  simp only [hp, if_false, h0, parseFormat, h]
  rfl

/-- A path without an extension stands for a directory. -/
theorem format_no_extension (path : Name) (hp : path ≠ []) (h : (extension path).length ≤ 1) :
    (init path [] : Except PyErr (Writer F)) = .ok ⟨path, .dir, none⟩ := by
  unfold init
  simp only [hp, if_false, if_true, not_lt.mpr h]

/-- A path ending in `.pdf` or `.PDF` stands for a PDF file, with or without the format. -/
theorem format_pdf (path fmt : Name) (hb : stem (basename path) ≠ [])
    (he : extension path = ['.', 'p', 'd', 'f'] ∨ extension path = ['.', 'P', 'D', 'F'])
    (hf : fmt = [] ∨ fmt.map Char.toLower = ['p', 'd', 'f']) :
    (init path fmt : Except PyErr (Writer F)) = .ok ⟨join (dirname path) (stem (basename path) ++ extension path), .pdf, none⟩ := by
  have hp : path ≠ [] := by rintro rfl; exact hb rfl
  have hne : extension path ≠ [] := by rcases he with h | h <;> rw [h] <;> exact List.cons_ne_nil _ _
  have hfmt : (if fmt = [] then (if (extension path).length > 1 then parseFormat ((extension path).drop 1) else .ok .dir)
      else parseFormat fmt) = .ok .pdf := by
    rcases hf with rfl | hf
    · rcases he with h | h <;> rw [h] <;> decide +kernel
    · have : fmt ≠ [] := by rintro rfl; simp at hf
      rw [if_neg this]
      unfold parseFormat
      rw [if_pos hf]
  unfold init
  simp only [hp, if_false, hfmt, hb, hne, he, if_true]

/-- Every other path for a PDF file is refused, except one without extension, which gets `.pdf`. -/
theorem format_pdf_refused (path fmt : Name) (hf : fmt.map Char.toLower = ['p', 'd', 'f'])
    (he : extension path ≠ ['.', 'p', 'd', 'f'] ∧ extension path ≠ ['.', 'P', 'D', 'F'] ∧ extension path ≠ []) :
    (init path fmt : Except PyErr (Writer F)) = .error .valueError := by
  have h0 : fmt ≠ [] := by rintro rfl; simp at hf
  unfold init
  by_cases hp : path = []
  · simp only [hp, if_true]
  · simp only [hp, if_false, h0, parseFormat, hf, if_true, he.2.2, he.1, he.2.1, or_self]
    split <;> rfl

/-- **C79 is violated**: `out.Pdf` is recognised as a PDF file and then refused, and a directory with a dot in its name is refused
without the format. -/
theorem format_guess_violated :
    parseFormat ((extension "out.Pdf".toList).drop 1) = .ok .pdf ∧
    (init "out.Pdf".toList [] : Except PyErr (Writer Nat)) = .error .valueError ∧
    (init "results.v1".toList [] : Except PyErr (Writer Nat)) = .error .valueError ∧
    (init "results.v1".toList "dir".toList : Except PyErr (Writer Nat)) = .ok ⟨"results.v1".toList, .dir, none⟩ := by
  decide +kernel

example : extension "figs/out.pdf".toList = ".pdf".toList ∧ stem (basename "figs/out.pdf".toList) ≠ [] ∧
    (init "figs/out.pdf".toList [] : Except PyErr (Writer Nat)) = .ok ⟨"figs/out.pdf".toList, .pdf, none⟩ ∧
    (init "figs/out".toList "PDF".toList : Except PyErr (Writer Nat)) = .ok ⟨"figs/out.pdf".toList, .pdf, none⟩ ∧
    (init "figs/out".toList [] : Except PyErr (Writer Nat)) = .ok ⟨"figs/out".toList, .dir, none⟩ ∧
    (init "a.b/.pdf".toList "pdf".toList : Except PyErr (Writer Nat)) = .ok ⟨"a.b/.pdf.pdf".toList, .pdf, none⟩ := by
  decide +kernel

end Dedop.Figures
