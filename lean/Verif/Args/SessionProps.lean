import Verif.Args.Session
import Verif.Workspace.Props

/-!
# Sessions of typed lines (property C163)
-/
namespace Dedop.Args
open Dedop.Workspace Dedop.Names

/-! ## Specification -/

/-- A word without slashes and line breaks that does not end in a dot or in `.current`. -/
def Proper (w : Word) : Prop :=
  w ≠ [] ∧ '\n' ∉ w ∧ '\r' ∉ w ∧ '/' ∉ w ∧ ¬ ['.'] <:+ w ∧ ¬ ".current".toList <:+ w

/-! ## Where values come from -/

theorem assign_cases (l : List (String × Value)) : ∀ (ns : Ns) (d : String),
    (assign ns l d = ns d ∧ ∀ x ∈ l, x.1 ≠ d) ∨ ∃ x ∈ l, x.1 = d ∧ assign ns l d = x.2 := by
  induction l with
  | nil => intro ns d; left; simp [assign]
  | cons a l ih =>
    intro ns d
    have e : assign ns (a :: l) = assign (Function.update ns a.1 a.2) l := rfl
    rw [e]
    rcases ih (Function.update ns a.1 a.2) d with ⟨h1, h2⟩ | ⟨x, hx, h1, h2⟩
    · by_cases had : a.1 = d
      · right
        refine ⟨a, by simp, had, ?_⟩
        rw [h1, ← had]
        simp
      · left
        refine ⟨?_, ?_⟩
        · rw [h1, Function.update_of_ne (Ne.symm had)]
        · intro x hx
          rcases List.mem_cons.mp hx with rfl | hx
          · exact had
          · exact h2 x hx
    · exact Or.inr ⟨x, by simp [hx], h1, h2⟩

theorem spells_suffix (p : Parser) (w : Word) (ws : List Word) (acts : List (Opt × List Word)) (h : Spells p w ws acts) :
    ∀ a ∈ acts, ∀ v ∈ a.2, v ∈ ws ∨ v <:+ w.tail := by
  induction h with
  | name _ _ => intro a ha v hv; simp at ha; subst ha; exact Or.inl hv
  | @equals a n x o _ _ =>
    intro b hb v hv
    simp at hb
    subst hb
    simp at hv
    subst hv
    right
    cases a with
    | nil => exact List.suffix_refl _
    | cons c a => exact ⟨a ++ ['='], by simp⟩
  | @joined c x o _ _ _ _ =>
    intro b hb v hv
    simp at hb
    subst hb
    simp at hv
    subst hv
    exact Or.inr ⟨[c], rfl⟩
  | @flag c r o ws acts _ _ _ _ _ ih =>
    intro b hb v hv
    rcases List.mem_cons.mp hb with rfl | hb
    · simp at hv
    · rcases ih b hb v hv with h | h
      · exact Or.inl h
      · exact Or.inr (h.trans ⟨[c], rfl⟩)

theorem default_word (p : Parser) (d : String) (v : Word) : p.defaults d ≠ .word v := by
  unfold Parser.defaults
  split <;> simp

theorem optSets_word (x : Opt × List Word) (v : Word) (h : (optSets x).2 = .word v) : v ∈ x.2 := by
  obtain ⟨o, ws⟩ := x
  unfold optSets at h
  dsimp only at h ⊢
  split at h <;> simp at h
  simp [h]

theorem nameSets_word (x : Pos × List Word) (v : Word) (h : (nameSets x).2 = .word v) : v ∈ x.2 := by
  obtain ⟨o, ws⟩ := x
  unfold nameSets at h
  dsimp only at h ⊢
  split at h <;> simp at h
  simp [h]

/-- A value of one word is the word of a name, or the end of a word with an option or a word after one. -/
theorem value_words (p : Parser) (ws : List Word) (ns : Ns) (hc : ws.count dd ≤ 1) (h : parse p ws = .ok ns) (d : String) (v : Word)
    (hv : ns d = .word v) : (∃ w ∈ ws, v <:+ w) ∧ ((∀ o ∈ p.opts, o.dest ≠ d) → v ∈ ws) := by
  obtain ⟨pieces, rest, h1, h2, h3, h4, h5⟩ := every_word_used p ws ns hc h
  rw [h5] at hv
  rcases assign_cases (pieces.flatMap Piece.sets) p.defaults d with ⟨e, _⟩ | ⟨x, hx, hd, e⟩
  · rw [e] at hv
    exact absurd hv (default_word p d v)
  · rw [e] at hv
    obtain ⟨pc, hpc, hx⟩ := List.mem_flatMap.mp hx
    have hsub : ∀ u ∈ pc.words, u ∈ ws := fun u hu => by rw [h1]; exact List.mem_flatMap.mpr ⟨pc, hpc, hu⟩
    cases pc with
    | opt w us acts =>
      obtain ⟨a, ha, rfl⟩ := List.mem_map.mp hx
      have hl : Spells p w us acts := h2 _ hpc
      have hva := optSets_word a v hv
      refine ⟨?_, ?_⟩
      · rcases spells_suffix p w us acts hl a ha v hva with h | h
        · exact ⟨v, hsub v (by simp [Piece.words, h]), List.suffix_refl _⟩
        · exact ⟨w, hsub w (by simp [Piece.words]), h.trans (List.tail_suffix w)⟩
      · intro ho
        exfalso
        have : ∀ a ∈ acts, a.1 ∈ p.opts := by
          clear ha hva hx hsub hv hpc
          induction hl with
          | name hm _ => intro a ha; simp at ha; subst ha; exact hm.1
          | equals hm _ => intro a ha; simp at ha; subst ha; exact hm.1
          | joined hm _ _ _ => intro a ha; simp at ha; subst ha; exact hm
          | flag hm _ _ _ _ ih =>
            intro a ha
            rcases List.mem_cons.mp ha with rfl | ha
            · exact hm
            · exact ih a ha
        exact ho _ (this a ha) hd
    | name q us =>
      simp only [Piece.sets, List.mem_singleton] at hx
      subst hx
      have hm := nameSets_word _ v hv
      have hm : v ∈ us := List.mem_of_mem_filter hm
      have := hsub v hm
      exact ⟨⟨v, this, List.suffix_refl _⟩, fun _ => this⟩

/-- A required name is there. -/
theorem required_there (p : Parser) (ws : List Word) (ns : Ns) (hc : ws.count dd ≤ 1) (h : parse p ws = .ok ns) (q : Pos) (hq : q ∈ p.poss)
    (hone : q.nargs = .one) (ho : ∀ o ∈ p.opts, o.dest ≠ q.dest) (hu : ∀ q' ∈ p.poss, q'.dest = q.dest → q' = q) :
    ∃ v ∈ ws, ns q.dest = .word v := by
  obtain ⟨pieces, rest, h1, h2, h3, h4, h5⟩ := every_word_used p ws ns hc h
  have hq' : q ∈ pieces.filterMap Piece.pos := by
    rw [← h3] at hq
    rcases List.mem_append.mp hq with hq | hq
    · exact hq
    · have := h4 q hq
      rw [hone] at this
      cases this
  obtain ⟨pc, hpc, hpq⟩ := List.mem_filterMap.mp hq'
  obtain ⟨us, rfl⟩ : ∃ us, pc = .name q us := by
    cases pc with
    | opt => simp [Piece.pos] at hpq
    | name q' us => simp [Piece.pos] at hpq; exact ⟨us, by rw [hpq]⟩
  have hex : nameSets (q, real us) ∈ pieces.flatMap Piece.sets := List.mem_flatMap.mpr ⟨_, hpc, by simp [Piece.sets]⟩
  have hw : ∃ v, ns q.dest = .word v := by
    rw [h5]
    rcases assign_cases (pieces.flatMap Piece.sets) p.defaults q.dest with ⟨_, e⟩ | ⟨x, hx, hd, e⟩
    · exact absurd rfl (e _ hex)
    · rw [e]
      obtain ⟨pc', hpc', hx⟩ := List.mem_flatMap.mp hx
      cases pc' with
      | opt w us acts =>
        obtain ⟨a, ha, rfl⟩ := List.mem_map.mp hx
        have hl : Spells p w us acts := h2 _ hpc'
        exfalso
        have : ∀ a ∈ acts, a.1 ∈ p.opts := by
          clear ha hx e hd hpc'
          induction hl with
          | name hm _ => intro a ha; simp at ha; subst ha; exact hm.1
          | equals hm _ => intro a ha; simp at ha; subst ha; exact hm.1
          | joined hm _ _ _ => intro a ha; simp at ha; subst ha; exact hm
          | flag hm _ _ _ _ ih =>
            intro a ha
            rcases List.mem_cons.mp ha with rfl | ha
            · exact hm
            · exact ih a ha
        exact ho _ (this a ha) hd
      | name q' us' =>
        simp only [Piece.sets, List.mem_singleton] at hx
        subst hx
        have hm : q' ∈ p.poss := by
          rw [← h3]
          exact List.mem_append_left _ (List.mem_filterMap.mpr ⟨_, hpc', rfl⟩)
        have := hu q' hm hd
        subst this
        have hl := h2 _ hpc'
        simp only [Piece.Legit, hone] at hl
        obtain ⟨v, hv⟩ := List.length_eq_one_iff.mp hl
        exact ⟨v, by simp [nameSets, hone, hv]⟩
  obtain ⟨v, hv⟩ := hw
  exact ⟨v, (value_words p ws ns hc h q.dest v hv).2 ho, hv⟩

/-! ## Names are plain -/

theorem proper_suffix (w v : Word) (hw : Proper w) (hv : v <:+ w) (hne : v ≠ []) : Workspace.Plain v := by
  obtain ⟨_, h1, h2, h3, h4, h5⟩ := hw
  have hm : ∀ c, c ∈ v → c ∈ w := fun c hc => hv.subset hc
  refine ⟨hne, fun h => h1 (hm _ h), fun h => h2 (hm _ h), fun h => h3 (hm _ h), ?_, ?_, ?_⟩
  · rintro rfl; exact h4 hv
  · rintro rfl; exact h4 (List.IsSuffix.trans ⟨['.'], rfl⟩ hv)
  · rintro rfl; exact h5 hv

section
variable {p : Parser} {ws : List Word} {ns : Ns} (hc : ws.count dd ≤ 1) (hw : ∀ w ∈ ws, w = dd ∨ Proper w) (h : parse p ws = .ok ns)
include hc hw h

theorem name_plain (d : String) : nameOf (ns d) = [] ∨ Workspace.Plain (nameOf (ns d)) := by
  cases hv : ns d with
  | word v =>
    simp only [nameOf]
    by_cases hne : v = []
    · exact Or.inl hne
    · right
      obtain ⟨⟨w, hm, hs⟩, _⟩ := value_words p ws ns hc h d v hv
      rcases hw w hm with rfl | hp
      · refine proper_suffix ['-', '-'] v ?_ hs hne
        refine ⟨by simp, by simp, by simp, by simp, by decide, by decide⟩
      · exact proper_suffix w v hp hs hne
  | none => exact Or.inl rfl
  | flag b => exact Or.inl rfl
  | words l => exact Or.inl rfl

theorem required_plain (q : Pos) (hq : q ∈ p.poss) (hone : q.nargs = .one) (ho : ∀ o ∈ p.opts, o.dest ≠ q.dest)
    (hu : ∀ q' ∈ p.poss, q'.dest = q.dest → q' = q) : Workspace.Plain (nameOf (ns q.dest)) := by
  obtain ⟨v, hv, e⟩ := required_there p ws ns hc h q hq hone ho hu
  rcases name_plain hc hw h q.dest with h' | h'
  · rw [e] at h'
    simp only [nameOf] at h'
    subst h'
    rcases hw [] hv with h' | h'
    · cases h'
    · exact absurd rfl h'.1
  · exact h'

end

theorem find_mem (l : List Word) (c : Command) (args : List Word) (h : findCommand l = some (c, args)) :
    c ∈ commands ∧ ∃ before, l = before ++ args := by
  unfold findCommand at h
  split at h
  · cases h
  · rename_i g rest
    split at h
    · rename_i c' hf
      simp only [Option.some.injEq, Prod.mk.injEq] at h
      obtain ⟨rfl, rfl⟩ := h
      exact ⟨List.mem_of_find?_eq_some hf, [g], rfl⟩
    · split at h
      · cases h
      · rename_i n args'
        simp only [Option.map_eq_some_iff, Prod.mk.injEq] at h
        obtain ⟨c', hf, rfl, rfl⟩ := h
        exact ⟨List.mem_of_find?_eq_some hf, [g, n], rfl⟩

theorem asked_change {ns : Ns} {a : Word} {c c' : Cmd} {b : Bool} (h : asked ns a c = .change b c') : c = c' ∧ b = false := by
  unfold asked at h
  split at h
  · simp at h
    exact ⟨h.2, h.1⟩
  · simp at h

theorem act_plain (c : Command) (hcm : c ∈ commands) (ws : List Word) (ns : Ns) (answer : Word) (hc : ws.count dd ≤ 1)
    (hw : ∀ w ∈ ws, w = dd ∨ Proper w) (h : parse c.parser ws = .ok ns) (b : Bool) (cmd : Cmd) (ha : toAct c ns answer = .change b cmd) :
    cmd.PlainNames := by
  have hn := fun d => name_plain hc hw h d
  simp only [commands, List.mem_cons, List.not_mem_nil, or_false] at hcm
  rcases hcm with rfl | rfl | rfl | rfl | rfl | rfl | rfl | rfl | rfl | rfl | rfl | rfl | rfl | rfl | rfl | rfl | rfl | rfl | rfl | rfl | rfl | rfl |
    rfl | rfl | rfl | rfl | rfl | rfl | rfl | rfl
  · have ha : Act.change _ (.ws (.add (nameOf (ns "workspace_name")))) = _ := ha
    simp only [Act.change.injEq] at ha
    rw [← ha.2]
    exact hn _
  · have ha : asked ns answer (.ws (.remove (nameOf (ns "workspace_name")))) = _ := ha
    rw [← (asked_change ha).1]
    exact hn _
  · have ha : Act.change _ (.ws (.copy (nameOf (ns "workspace_name")) (nameOf (ns "new_name")))) = _ := ha
    simp only [Act.change.injEq] at ha
    rw [← ha.2]
    exact ⟨hn _, hn _⟩
  · have ha : Act.change _ (.ws (.rename (nameOf (ns "workspace_name")) (nameOf (ns "new_name")))) = _ := ha
    simp only [Act.change.injEq] at ha
    rw [← ha.2]
    exact ⟨hn _, hn _⟩
  · have ha : Act.change _ (.ws (.current (nameOf (ns "workspace_name")))) = _ := ha
    simp only [Act.change.injEq] at ha
    rw [← ha.2]
    exact hn _
  · have ha : Act.nothing = _ := ha
    cases ha
  · have ha : Act.change _ (.cfg (.add (nameOf (ns "workspace_name")) (nameOf (ns "config_name")))) = _ := ha
    simp only [Act.change.injEq] at ha
    rw [← ha.2]
    exact ⟨hn _, required_plain hc hw h ⟨"config_name", .one⟩ (by decide +kernel) rfl (by decide +kernel) (by decide +kernel)⟩
  · have ha : asked ns answer (.cfg (.remove (nameOf (ns "workspace_name")) (nameOf (ns "config_name")))) = _ := ha
    rw [← (asked_change ha).1]
    exact ⟨hn _, hn _⟩
  · have ha : Act.other = _ := ha
    cases ha
  · have ha : Act.change _ (.cfg (.copy (nameOf (ns "workspace_name")) (nameOf (ns "config_name")) (nameOf (ns "new_name")))) = _ := ha
    simp only [Act.change.injEq] at ha
    rw [← ha.2]
    exact ⟨hn _, hn _, hn _⟩
  · have ha : Act.change _ (.cfg (.rename (nameOf (ns "workspace_name")) (nameOf (ns "config_name")) (nameOf (ns "new_name")))) = _ := ha
    simp only [Act.change.injEq] at ha
    rw [← ha.2]
    exact ⟨hn _, hn _, required_plain hc hw h ⟨"new_name", .one⟩ (by decide +kernel) rfl (by decide +kernel) (by decide +kernel)⟩
  · have ha : Act.nothing = _ := ha
    cases ha
  · have ha : Act.change _ (.cfg (.current (nameOf (ns "workspace_name")) (nameOf (ns "config_name")))) = _ := ha
    simp only [Act.change.injEq] at ha
    rw [← ha.2]
    exact ⟨hn _, hn _⟩
  · have ha : Act.nothing = _ := ha
    cases ha
  · have ha : Act.other = _ := ha
    cases ha
  · have ha : Act.nothing = _ := ha
    cases ha
  · have ha : Act.other = _ := ha
    cases ha
  · have ha : Act.other = _ := ha
    cases ha
  · have ha : Act.nothing = _ := ha
    cases ha
  · have ha : Act.other = _ := ha
    cases ha
  · have ha : Act.nothing = _ := ha
    cases ha
  · have ha : Act.other = _ := ha
    cases ha
  · have ha : Act.other = _ := ha
    cases ha
  · have ha : Act.other = _ := ha
    cases ha
  · have ha : Act.other = _ := ha
    cases ha
  · have ha : Act.nothing = _ := ha
    cases ha
  · have ha : Act.other = _ := ha
    cases ha
  · have ha : Act.other = _ := ha
    cases ha
  · have ha : Act.nothing = _ := ha
    cases ha
  · have ha : Act.nothing = _ := ha
    cases ha

theorem line_plain (l : Typed) (hc : l.words.count dd ≤ 1) (hw : ∀ w ∈ l.words, w = dd ∨ Proper w) (b : Bool) (cmd : Cmd)
    (h : lineAct l = .change b cmd) : cmd.PlainNames := by
  unfold lineAct at h
  split at h
  · cases h
  · rename_i c args hf
    obtain ⟨hcm, before, hb⟩ := find_mem _ _ _ hf
    split at h
    · cases h
    · rename_i ns hp
      have hc' : args.count dd ≤ 1 := by
        rw [hb, List.count_append] at hc
        omega
      exact act_plain c hcm args ns l.answer hc' (fun w hm => hw w (by rw [hb]; simp [hm])) hp b cmd h

theorem inv_lines (t : Bool → Templates) (ls : List Typed) : ∀ (fs fs' : FS), Workspace.Inv fs → (∀ l ∈ ls, l.words.count dd ≤ 1) →
    (∀ l ∈ ls, ∀ w ∈ l.words, w = dd ∨ Proper w) → typeLines t fs ls = some fs' → Workspace.Inv fs' := by
  induction ls with
  | nil => intro fs fs' hi _ _ h; simp only [typeLines, Option.some.injEq] at h; rw [← h]; exact hi
  | cons l ls ih =>
    intro fs fs' hi hc hw h
    simp only [typeLines] at h
    cases ht : typeLine t fs l with
    | none => rw [ht] at h; cases h
    | some g =>
      rw [ht] at h
      refine ih g fs' ?_ (fun l hl => hc l (by simp [hl])) (fun l hl => hw l (by simp [hl])) h
      unfold typeLine at ht
      split at ht
      · rename_i b c ha
        simp only [Option.some.injEq] at ht
        rw [← ht]
        refine inv_session _ fs hi [c] ?_
        intro d hd
        rw [List.mem_singleton.mp hd]
        exact line_plain l (hc l (by simp)) (hw l (by simp)) b c ha
      · simp only [Option.some.injEq] at ht
        rw [← ht]
        exact hi
      · cases ht

/-- **C163.**  Whatever lines a user types, accepted or not, with options spelled in any way, as long as no word holds a slash or a line break or ends
in a dot or in `.current`: after the session the current workspace is unset, empty or one of those listed, and so is the current configuration of
every workspace. -/
theorem typed_lines_current_partial (t : Bool → Templates) (fs fs' : FS) (htidy : Tidied (view fs)) (hmark : ∀ b, Level b → NotDangling (view fs) b)
    (ls : List Typed) (hc : ∀ l ∈ ls, l.words.count dd ≤ 1) (hw : ∀ l ∈ ls, ∀ w ∈ l.words, w = dd ∨ Proper w)
    (h : typeLines t fs ls = some fs') :
    (∀ w, getCurrent fs' = some w → w = [] ∨ w ∈ workspaceNames fs') ∧
    (∀ w c, Workspace.Plain w → getCurrentConfig fs' w = .ok (some c) → c = [] ∨ ∃ names, configNames fs' w = .ok (some names) ∧ c ∈ names) :=
  have hi := inv_lines t ls fs fs' ⟨htidy, hmark⟩ hc hw h
  ⟨inv_gives_workspace hi, fun w c hp hcur => inv_gives_config hi w c hp hcur⟩

end Dedop.Args
