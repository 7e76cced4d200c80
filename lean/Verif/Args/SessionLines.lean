import Verif.Args.SessionProps

/-!
# Sessions of typed lines (property C163): what lines mean
-/
namespace Dedop.Args
open Dedop.Workspace Dedop.Names

/-! ## Names of commands -/

/-- **C163.**  Every name and alias of a command names this command and no other. -/
theorem names_unambiguous (c : Command) (hc : c ∈ commands) (n : String) (hn : n ∈ c.names) (args : List Word) :
    (∀ g ∈ c.group, findCommand (g.toList :: n.toList :: args) = some (c, args)) ∧
    (c.group = [] → findCommand (n.toList :: args) = some (c, args)) := by
  have key1 : ∀ c ∈ commands, ∀ n ∈ c.names, ∀ g ∈ c.group,
      commands.find? (fun c => c.group == [] && (c.names.map String.toList).contains g.toList) = none ∧
      commands.find? (fun c => (c.group.map String.toList).contains g.toList && (c.names.map String.toList).contains n.toList) = some c := by
    decide +kernel
  have key2 : ∀ c ∈ commands, ∀ n ∈ c.names, c.group = [] →
      commands.find? (fun c => c.group == [] && (c.names.map String.toList).contains n.toList) = some c := by decide +kernel
  constructor
  · intro g hg
    obtain ⟨h1, h2⟩ := key1 c hc n hn g hg
    simp only [findCommand, h1, h2, Option.map_some]
  · intro hg
    have h1 := key2 c hc n hn hg
    simp only [findCommand, h1]

/-! ## Order of options and names -/

theorem assign_filter (l : List (String × Value)) : ∀ (ns : Ns) (d : String), assign ns l d = assign ns (l.filter (fun x => x.1 = d)) d := by
  induction l with
  | nil => intro ns d; rfl
  | cons a l ih =>
    intro ns d
    have e : ∀ (l : List (String × Value)) ns, assign ns (a :: l) = assign (Function.update ns a.1 a.2) l := fun _ _ => rfl
    by_cases h : a.1 = d
    · rw [List.filter_cons_of_pos (by simpa using h), e, e, ih]
    · rw [List.filter_cons_of_neg (by simpa using h), e, ih]
      have : ∀ (l : List (String × Value)) (n1 n2 : Ns), n1 d = n2 d → assign n1 l d = assign n2 l d := by
        intro l
        induction l with
        | nil => intro n1 n2 h; exact h
        | cons b l ih' =>
          intro n1 n2 h
          show assign (Function.update n1 b.1 b.2) l d = assign (Function.update n2 b.1 b.2) l d
          apply ih'
          by_cases hb : b.1 = d
          · subst hb; simp
          · rw [Function.update_of_ne (Ne.symm hb), Function.update_of_ne (Ne.symm hb), h]
      exact this _ _ _ (Function.update_of_ne (Ne.symm h) _ _)

theorem assign_comm (ns : Ns) (a b : List (String × Value)) (h : ∀ x ∈ a, ∀ y ∈ b, x.1 ≠ y.1) : assign ns (a ++ b) = assign ns (b ++ a) := by
  funext d
  rw [assign_filter, assign_filter (b ++ a), List.filter_append, List.filter_append]
  by_cases hd : ∃ x ∈ a, x.1 = d
  · obtain ⟨x, hx, rfl⟩ := hd
    have : b.filter (fun y => y.1 = x.1) = [] := by
      rw [List.filter_eq_nil_iff]
      intro y hy
      simpa using (h x hx y hy).symm
    rw [this]
    simp
  · have : a.filter (fun y => y.1 = d) = [] := by
      rw [List.filter_eq_nil_iff]
      intro y hy
      simpa using fun e => hd ⟨y, hy, e⟩
    rw [this]
    simp

theorem share_pos : ∀ (qs : List Pos) (ws : List Word) (sh), share qs ws = some sh → ∀ x ∈ sh, x.1 ∈ qs
  | [], [], sh, h => by simp [share] at h; subst h; simp
  | [], _ :: _, sh, h => by simp [share] at h
  | q :: qs, ws, sh, h => by
    simp only [share] at h
    split at h
    · cases h
    · simp only [Option.map_eq_some_iff] at h
      obtain ⟨sh', h1, rfl⟩ := h
      intro x hx
      rcases List.mem_cons.mp hx with rfl | hx
      · simp
      · exact List.mem_cons_of_mem _ (share_pos qs _ sh' h1 x hx)

/-- **C163.**  It does not matter whether the options of a command stand before or after the names. -/
theorem order_free (c : Command) (hc : c ∈ commands) (gs : List Given) (hg : ∀ g ∈ gs, g.Valid c.parser) (names : List Word)
    (hw : ∀ w ∈ names, Plain w) (sh) (hs : share c.parser.poss names = some sh) :
    parse c.parser (gs.flatMap Given.words ++ names) = parse c.parser (names ++ gs.flatMap Given.words) := by
  obtain ⟨h1, _, h3, h4, _⟩ := commands_declared c hc
  by_cases hne : names = []
  · subst hne; simp
  · have hd : c.parser.Definite := by
      rcases h3 with h3 | h3
      · exact h3
      · rw [h3] at hs
        cases names with
        | nil => exact absurd rfl hne
        | cons a l => simp [share] at hs
    rw [options_then_names c.parser h1 gs hg names hw (Or.inr hd) sh hs, names_then_options c.parser h1 gs hg names hw hne sh hs, assign_comm]
    intro x hx y hy
    obtain ⟨g, hgm, rfl⟩ := List.mem_map.mp hx
    obtain ⟨z, hz, rfl⟩ := List.mem_map.mp hy
    exact h4 _ (hg g hgm).1 _ (share_pos _ _ _ hs z hz)

/-! ## Meaning of lines in the usual form -/

/-- **C163.**  A line in the usual form does what its command does with the options and names on it. -/
theorem usual_line (c : Command) (hc : c ∈ commands) (n : String) (hn : n ∈ c.names) (g : String) (hgr : g ∈ c.group) (gs : List Given)
    (hg : ∀ g ∈ gs, g.Valid c.parser) (names : List Word) (hw : ∀ w ∈ names, Plain w) (sh) (hs : share c.parser.poss names = some sh)
    (answer : Word) :
    lineAct ⟨g.toList :: n.toList :: (gs.flatMap Given.words ++ names), answer⟩ =
      toAct c (assign c.parser.defaults (gs.map Given.sets ++ sh.map nameSets)) answer ∧
    lineAct ⟨g.toList :: n.toList :: (names ++ gs.flatMap Given.words), answer⟩ =
      toAct c (assign c.parser.defaults (gs.map Given.sets ++ sh.map nameSets)) answer := by
  obtain ⟨h1, _, h3, h4, _⟩ := commands_declared c hc
  have hf : names = [] ∨ c.parser.Definite := by
    rcases h3 with h3 | h3
    · exact Or.inr h3
    · rw [h3] at hs
      cases names with
      | nil => exact Or.inl rfl
      | cons a l => simp [share] at hs
  have e := options_then_names c.parser h1 gs hg names hw hf sh hs
  have o := order_free c hc gs hg names hw sh hs
  have f := fun args => (names_unambiguous c hc n hn args).1 g hgr
  constructor
  · simp only [lineAct, f, e]
  · simp only [lineAct, f, ← o, e]

/-- The option for the workspace, if given. -/
def optW : Option Word → List Given
  | none => []
  | some w => [⟨workspaceOpt, "-w".toList, [w]⟩]

theorem optW_valid (p : Parser) (h : workspaceOpt ∈ p.opts) (w : Option Word) (hw : ∀ x ∈ w, Plain x) : ∀ g ∈ optW w, g.Valid p := by
  intro g hg
  cases w with
  | none => simp [optW] at hg
  | some w =>
    simp only [optW, List.mem_singleton] at hg
    subst hg
    exact ⟨h, by simp [workspaceOpt, option], by simpa using hw, by simp [workspaceOpt, option]⟩

/-- The words of the option for the workspace. -/
def wordsW : Option Word → List Word
  | none => []
  | some w => ["-w".toList, w]

theorem optW_words (w : Option Word) : (optW w).flatMap Given.words = wordsW w := by cases w <;> rfl

/-- **C163.**  Commands for workspaces, under all names of theirs. -/
theorem workspace_lines (g : String) (hg : g = "workspace" ∨ g = "w") (answer a b : Word) (ha : Plain a) (hb : Plain b) :
    lineAct ⟨[g.toList, "add".toList, a], answer⟩ = .change false (.ws (.add a)) ∧
    (∀ n ∈ ["copy", "cp"], lineAct ⟨[g.toList, n.toList], answer⟩ = .change false (.ws (.copy [] [])) ∧
      lineAct ⟨[g.toList, n.toList, a], answer⟩ = .change false (.ws (.copy a [])) ∧
      lineAct ⟨[g.toList, n.toList, a, b], answer⟩ = .change false (.ws (.copy a b))) ∧
    (∀ n ∈ ["rename", "rn"], lineAct ⟨[g.toList, n.toList, a], answer⟩ = .change false (.ws (.rename [] a)) ∧
      lineAct ⟨[g.toList, n.toList, a, b], answer⟩ = .change false (.ws (.rename a b))) ∧
    (∀ n ∈ ["current", "cur"], lineAct ⟨[g.toList, n.toList, a], answer⟩ = .change false (.ws (.current a))) ∧
    (∀ n ∈ ["remove", "rm"], lineAct ⟨[g.toList, n.toList, "-y".toList, a], answer⟩ = .change false (.ws (.remove a)) ∧
      lineAct ⟨[g.toList, n.toList, a, "-y".toList], answer⟩ = .change false (.ws (.remove a)) ∧
      lineAct ⟨[g.toList, n.toList, a], answer⟩ = if confirmed answer then .change false (.ws (.remove a)) else .nothing) := by
  have hg' : g ∈ wsGroup := by simpa [wsGroup] using hg
  refine ⟨?_, ?_, ?_, ?_, ?_⟩
  · exact (usual_line wsAdd (by decide +kernel) "add" (by decide +kernel) g hg' [] (by simp) [a] (by simpa using ha) _ rfl answer).1
  · intro n hn
    have u := fun names hw sh hs => (usual_line wsCopy (by decide +kernel) n hn g hg' [] (by simp) names hw sh hs answer).1
    exact ⟨u [] (by simp) _ rfl, u [a] (by simpa using ha) _ rfl, u [a, b] (by simpa using ⟨ha, hb⟩) _ rfl⟩
  · intro n hn
    have u := fun names hw sh hs => (usual_line wsRename (by decide +kernel) n hn g hg' [] (by simp) names hw sh hs answer).1
    exact ⟨u [a] (by simpa using ha) _ rfl, u [a, b] (by simpa using ⟨ha, hb⟩) _ rfl⟩
  · intro n hn
    exact (usual_line wsCurrent (by decide +kernel) n hn g hg' [] (by simp) [a] (by simpa using ha) _ rfl answer).1
  · intro n hn
    have y : ∀ x ∈ [(⟨yesOpt, "-y".toList, []⟩ : Given)], x.Valid wsRemove.parser := by
      intro x hx
      rw [List.mem_singleton.mp hx]
      exact ⟨by decide +kernel, by decide +kernel, by simp, rfl⟩
    obtain ⟨u1, u2⟩ := usual_line wsRemove (by decide +kernel) n hn g hg' [⟨yesOpt, "-y".toList, []⟩] y [a] (by simpa using ha) _ rfl answer
    refine ⟨u1.trans ?_, u2.trans ?_, ?_⟩
    · have : asked (assign wsRemove.parser.defaults [("yes", .flag true), ("workspace_name", .word a)]) answer (.ws (.remove a)) =
          .change false (.ws (.remove a)) := if_pos (Or.inl rfl)
      exact this
    · have : asked (assign wsRemove.parser.defaults [("yes", .flag true), ("workspace_name", .word a)]) answer (.ws (.remove a)) =
          .change false (.ws (.remove a)) := if_pos (Or.inl rfl)
      exact this
    · have u := (usual_line wsRemove (by decide +kernel) n hn g hg' [] (by simp) [a] (by simpa using ha) _ rfl answer).1
      refine u.trans ?_
      show asked (assign wsRemove.parser.defaults [("workspace_name", .word a)]) answer (.ws (.remove a)) = _
      have hy : assign wsRemove.parser.defaults [("workspace_name", .word a)] "yes" = .flag false := rfl
      unfold asked
      rw [hy]
      simp

/-- **C163.**  Commands for configurations, under all names of theirs, with or without the option for the workspace, before or after the names. -/
theorem config_lines (g : String) (hg : g = "config" ∨ g = "c") (answer a b : Word) (ha : Plain a) (hb : Plain b) (w : Option Word)
    (hw : ∀ x ∈ w, Plain x) :
    (∀ s : Bool, let l := fun names : List Word => if s then wordsW w ++ names else names ++ wordsW w
      lineAct ⟨g.toList :: "add".toList :: l [a], answer⟩ = .change false (.cfg (.add (w.getD []) a)) ∧
      (∀ n ∈ ["copy", "cp"], lineAct ⟨g.toList :: n.toList :: l [], answer⟩ = .change false (.cfg (.copy (w.getD []) [] [])) ∧
        lineAct ⟨g.toList :: n.toList :: l [a], answer⟩ = .change false (.cfg (.copy (w.getD []) a [])) ∧
        lineAct ⟨g.toList :: n.toList :: l [a, b], answer⟩ = .change false (.cfg (.copy (w.getD []) a b))) ∧
      (∀ n ∈ ["rename", "rn"], lineAct ⟨g.toList :: n.toList :: l [a], answer⟩ = .change false (.cfg (.rename (w.getD []) [] a)) ∧
        lineAct ⟨g.toList :: n.toList :: l [a, b], answer⟩ = .change false (.cfg (.rename (w.getD []) a b))) ∧
      (∀ n ∈ ["current", "cur"], lineAct ⟨g.toList :: n.toList :: l [a], answer⟩ = .change false (.cfg (.current (w.getD []) a))) ∧
      (∀ n ∈ ["remove", "rm"], lineAct ⟨g.toList :: n.toList :: l [a], answer⟩ =
        if confirmed answer then .change false (.cfg (.remove (w.getD []) a)) else .nothing)) := by
  intro s l
  have hg' : g ∈ cfGroup := by simpa [cfGroup] using hg
  have u : ∀ (c : Command), c ∈ commands → workspaceOpt ∈ c.parser.opts → c.group = cfGroup → ∀ n ∈ c.names, ∀ (names : List Word),
      (∀ x ∈ names, Plain x) → ∀ sh, share c.parser.poss names = some sh →
      lineAct ⟨g.toList :: n.toList :: l names, answer⟩ = toAct c (assign c.parser.defaults ((optW w).map Given.sets ++ sh.map nameSets)) answer := by
    intro c hc hwo hgr n hn names hp sh hs
    obtain ⟨u1, u2⟩ := usual_line c hc n hn g (by rw [hgr]; exact hg') (optW w) (optW_valid _ hwo w hw) names hp sh hs answer
    rw [optW_words] at u1 u2
    cases s
    · exact u2
    · exact u1
  have h0 : ∀ x ∈ ([] : List Word), Plain x := by simp
  have h1 : ∀ x ∈ [a], Plain x := by simpa using ha
  have h2 : ∀ x ∈ [a, b], Plain x := by simpa using ⟨ha, hb⟩
  refine ⟨?_, ?_, ?_, ?_, ?_⟩
  · refine (u cfAdd (by decide +kernel) (by decide +kernel) rfl "add" (by decide +kernel) [a] h1 _ rfl).trans ?_
    cases w <;> rfl
  · intro n hn
    have v := u cfCopy (by decide +kernel) (by decide +kernel) rfl n hn
    refine ⟨(v [] h0 _ rfl).trans ?_, (v [a] h1 _ rfl).trans ?_, (v [a, b] h2 _ rfl).trans ?_⟩ <;> cases w <;> rfl
  · intro n hn
    have v := u cfRename (by decide +kernel) (by decide +kernel) rfl n hn
    refine ⟨(v [a] h1 _ rfl).trans ?_, (v [a, b] h2 _ rfl).trans ?_⟩ <;> cases w <;> rfl
  · intro n hn
    refine (u (cfOne ["current", "cur"]) (by decide +kernel) (by decide +kernel) rfl n hn [a] h1 _ rfl).trans ?_
    cases w <;> rfl
  · intro n hn
    refine (u cfRemove (by decide +kernel) (by decide +kernel) rfl n hn [a] h1 _ rfl).trans ?_
    cases w with
    | none =>
      show asked (assign cfRemove.parser.defaults [("config_name", .word a)]) answer (.cfg (.remove [] a)) = _
      have hy : assign cfRemove.parser.defaults [("config_name", .word a)] "yes" = .flag false := rfl
      unfold asked
      rw [hy]
      simp
    | some w =>
      show asked (assign cfRemove.parser.defaults [("workspace_name", .word w), ("config_name", .word a)]) answer (.cfg (.remove w a)) = _
      have hy : assign cfRemove.parser.defaults [("workspace_name", .word w), ("config_name", .word a)] "yes" = .flag false := rfl
      unfold asked
      rw [hy]
      simp

/-! ## Confirmation -/

theorem dropWhile_all (l r : Word) (h : ∀ c ∈ l, blank c = true) : (l ++ r).dropWhile blank = r.dropWhile blank := by
  induction l with
  | nil => rfl
  | cons a l ih =>
    rw [List.cons_append, List.dropWhile_cons_of_pos (h a (by simp))]
    exact ih fun c hc => h c (by simp [hc])

theorem mem_blanks (l : Word) (c : Char) (h : c ∈ l.takeWhile blank) : blank c = true :=
  List.all_eq_true.mp (List.all_takeWhile (p := blank) (l := l)) c h

theorem lower_blank (c : Char) (h : blank c = true) : c.toLower = c := by
  simp only [blank, Bool.or_eq_true, beq_iff_eq] at h
  rcases h with ((((rfl | rfl) | rfl) | rfl) | rfl) | rfl <;> decide

/-- **C163.**  An answer confirms exactly if it is `yes`, in capitals or not, or nothing at all, with any blanks around it. -/
theorem confirmed_iff (answer : Word) : confirmed answer = true ↔
    ∃ pre y post : Word, answer = pre ++ y ++ post ∧ (∀ c ∈ pre, blank c = true) ∧ (∀ c ∈ post, blank c = true) ∧
      (y = [] ∨ y.map Char.toLower = "yes".toList) := by
  constructor
  · intro h
    refine ⟨answer.takeWhile blank, stripped answer, ((answer.dropWhile blank).reverse.takeWhile blank).reverse, ?_, ?_, ?_, ?_⟩
    · unfold stripped
      rw [List.append_assoc, ← List.reverse_append, List.takeWhile_append_dropWhile, List.reverse_reverse, List.takeWhile_append_dropWhile]
    · intro c hc
      exact mem_blanks _ _ hc
    · intro c hc
      exact mem_blanks _ _ (List.mem_reverse.mp hc)
    · unfold confirmed at h
      by_cases hs : stripped answer = []
      · exact Or.inl hs
      · dsimp only at h
        rw [if_neg hs] at h
        exact Or.inr (by simpa using h)
  · rintro ⟨pre, y, post, rfl, h1, h2, h3⟩
    have key : stripped (pre ++ y ++ post) = y := by
      unfold stripped
      rw [List.append_assoc, dropWhile_all pre _ h1]
      have hp : ∀ c ∈ post.reverse, blank c = true := fun c hc => h2 c (List.mem_reverse.mp hc)
      rcases h3 with rfl | h3
      · have := dropWhile_all post [] h2
        rw [List.append_nil] at this
        rw [List.nil_append, this]
        rfl
      · obtain ⟨a, b, c, rfl⟩ : ∃ a b c, y = [a, b, c] := by
          have := congrArg List.length h3
          rw [List.length_map] at this
          exact List.length_eq_three.mp this
        have hne : ∀ d : Char, (d.toLower = 'y' ∨ d.toLower = 's') → ¬ blank d = true := by
          intro d hd hb
          rw [lower_blank d hb] at hd
          rcases hd with rfl | rfl <;> simp [blank] at hb
        have h3' : [a.toLower, b.toLower, c.toLower] = ['y', 'e', 's'] := h3
        simp only [List.cons.injEq, and_true] at h3'
        have ha := hne a (Or.inl h3'.1)
        have hc := hne c (Or.inr h3'.2.2)
        rw [List.cons_append, List.dropWhile_cons_of_neg ha, ← List.cons_append, List.reverse_append, dropWhile_all _ _ hp]
        show (List.dropWhile blank [c, b, a]).reverse = _
        rw [List.dropWhile_cons_of_neg hc]
        rfl
    unfold confirmed
    dsimp only
    rw [key]
    rcases h3 with rfl | h3
    · decide
    · rw [if_neg (by rintro rfl; cases h3), h3]
      decide

/-! ## Other names -/

/-- **C163, violated.**  With the name `.current`, which no command refuses, the current workspace is none of those listed. -/
theorem typed_lines_current_violated : ∃ (ls : List Typed) (fs : FS) (w : Name), w ≠ [] ∧
    typeLines (fun _ => ⟨[], [], []⟩) [] ls = some fs ∧ getCurrent fs = some w ∧ w ∉ workspaceNames fs := by
  refine ⟨[⟨line ["workspace", "add", "a"], []⟩, ⟨line ["w", "add", ".current"], []⟩], _, ".current".toList, by decide, rfl, ?_⟩
  decide +kernel

/-! ## Cases -/

/-- A session with options in several spellings, an alias, a refused line, a removal that is not confirmed and one that is. -/
def lines : List Typed :=
  [⟨line ["workspace", "add", "a"], []⟩, ⟨line ["config", "add", "-wa", "x"], []⟩, ⟨line ["c", "cp", "x", "y", "--work=a"], []⟩,
   ⟨line ["w", "cp", "-q"], []⟩, ⟨line ["c", "rm", "y"], "no".toList⟩, ⟨line ["c", "cur", "--", "y"], []⟩, ⟨line ["c", "rm"], " Yes ".toList⟩]

example : (∀ l ∈ lines, l.words.count dd ≤ 1) ∧ (∀ l ∈ lines, ∀ w ∈ l.words, w = dd ∨ Proper w) ∧
    lines.map lineAct = [.change false (.ws (.add "a".toList)), .change false (.cfg (.add "a".toList "x".toList)),
      .change false (.cfg (.copy "a".toList "x".toList "y".toList)), .nothing, .nothing, .change false (.cfg (.current [] "y".toList)),
      .change false (.cfg (.remove [] []))] := by
  refine ⟨by decide +kernel, ?_, by decide +kernel⟩
  unfold Proper
  decide +kernel

example : (typeLines (fun _ => ⟨"{}".toList, "{}".toList, "{}".toList⟩) [] lines).map
    (fun fs => (getCurrent fs, getCurrentConfig fs "a".toList)) = some (some "a".toList, .ok (some "x".toList)) := by
  decide +kernel

end Dedop.Args
