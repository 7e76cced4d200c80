import Verif.Notebook.Model
import Verif.Basic.Tactics
/-!
# The shell command that opens a notebook (C87)
-/
namespace Dedop.Notebook
open Dedop.Names (Name)

/-! ## Specification: how a shell cuts a command into words -/

/-- Quoting state of a shell. -/
inductive Quoting where
  | plain
  | single
  | double
  deriving DecidableEq, Repr

/-- Characters that mean something else than themselves outside quotes. -/
def special : Name := "|&;<>()$`\\*?[]{}#~!\t\n".toList

/-- Characters that mean something else than themselves between double quotes. -/
def specialDouble : Name := "$`\\".toList

/-- The words of a simple command, after `cur` has been read of the current word.  `none`: a quote is left open, or the text uses a
character with a meaning of its own. -/
def wordsAux : Quoting → Option Name → Name → Option (List Name)
  | .plain, cur, [] => some cur.toList
  | .single, _, [] => none
  | .double, _, [] => none
  | .plain, cur, c :: t =>
    if c = ' ' then (wordsAux .plain none t).map (cur.toList ++ ·)
    else if c = '\'' then wordsAux .single (some (cur.getD [])) t
    else if c = '"' then wordsAux .double (some (cur.getD [])) t
    else if c ∈ special then none
    else wordsAux .plain (some (cur.getD [] ++ [c])) t
  | .single, cur, c :: t =>
    if c = '\'' then wordsAux .plain cur t else wordsAux .single (some (cur.getD [] ++ [c])) t
  | .double, cur, c :: t =>
    if c = '"' then wordsAux .plain cur t
    else if c ∈ specialDouble then none
    else wordsAux .double (some (cur.getD [] ++ [c])) t

/-- The words of a simple command. -/
def words (s : Name) : Option (List Name) := wordsAux .plain none s

example : words "xterm  -T \"a b\" -e 'c \"d\"'".toList = some ["xterm".toList, "-T".toList, "a b".toList, "-e".toList, "c \"d\"".toList] := by
  decide +kernel

/-- Text that stands for itself outside quotes. -/
def SafePlain (s : Name) : Prop := ∀ c ∈ s, c ≠ ' ' ∧ c ≠ '\'' ∧ c ≠ '"' ∧ c ∉ special

/-- Text that stands for itself between double quotes. -/
def SafeDouble (s : Name) : Prop := ∀ c ∈ s, c ≠ '"' ∧ c ∉ specialDouble

/-- Text without braces. -/
def NoBrace (s : Name) : Prop := ∀ c ∈ s, c ≠ '{' ∧ c ≠ '}'

/-- What is to be run: Jupyter, for the notebook, in the directory of the notebooks. -/
def jupyter (pre dir path : Name) : List Name :=
  [pre ++ "/bin/jupyter".toList, "notebook".toList, "--notebook-dir".toList, dir, path]

/-! ## Words -/

theorem wordsAux_plain (a r : Name) (ha : SafePlain a) (cur : Option Name) (hne : a ≠ []) :
    wordsAux .plain cur (a ++ r) = wordsAux .plain (some (cur.getD [] ++ a)) r := by
  induction a generalizing cur with
  | nil => exact absurd rfl hne
  | cons c a ih =>
    obtain ⟨h1, h2, h3, h4⟩ := ha c List.mem_cons_self
    rw [List.cons_append, wordsAux, if_neg h1, if_neg h2, if_neg h3, if_neg h4]
    cases a with
    | nil => rfl
    | cons d a =>
      rw [ih (fun x hx => ha x (List.mem_cons_of_mem _ hx)) _ (by simp)]
      simp

theorem wordsAux_double (a r : Name) (ha : SafeDouble a) (cur : Name) :
    wordsAux .double (some cur) (a ++ r) = wordsAux .double (some (cur ++ a)) r := by
  induction a generalizing cur with
  | nil => simp
  | cons c a ih =>
    obtain ⟨h1, h2⟩ := ha c List.mem_cons_self
    rw [List.cons_append, wordsAux, if_neg h1, if_neg h2, ih fun x hx => ha x (List.mem_cons_of_mem _ hx)]
    simp

theorem wordsAux_single (a r : Name) (ha : '\'' ∉ a) (cur : Name) :
    wordsAux .single (some cur) (a ++ r) = wordsAux .single (some (cur ++ a)) r := by
  induction a generalizing cur with
  | nil => simp
  | cons c a ih =>
    rw [List.cons_append, wordsAux, if_neg (fun e => ha (by rw [e]; exact List.mem_cons_self)), ih fun hx => ha (List.mem_cons_of_mem _ hx)]
    simp

theorem wordsAux_space (cur : Option Name) (r : Name) :
    wordsAux .plain cur (' ' :: r) = (wordsAux .plain none r).map (cur.toList ++ ·) := by
  rw [wordsAux, if_pos rfl]

theorem wordsAux_openDouble (cur : Option Name) (r : Name) :
    wordsAux .plain cur ('"' :: r) = wordsAux .double (some (cur.getD [])) r := by
  rw [wordsAux, if_neg (by decide), if_neg (by decide), if_pos rfl]

theorem wordsAux_closeDouble (cur : Option Name) (r : Name) : wordsAux .double cur ('"' :: r) = wordsAux .plain cur r := by
  rw [wordsAux, if_pos rfl]

theorem wordsAux_openSingle (cur : Option Name) (r : Name) :
    wordsAux .plain cur ('\'' :: r) = wordsAux .single (some (cur.getD [])) r := by
  rw [wordsAux, if_neg (by decide), if_pos rfl]

theorem wordsAux_closeSingle (cur : Option Name) (r : Name) : wordsAux .single cur ('\'' :: r) = wordsAux .plain cur r := by
  rw [wordsAux, if_pos rfl]

/-- Number of characters in words. -/
def total (ws : List Name) : Nat := ws.flatten.length

theorem total_append (a b : List Name) : total (a ++ b) = total a + total b := by
  unfold total
  rw [List.flatten_append, List.length_append]

/-- A quote at the end of a command is in none of its words. -/
theorem wordsAux_total (q : Char) (hq : q = '"' ∨ q = '\'') : ∀ (t : Name) (m : Quoting) (cur : Option Name) (ws : List Name),
    wordsAux m cur (t ++ [q]) = some ws → total ws ≤ (cur.getD []).length + t.length := by
  intro t
  induction t with
  | nil =>
    intro m cur ws h
    have curT : total cur.toList = (cur.getD []).length := by cases cur <;> simp [total]
    rcases hq with rfl | rfl <;> cases m <;> simp [wordsAux, specialDouble] at h
    all_goals
      subst h
      rw [curT]
      omega
  | cons c t ih =>
    intro m cur ws h
    have curT : total cur.toList = (cur.getD []).length := by cases cur <;> simp [total]
    rw [List.cons_append] at h
    cases m with
    | plain =>
      rw [wordsAux] at h
      split at h
      · cases h' : wordsAux .plain none (t ++ [q]) with
        | none => rw [h'] at h; cases h
        | some w =>
          rw [h'] at h
          have e : ws = cur.toList ++ w := (Option.some.inj h).symm
          have := ih _ _ _ h'
          rw [e, total_append, curT]
          simp only [Option.getD_none, List.length_nil] at this
          rw [List.length_cons]
          omega
      split at h
      · have := ih _ _ _ h
        simp only [Option.getD_some] at this
        rw [List.length_cons]
        omega
      split at h
      · have := ih _ _ _ h
        simp only [Option.getD_some] at this
        rw [List.length_cons]
        omega
      split at h
      · cases h
      · have := ih _ _ _ h
        simp only [Option.getD_some, List.length_append, List.length_cons, List.length_nil] at this ⊢
        omega
    | single =>
      rw [wordsAux] at h
      split at h
      · have := ih _ _ _ h
        rw [List.length_cons]
        omega
      · have := ih _ _ _ h
        simp only [Option.getD_some, List.length_append, List.length_cons, List.length_nil] at this ⊢
        omega
    | double =>
      rw [wordsAux] at h
      split at h
      · have := ih _ _ _ h
        rw [List.length_cons]
        omega
      split at h
      · cases h
      · have := ih _ _ _ h
        simp only [Option.getD_some, List.length_append, List.length_cons, List.length_nil] at this ⊢
        omega

/-! ## Fields -/

theorem formatAux_fuel (e : Dict Name Name) : ∀ (n m : Nat) (s : Name), s.length < n → s.length < m → formatAux e n s = formatAux e m s := by
  intro n
  induction n with
  | zero => intro m s h; omega
  | succ n ih =>
    intro m s h1 h2
    obtain ⟨m, rfl⟩ : ∃ k, m = k + 1 := ⟨m - 1, by omega⟩
    cases s with
    | nil => rfl
    | cons c t =>
      rw [List.length_cons] at h1 h2
      have hd : ∀ k, formatAux e n (t.drop k) = formatAux e m (t.drop k) := by
        intro k
        apply ih
        · rw [List.length_drop]; omega
        · rw [List.length_drop]; omega
      have h0 := ih m t (by omega) (by omega)
      unfold formatAux
      simp only [hd, h0]

theorem format_plain (e : Dict Name Name) (a r : Name) (ha : NoBrace a) : format e (a ++ r) = (format e r).map (a ++ ·) := by
  unfold format
  induction a with
  | nil => rw [List.nil_append]; cases formatAux e (r.length + 1) r <;> rfl
  | cons c a ih =>
    obtain ⟨h1, h2⟩ := ha c List.mem_cons_self
    rw [List.cons_append, List.length_cons, formatAux, if_neg h1, if_neg h2, ih fun x hx => ha x (List.mem_cons_of_mem _ hx)]
    cases formatAux e (r.length + 1) r <;> rfl

theorem format_field (e : Dict Name Name) (f r v : Name) (hf : NoBrace f) (hv : e.get? f = some v) :
    format e ('{' :: (f ++ '}' :: r)) = (format e r).map (v ++ ·) := by
  have ht : (f ++ '}' :: r).takeWhile (· ≠ '}') = f := by
    rw [List.takeWhile_append_of_pos fun c hc => by simpa using (hf c hc).2]
    simp
  have hh : (f ++ '}' :: r).head? ≠ some '{' := by
    cases f with
    | nil => simp
    | cons a f => simpa using (hf a List.mem_cons_self).1
  unfold format
  rw [formatAux, if_pos rfl, if_neg hh]
  dsimp only
  rw [ht, if_neg (by simp), hv]
  dsimp only
  have hd : (f ++ '}' :: r).drop (f.length + 1) = r := by
    rw [List.drop_append]
    simp
  rw [hd, formatAux_fuel e _ (r.length + 1) r (by simp; omega) (by omega)]

theorem format_unknown (e : Dict Name Name) (f r : Name) (hf : NoBrace f) (hv : e.get? f = none) :
    format e ('{' :: (f ++ '}' :: r)) = .error (.keyError "field") := by
  have ht : (f ++ '}' :: r).takeWhile (· ≠ '}') = f := by
    rw [List.takeWhile_append_of_pos fun c hc => by simpa using (hf c hc).2]
    simp
  have hh : (f ++ '}' :: r).head? ≠ some '{' := by
    cases f with
    | nil => simp
    | cons a f => simpa using (hf a List.mem_cons_self).1
  unfold format
  rw [formatAux, if_pos rfl, if_neg hh]
  dsimp only
  rw [ht, if_neg (by simp), hv]

theorem format_noBrace (e : Dict Name Name) (s : Name) (h : NoBrace s) : format e s = .ok s := by
  have := format_plain e s [] h
  rw [List.append_nil] at this
  rw [this]
  simp [format, formatAux, Except.map]

/-! ## C87 -/

theorem noBrace_append {a b : Name} (ha : NoBrace a) (hb : NoBrace b) : NoBrace (a ++ b) := by
  intro c hc
  rcases List.mem_append.mp hc with h | h
  · exact ha c h
  · exact hb c h

theorem noBrace_of {s : Name} (h : s.all fun c => c ≠ '{' && c ≠ '}') : NoBrace s := by
  intro c hc
  have := List.all_eq_true.mp h c hc
  simpa using this

theorem safePlain_of {s : Name} (h : s.all fun c => c ≠ ' ' && c ≠ '\'' && c ≠ '"' && !special.contains c) : SafePlain s := by
  intro c hc
  have := List.all_eq_true.mp h c hc
  simpa [and_assoc] using this

theorem safeDouble_of {s : Name} (h : s.all fun c => c ≠ '"' && !specialDouble.contains c) : SafeDouble s := by
  intro c hc
  have := List.all_eq_true.mp h c hc
  simpa using this

theorem command_words_aux (pre dir r : Name) (hp : SafePlain pre) (hd : SafeDouble dir) :
    words (pre ++ ("/bin/jupyter notebook --notebook-dir \"").toList ++ dir ++ ("\" \"").toList ++ r) =
      (wordsAux .double (some []) r).map
        ([pre ++ "/bin/jupyter".toList, "notebook".toList, "--notebook-dir".toList, dir] ++ ·) := by
  have e1 : ("/bin/jupyter notebook --notebook-dir \"").toList = "/bin/jupyter".toList ++ ' ' :: ("notebook".toList ++ ' ' ::
    ("--notebook-dir".toList ++ ' ' :: ['"'])) := by decide +kernel
  have e2 : ("\" \"").toList = ['"', ' ', '"'] := by decide +kernel
  have hs : SafePlain (pre ++ "/bin/jupyter".toList) := by
    intro c hc
    rcases List.mem_append.mp hc with h | h
    · exact hp c h
    · exact safePlain_of (s := "/bin/jupyter".toList) (by decide +kernel) c h
  have hne : pre ++ "/bin/jupyter".toList ≠ [] := by
    intro h
    have := (List.append_eq_nil_iff.mp h).2
    revert this
    decide +kernel
  unfold words
  rw [e1, e2]
  have e3 : pre ++ ("/bin/jupyter".toList ++ ' ' :: ("notebook".toList ++ ' ' :: ("--notebook-dir".toList ++ ' ' :: ['"']))) ++ dir ++
      ['"', ' ', '"'] ++ r = (pre ++ "/bin/jupyter".toList) ++ (' ' :: ("notebook".toList ++ (' ' ::
      ("--notebook-dir".toList ++ (' ' :: '"' :: (dir ++ ('"' :: ' ' :: '"' :: r))))))) := by
    simp only [List.append_assoc, List.cons_append, List.nil_append]
  rw [e3, wordsAux_plain _ _ hs _ hne, wordsAux_space, wordsAux_plain _ _ (safePlain_of (by decide +kernel)) _ (by decide +kernel),
    wordsAux_space, wordsAux_plain _ _ (safePlain_of (by decide +kernel)) _ (by decide +kernel), wordsAux_space,
    wordsAux_openDouble, wordsAux_double _ _ hd, wordsAux_closeDouble, wordsAux_space, wordsAux_openDouble]
  simp only [Option.map_map, Option.toList_some, Option.getD_none, List.nil_append]
  rfl

theorem command_words (pre dir path : Name) (hp : SafePlain pre) (hd : SafeDouble dir) (hf : SafeDouble path) :
    words (notebookCommand pre dir path) = some (jupyter pre dir path) := by
  unfold notebookCommand jupyter
  rw [List.append_assoc, command_words_aux pre dir _ hp hd, wordsAux_double _ _ hf, wordsAux_closeDouble]
  simp [wordsAux]

theorem command_quote (pre dir path : Name) (hp : SafePlain pre) (hd : SafeDouble dir) (hq : '"' ∈ path) :
    words (notebookCommand pre dir path) ≠ some (jupyter pre dir path) := by
  unfold notebookCommand jupyter
  rw [List.append_assoc, command_words_aux pre dir _ hp hd]
  intro h
  obtain ⟨a, b, rfl⟩ := List.append_of_mem hq
  cases h' : wordsAux .double (some []) (a ++ '"' :: b ++ ['"']) with
  | none => rw [h'] at h; cases h
  | some ws =>
    rw [h'] at h
    have e : ws = [a ++ '"' :: b] := by
      have := Option.some.inj h
      simpa using this
    -- the first quote of the path ends the word
    have key : ∀ (a : Name) (cur : Name) (ws : List Name), wordsAux .double (some cur) (a ++ '"' :: b ++ ['"']) = some ws →
        total ws ≤ cur.length + a.length + b.length := by
      intro a
      induction a with
      | nil =>
        intro cur ws h
        rw [List.nil_append, List.cons_append, wordsAux_closeDouble] at h
        have := wordsAux_total '"' (.inl rfl) _ _ _ _ h
        simpa using this
      | cons c a ih =>
        intro cur ws h
        rw [List.cons_append, List.cons_append, wordsAux] at h
        split at h
        · have := wordsAux_total '"' (.inl rfl) _ _ _ _ h
          simp at this ⊢
          omega
        split at h
        · cases h
        · have := ih _ _ h
          simp at this ⊢
          omega
    have := key a [] ws h'
    rw [e] at this
    simp [total] at this

theorem command_noBrace (pre dir path : Name) (hp : NoBrace pre) (hd : NoBrace dir) (hf : NoBrace path) :
    NoBrace (notebookCommand pre dir path) := by
  have h1 : NoBrace ("/bin/jupyter notebook --notebook-dir \"").toList := noBrace_of (by decide +kernel)
  have h2 : NoBrace ("\" \"").toList := noBrace_of (by decide +kernel)
  have h3 : NoBrace ['"'] := noBrace_of (by decide +kernel)
  unfold notebookCommand
  exact noBrace_append (noBrace_append (noBrace_append (noBrace_append (noBrace_append hp h1) hd) h2) hf) h3

theorem safePlain_noBrace {s : Name} (h : SafePlain s) : NoBrace s := by
  intro c hc
  obtain ⟨-, -, -, h4⟩ := h c hc
  constructor
  · rintro rfl
    exact h4 (by decide +kernel)
  · rintro rfl
    exact h4 (by decide +kernel)

/-- **C87** without a terminal program: Jupyter is run for the notebook.  Missing: paths with braces or with characters that mean
something between double quotes (false, see below). -/
theorem shell_direct_partial (pre title dir path : Name) (hp : SafePlain pre) (hd : SafeDouble dir) (hd' : NoBrace dir)
    (hf : SafeDouble path) (hf' : NoBrace path) :
    ∃ text, shellText .none pre title dir path = .ok text ∧ words text = some (jupyter pre dir path) := by
  refine ⟨notebookCommand pre dir path, ?_, command_words pre dir path hp hd hf⟩
  unfold shellText template
  exact format_noBrace _ _ (command_noBrace pre dir path (safePlain_noBrace hp) hd' hf')

/-- **C87 is violated** without a terminal program by every path with a double quote. -/
theorem shell_direct_quote_violated (pre title dir path : Name) (hp : SafePlain pre) (hd : SafeDouble dir) (hd' : NoBrace dir)
    (hq : '"' ∈ path) (hf' : NoBrace path) :
    ∃ text, shellText .none pre title dir path = .ok text ∧ words text ≠ some (jupyter pre dir path) := by
  refine ⟨notebookCommand pre dir path, ?_, command_quote pre dir path hp hd hq⟩
  unfold shellText template
  exact format_noBrace _ _ (command_noBrace pre dir path (safePlain_noBrace hp) hd' hf')

/-- **C87 is violated** without a terminal program by a path with an opening brace: the command is taken for a template, and the text
in the braces for the name of a field. -/
theorem shell_direct_brace_violated (pre title dir a f r : Name) (hp : SafePlain pre) (hd' : NoBrace dir) (ha : NoBrace a)
    (hf : NoBrace f) (hn : f ∉ ["title".toList, "command".toList, "command_file".toList, "prefix".toList]) :
    shellText .none pre title dir (a ++ '{' :: (f ++ '}' :: r)) = .error (.keyError "field") := by
  have h1 : NoBrace ("/bin/jupyter notebook --notebook-dir \"").toList := noBrace_of (by decide +kernel)
  have h2 : NoBrace ("\" \"").toList := noBrace_of (by decide +kernel)
  unfold shellText template
  dsimp only
  generalize hc : notebookCommand pre dir (a ++ '{' :: (f ++ '}' :: r)) = command
  have hg : (env ("DeDop - ".toList ++ title) command [] pre).get? f = none := by
    simp only [List.mem_cons, not_or] at hn
    unfold env
    rw [Dict.get?, if_neg hn.1, Dict.get?, if_neg hn.2.1, Dict.get?, if_neg hn.2.2.1, Dict.get?, if_neg hn.2.2.2.1, Dict.get?]
  have hs : command = (pre ++ ("/bin/jupyter notebook --notebook-dir \"").toList ++ dir ++ ("\" \"").toList ++ a) ++
      ('{' :: (f ++ '}' :: (r ++ ['"']))) := by
    rw [← hc]
    unfold notebookCommand
    simp only [List.append_assoc, List.cons_append]
  generalize env ("DeDop - ".toList ++ title) command [] pre = e at hg
  rw [hs, format_plain e _ _ (noBrace_append (noBrace_append (noBrace_append (noBrace_append (safePlain_noBrace hp) h1) hd') h2) ha),
    format_unknown e f _ hf hg]
  rfl

/-! ### In a terminal program -/

theorem xterm_text (pre title dir path : Name) : shellText .xterm pre title dir path =
    .ok ("xterm  -T \"".toList ++ ("DeDop - ".toList ++ title) ++ "\" -e '".toList ++ notebookCommand pre dir path ++ ['\'']) := by
  unfold shellText template
  dsimp only
  generalize notebookCommand pre dir path = command
  have e : "xterm  -T \"{title}\" -e '{command}'".toList =
      "xterm  -T \"".toList ++ ('{' :: ("title".toList ++ '}' :: ("\" -e '".toList ++ ('{' :: ("command".toList ++ '}' :: ['\'']))))) := by
    decide +kernel
  have h1 : (env ("DeDop - ".toList ++ title) command [] pre).get? "title".toList = some ("DeDop - ".toList ++ title) := rfl
  have h2 : (env ("DeDop - ".toList ++ title) command [] pre).get? "command".toList = some command := rfl
  rw [e, format_plain _ _ _ (noBrace_of (by decide +kernel)), format_field _ _ _ _ (noBrace_of (by decide +kernel)) h1,
    format_plain _ _ _ (noBrace_of (by decide +kernel)), format_field _ _ _ _ (noBrace_of (by decide +kernel)) h2,
    format_noBrace _ _ (noBrace_of (by decide +kernel))]
  simp only [Except.map, List.append_assoc]

theorem gnome_text (pre title dir path : Name) : shellText .gnome pre title dir path =
    .ok ("gnome-terminal -e '".toList ++ notebookCommand pre dir path ++ ['\'']) := by
  unfold shellText template
  dsimp only
  generalize notebookCommand pre dir path = command
  have e : "gnome-terminal -e '{command}'".toList = "gnome-terminal -e '".toList ++ ('{' :: ("command".toList ++ '}' :: ['\''])) := by
    decide +kernel
  have h2 : (env ("DeDop - ".toList ++ title) command [] pre).get? "command".toList = some command := rfl
  rw [e, format_plain _ _ _ (noBrace_of (by decide +kernel)), format_field _ _ _ _ (noBrace_of (by decide +kernel)) h2,
    format_noBrace _ _ (noBrace_of (by decide +kernel))]
  simp only [Except.map, List.append_assoc]

/-- Words of a quoted command at the end of a line. -/
theorem quoted_words (command : Name) (h : '\'' ∉ command) : wordsAux .plain none ('\'' :: (command ++ ['\''])) = some [command] := by
  rw [wordsAux_openSingle, wordsAux_single _ _ h, wordsAux_closeSingle]
  simp [wordsAux]

theorem quoted_broken (command : Name) (h : '\'' ∈ command) : wordsAux .plain none ('\'' :: (command ++ ['\''])) ≠ some [command] := by
  intro h'
  obtain ⟨a, b, rfl⟩ := List.append_of_mem h
  rw [wordsAux_openSingle] at h'
  have key : ∀ (a : Name) (cur : Name) (ws : List Name), wordsAux .single (some cur) (a ++ '\'' :: b ++ ['\'']) = some ws →
      total ws ≤ cur.length + a.length + b.length := by
    intro a
    induction a with
    | nil =>
      intro cur ws h
      rw [List.nil_append, List.cons_append, wordsAux_closeSingle] at h
      have := wordsAux_total '\'' (.inr rfl) _ _ _ _ h
      simpa using this
    | cons c a ih =>
      intro cur ws h
      rw [List.cons_append, List.cons_append, wordsAux] at h
      split at h
      · have := wordsAux_total '\'' (.inr rfl) _ _ _ _ h
        simp at this ⊢
        omega
      · have := ih _ _ h
        simp at this ⊢
        omega
  have := key a _ _ h'
  simp [total] at this

theorem xterm_words (title r : Name) (ht : SafeDouble title) :
    words ("xterm  -T \"".toList ++ ("DeDop - ".toList ++ title) ++ "\" -e '".toList ++ r) =
      (wordsAux .plain none ('\'' :: r)).map (["xterm".toList, "-T".toList, "DeDop - ".toList ++ title, "-e".toList] ++ ·) := by
  have e1 : "xterm  -T \"".toList = "xterm".toList ++ (' ' :: ' ' :: ("-T".toList ++ [' ', '"'])) := by decide +kernel
  have e2 : "\" -e '".toList = '"' :: ' ' :: ("-e".toList ++ [' ', '\'']) := by decide +kernel
  have ht' : SafeDouble ("DeDop - ".toList ++ title) := by
    intro c hc
    rcases List.mem_append.mp hc with h | h
    · exact safeDouble_of (s := "DeDop - ".toList) (by decide +kernel) c h
    · exact ht c h
  generalize "DeDop - ".toList ++ title = full at ht'
  unfold words
  rw [e1, e2]
  rw [show "xterm".toList ++ (' ' :: ' ' :: ("-T".toList ++ [' ', '"'])) ++ full ++ '"' :: ' ' :: ("-e".toList ++ [' ', '\'']) ++ r =
    "xterm".toList ++ (' ' :: ' ' :: ("-T".toList ++ (' ' :: '"' :: (full ++ ('"' :: ' ' :: ("-e".toList ++ (' ' :: '\'' :: r))))))) by
      simp only [List.append_assoc, List.cons_append, List.nil_append]]
  rw [wordsAux_plain _ _ (safePlain_of (by decide +kernel)) _ (by decide +kernel), wordsAux_space, wordsAux_space,
    wordsAux_plain _ _ (safePlain_of (by decide +kernel)) _ (by decide +kernel), wordsAux_space, wordsAux_openDouble,
    wordsAux_double _ _ ht', wordsAux_closeDouble, wordsAux_space,
    wordsAux_plain _ _ (safePlain_of (by decide +kernel)) _ (by decide +kernel), wordsAux_space]
  simp only [Option.map_map, Option.toList_some, Option.toList_none, Option.getD_none, List.nil_append]
  rfl

theorem gnome_words (r : Name) : words ("gnome-terminal -e '".toList ++ r) =
    (wordsAux .plain none ('\'' :: r)).map (["gnome-terminal".toList, "-e".toList] ++ ·) := by
  have e1 : "gnome-terminal -e '".toList = "gnome-terminal".toList ++ (' ' :: ("-e".toList ++ [' ', '\''])) := by decide +kernel
  unfold words
  rw [e1]
  rw [show "gnome-terminal".toList ++ (' ' :: ("-e".toList ++ [' ', '\''])) ++ r =
    "gnome-terminal".toList ++ (' ' :: ("-e".toList ++ (' ' :: '\'' :: r))) by
      simp only [List.append_assoc, List.cons_append, List.nil_append]]
  rw [wordsAux_plain _ _ (safePlain_of (by decide +kernel)) _ (by decide +kernel), wordsAux_space,
    wordsAux_plain _ _ (safePlain_of (by decide +kernel)) _ (by decide +kernel), wordsAux_space]
  simp only [Option.map_map, Option.toList_some, Option.getD_none, List.nil_append]
  rfl

/-- Specification: the text runs `command` in a new window of xterm with this title. -/
def InXterm (text title command : Name) : Prop := words text = some ["xterm".toList, "-T".toList, title, "-e".toList, command]

/-- Specification: the text runs `command` in a new window of GNOME. -/
def InGnome (text command : Name) : Prop := words text = some ["gnome-terminal".toList, "-e".toList, command]

theorem apostrophe_command (pre dir path : Name) : '\'' ∈ notebookCommand pre dir path ↔ '\'' ∈ pre ∨ '\'' ∈ dir ∨ '\'' ∈ path := by
  have h1 : '\'' ∉ ("/bin/jupyter notebook --notebook-dir \"").toList := by decide +kernel
  have h2 : '\'' ∉ ("\" \"").toList := by decide +kernel
  unfold notebookCommand
  simp only [List.mem_append, h1, h2, List.mem_singleton, or_false, show ¬ ('\'' = '"') by decide, or_assoc]

/-- **C87** with xterm and with GNOME: the window runs a command that runs Jupyter for the notebook, braces or not.  Missing: apostrophes
and characters that mean something between double quotes. -/
theorem shell_window_partial (pre title dir path : Name) (hp : SafePlain pre) (ht : SafeDouble title) (hd : SafeDouble dir)
    (hd' : '\'' ∉ dir) (hf : SafeDouble path) (hf' : '\'' ∉ path) :
    ∃ tx tg command, shellText .xterm pre title dir path = .ok tx ∧ InXterm tx ("DeDop - ".toList ++ title) command ∧
      shellText .gnome pre title dir path = .ok tg ∧ InGnome tg command ∧ words command = some (jupyter pre dir path) := by
  have hc : '\'' ∉ notebookCommand pre dir path := by
    rw [apostrophe_command]
    rintro (h | h | h)
    · exact (hp _ h).2.1 rfl
    · exact hd' h
    · exact hf' h
  refine ⟨_, _, notebookCommand pre dir path, xterm_text pre title dir path, ?_, gnome_text pre title dir path, ?_,
    command_words pre dir path hp hd hf⟩
  · unfold InXterm
    rw [List.append_assoc, xterm_words title _ ht, quoted_words _ hc]
    rfl
  · unfold InGnome
    rw [List.append_assoc, gnome_words, quoted_words _ hc]
    rfl

/-- **C87 is violated** with xterm and with GNOME by every path with an apostrophe: the window does not run that command. -/
theorem shell_window_violated (pre title dir path : Name) (ht : SafeDouble title) (hq : '\'' ∈ path) :
    ∃ tx tg, shellText .xterm pre title dir path = .ok tx ∧ shellText .gnome pre title dir path = .ok tg ∧
      ¬ InXterm tx ("DeDop - ".toList ++ title) (notebookCommand pre dir path) ∧ ¬ InGnome tg (notebookCommand pre dir path) := by
  have hc : '\'' ∈ notebookCommand pre dir path := (apostrophe_command pre dir path).mpr (.inr (.inr hq))
  refine ⟨_, _, xterm_text pre title dir path, gnome_text pre title dir path, ?_, ?_⟩
  · unfold InXterm
    rw [List.append_assoc, xterm_words title _ ht]
    intro h
    apply quoted_broken _ hc
    cases h' : wordsAux .plain none ('\'' :: (notebookCommand pre dir path ++ ['\''])) with
    | none => rw [h'] at h; cases h
    | some ws =>
      rw [h'] at h
      have := Option.some.inj h
      simp only [List.cons_append, List.nil_append, List.cons.injEq, true_and] at this
      rw [this]
  · unfold InGnome
    rw [List.append_assoc, gnome_words]
    intro h
    apply quoted_broken _ hc
    cases h' : wordsAux .plain none ('\'' :: (notebookCommand pre dir path ++ ['\''])) with
    | none => rw [h'] at h; cases h
    | some ws =>
      rw [h'] at h
      have := Option.some.inj h
      simp only [List.cons_append, List.nil_append, List.cons.injEq, true_and] at this
      rw [this]

example : SafePlain "/opt/conda".toList ∧ SafeDouble "my data".toList ∧ '\'' ∉ "my data".toList ∧ NoBrace "my data".toList :=
  ⟨safePlain_of (by decide +kernel), safeDouble_of (by decide +kernel), by decide +kernel, noBrace_of (by decide +kernel)⟩
example : shellText .none "/opt".toList "t".toList "/w".toList "/w/a{1}.ipynb".toList = .error (.keyError "field") := by decide +kernel
example : (shellText .none "/opt".toList "t".toList "/w".toList "/w/a b.ipynb".toList).map words =
    .ok (some (jupyter "/opt".toList "/w".toList "/w/a b.ipynb".toList)) := by decide +kernel

end Dedop.Notebook
