import Verif.Report.Listing
import Verif.Report.OutcomeProps
import Verif.Report.Props
/-! # What the `list` commands print: property C106 -/
namespace Dedop.Report
open Dedop.Names Dedop.Workspace Dedop.Run

/-! ## Specification: reading the printed lines -/

/-- The name on a line: what follows the first colon and a blank. -/
def shownName (line : Name) : Name := (line.dropWhile (· ≠ ':')).drop 2

/-- The decimal number a text begins with, blanks before it ignored; `0` without one. -/
def leadingNumber (line : Name) : Nat :=
  ((line.dropWhile (· = ' ')).takeWhile Char.isDigit).foldl (fun n c => n * 10 + (c.toNat - 48)) 0

/-- The printed lines announce and show exactly the names with the given property: one line each, in increasing order, numbered from 1,
and the first line says how many. -/
structure Lists (lines : List Name) (S : Name → Prop) : Prop where
  exactly : ∀ n, n ∈ lines.tail.map shownName ↔ S n
  increasing : (lines.tail.map shownName).Pairwise (fun a b => a ≤ b ∧ a ≠ b)
  numbered : lines.tail.map leadingNumber = List.range' 1 lines.tail.length
  counted : lines ≠ [] ∧ leadingNumber (lines.headD []) = lines.tail.length

/-! ## Lemmas -/

theorem decimal_isDigit (k : Nat) : ∀ ch ∈ decimal k, ch.isDigit = true := by
  intro ch h
  have := decimal_digits k ch h
  have hall : ∀ c ∈ "0123456789".toList, c.isDigit = true := by decide +kernel
  exact hall ch this

theorem decimal_ne_nil (k : Nat) : decimal k ≠ [] := by
  intro h
  unfold decimal at h
  split at h
  · cases h
  · simp at h

theorem isDigit_ne {ch : Char} (h : ch.isDigit = true) : ch ≠ ' ' ∧ ch ≠ ':' := by
  constructor <;> (rintro rfl; revert h; decide)

theorem number_of {k : Nat} {pre rest : Name} (hpre : ∀ c ∈ pre, c = ' ') (hrest : ∀ c, rest.head? = some c → c.isDigit = false) :
    leadingNumber (pre ++ decimal k ++ rest) = k := by
  unfold leadingNumber
  have h1 : (pre ++ decimal k ++ rest).dropWhile (· = ' ') = decimal k ++ rest := by
    rw [List.append_assoc, List.dropWhile_append_of_pos (by intro a ha; simpa using hpre a ha)]
    cases hd : decimal k with
    | nil => exact absurd hd (decimal_ne_nil k)
    | cons a t =>
      rw [List.cons_append, List.dropWhile_cons_of_neg]
      have := (isDigit_ne (decimal_isDigit k a (by rw [hd]; simp))).1
      simpa using this
  rw [h1]
  have h2 : (decimal k ++ rest).takeWhile Char.isDigit = decimal k := by
    rw [List.takeWhile_append_of_pos (decimal_isDigit k)]
    cases rest with
    | nil => simp
    | cons a t =>
      rw [List.takeWhile_cons_of_neg]
      · simp
      · rw [hrest a rfl]; simp
  rw [h2]
  exact undecimal_decimal k

theorem entry_number (i : Nat) (n : Name) : leadingNumber (entryLine i n) = i + 1 := by
  unfold entryLine pad3
  rw [List.append_assoc]
  refine number_of (by intro c hc; exact (List.mem_replicate.1 hc).2) ?_
  intro c hc
  have : c = ':' := by simpa using hc.symm
  rw [this]; decide

theorem entry_name (i : Nat) (n : Name) : shownName (entryLine i n) = n := by
  unfold shownName entryLine pad3
  have h : ∀ c ∈ List.replicate (3 - (decimal (i + 1)).length) ' ' ++ decimal (i + 1), (decide (c ≠ ':')) = true := by
    intro c hc
    rcases List.mem_append.1 hc with h | h
    · rw [(List.mem_replicate.1 h).2]; decide
    · simpa using (isDigit_ne (decimal_isDigit _ c h)).2
  rw [List.append_assoc, List.dropWhile_append_of_pos h]
  simp

theorem entryLines_names (i : Nat) (names : List Name) : (entryLines i names).map shownName = names := by
  induction names generalizing i with
  | nil => rfl
  | cons n t ih => rw [entryLines, List.map_cons, entry_name, ih]

theorem entryLines_length (i : Nat) (names : List Name) : (entryLines i names).length = names.length := by
  rw [← List.length_map (f := shownName), entryLines_names]

theorem entryLines_numbers (i : Nat) (names : List Name) :
    (entryLines i names).map leadingNumber = List.range' (i + 1) names.length := by
  induction names generalizing i with
  | nil => rfl
  | cons n t ih => rw [entryLines, List.map_cons, entry_number, ih, List.length_cons, List.range'_succ]

theorem head_number (none one many : Name) (n : Nat) : leadingNumber (headLine none one many n) = n := by
  unfold headLine
  split
  · rename_i h; rw [h]
    unfold leadingNumber
    rfl
  · split
    · rename_i h; rw [h]
      have : ['1', ' '] ++ one ++ [':'] = [] ++ decimal 1 ++ ([' '] ++ one ++ [':']) := by
        rw [show decimal 1 = ['1'] from by decide +kernel]; rfl
      rw [this]
      exact number_of (by simp) (by intro c hc; have : c = ' ' := by simpa using hc.symm
                                    rw [this]; decide)
    · have : decimal n ++ [' '] ++ many ++ [':'] = [] ++ decimal n ++ ([' '] ++ many ++ [':']) := by simp
      rw [this]
      exact number_of (by simp) (by intro c hc; have : c = ' ' := by simpa using hc.symm
                                    rw [this]; decide)

theorem printed_lists (none one many : Name) (names : List Name) (S : Name → Prop) (hs : names.Pairwise (· ≤ ·)) (hn : names.Nodup)
    (hm : ∀ n, n ∈ names ↔ S n) : Lists (printed none one many names) S := by
  have ht : (printed none one many names).tail = entryLines 0 names := rfl
  refine ⟨?_, ?_, ?_, ?_, ?_⟩
  · rw [ht, entryLines_names]; exact hm
  · rw [ht, entryLines_names]
    exact hs.imp₂ (fun _ _ h1 h2 => ⟨h1, h2⟩) hn
  · rw [ht, entryLines_numbers, entryLines_length]
  · simp [printed]
  · rw [ht, entryLines_length]
    exact head_number none one many names.length

theorem workspaceNames_spec (fs : FS) (ho : Once fs) (ht : IsTree (view fs)) :
    (workspaceNames fs).Pairwise (· ≤ ·) ∧ (workspaceNames fs).Nodup ∧ ∀ n, n ∈ workspaceNames fs ↔ view fs [n] = some .dir := by
  unfold workspaceNames
  split
  · refine ⟨sortNames_sorted _, (sortNames_perm _).nodup_iff.2 ((listdir_nodup fs [] ho).filter _), ?_⟩
    intro n
    rw [(sortNames_perm _).mem_iff, List.mem_filter, FS.isDir_iff, FS.mem_listdir]
    exact ⟨fun h => h.2, fun h => ⟨by show view fs [n] ≠ none; rw [h]; simp, h⟩⟩
  · rename_i h0
    refine ⟨List.Pairwise.nil, List.nodup_nil, ?_⟩
    intro n
    refine ⟨fun h => (by cases h), fun h => ?_⟩
    have : view fs [] = some .dir := ht [] n (by show view fs [n] ≠ none; rw [h]; simp)
    rw [exists?_false.1 h0] at this; cases this

/-- A directory with products: the listing of its regular `.nc` files. -/
theorem ncDir_spec {P : Type} (fnmatch : Name → P → Bool) (fs : FS) (ho : Once fs) (dir : Path) (pattern : Option P) (names : List Name)
    (hn : names = if fs.exists? dir then ncList fnmatch ((fs.listdir dir).map fun n => (n, !fs.isDir (dir ++ [n])))
      (match pattern with | none => .absent | some p => .single p) else [])
    (ht : IsTree (view fs)) :
    names.Pairwise (· ≤ ·) ∧ names.Nodup ∧ ∀ n, n ∈ names ↔
      (∃ text, view fs (dir ++ [n]) = some (.file text)) ∧ (∃ s, n = s ++ ".nc".toList) ∧ ∀ p, pattern = some p → fnmatch n p = true := by
  subst hn
  split
  · refine ⟨(listing_exact_and_sorted fnmatch _ _).1, ?_, ?_⟩
    · refine listing_once_each_partial fnmatch _ ?_ _ ?_
      · rw [List.map_map]
        have : ((fun e : Name × Bool => e.1) ∘ fun n => (n, !fs.isDir (dir ++ [n]))) = id := rfl
        rw [this, List.map_id]
        exact listdir_nodup fs dir ho
      · intro ps hps; cases pattern <;> cases hps
    · intro n
      rw [(listing_exact_and_sorted fnmatch _ _).2 n]
      have h1 : IsProduct ((fs.listdir dir).map fun n => (n, !fs.isDir (dir ++ [n]))) n ↔
          (∃ text, view fs (dir ++ [n]) = some (.file text)) ∧ ∃ s, n = s ++ ".nc".toList := by
        unfold IsProduct
        apply and_congr_left
        intro _
        simp only [List.mem_map, Prod.mk.injEq, Bool.not_eq_true']
        constructor
        · rintro ⟨x, hx, rfl, hf⟩
          rw [FS.mem_listdir] at hx
          cases hv : view fs (dir ++ [x]) with
          | none => exact absurd hv hx
          | some e =>
            cases e with
            | file text => exact ⟨text, rfl⟩
            | dir => rw [(FS.isDir_iff fs (dir ++ [x])).2 hv] at hf; cases hf
        · rintro ⟨text, htx⟩
          refine ⟨n, ?_, rfl, ?_⟩
          · rw [FS.mem_listdir]
            intro h
            have : view fs (dir ++ [n]) = none := h
            rw [htx] at this; cases this
          · by_contra h
            rw [Bool.not_eq_false] at h
            have : view fs (dir ++ [n]) = some .dir := (FS.isDir_iff fs _).1 h
            rw [htx] at this; cases this
      have h2 : Selected fnmatch n (match pattern with | none => .absent | some p => .single p) ↔
          ∀ p, pattern = some p → fnmatch n p = true := by
        cases pattern with
        | none => exact ⟨fun _ _ h => (by cases h), fun _ => trivial⟩
        | some p => exact ⟨fun h q hq => by cases hq; exact h, fun h => h p rfl⟩
      rw [h1, h2, and_assoc]
  · rename_i h0
    refine ⟨List.Pairwise.nil, List.nodup_nil, ?_⟩
    intro n
    refine ⟨fun h => (by cases h), ?_⟩
    rintro ⟨⟨text, h⟩, -⟩
    have : view fs dir = some .dir := ht dir n (by rw [h]; simp)
    rw [exists?_false.1 h0] at this; cases this

theorem configNames_spec (fs : FS) (ho : Once fs) (ht : IsTree (view fs)) {s : Name} (hs : s ≠ []) (he : view fs [s] ≠ none) :
    ∃ o, configNames fs s = .ok o ∧ (o.getD []).Pairwise (· ≤ ·) ∧ (o.getD []).Nodup ∧
      ∀ n, n ∈ o.getD [] ↔ view fs [s, "configs".toList, n] = some .dir := by
  have h3 : comp s ++ [configsDir] = [s, "configs".toList] := by rw [comp_plain hs]; rfl
  rw [configNames, if_neg (fun h => he ((wsPath_view hs).1 h)), h3]
  split
  · refine ⟨_, rfl, sortNames_sorted _, (sortNames_perm _).nodup_iff.2 ((listdir_nodup fs _ ho).filter _), ?_⟩
    intro n
    rw [Option.getD_some, (sortNames_perm _).mem_iff, List.mem_filter, FS.isDir_iff, FS.mem_listdir]
    exact ⟨fun h => h.2, fun h => ⟨by show view fs [s, "configs".toList, n] ≠ none; rw [h]; simp, h⟩⟩
  · rename_i h0
    refine ⟨_, rfl, List.Pairwise.nil, List.nodup_nil, ?_⟩
    intro n
    refine ⟨fun h => (by cases h), fun h => ?_⟩
    have : view fs [s, "configs".toList] = some .dir := ht [s, "configs".toList] n (by
      show view fs [s, "configs".toList, n] ≠ none; rw [h]; simp)
    rw [exists?_false.1 h0] at this; cases this

/-! ## The property -/

/-- **C106, workspaces.**  `dedop workspace list` shows exactly the directories in the workspaces directory. -/
theorem list_workspaces_shows (fs : FS) (ho : Once fs) (ht : IsTree (view fs)) :
    Lists (listWorkspaces fs) (fun n => view fs [n] = some .dir) := by
  obtain ⟨h1, h2, h3⟩ := workspaceNames_spec fs ho ht
  exact printed_lists _ _ _ _ _ h1 h2 h3

/-- **C106, configurations.**  `dedop config list` shows exactly the directories in `configs` of the selected workspace, if that exists. -/
theorem list_configs_shows (fs : FS) (ho : Once fs) (ht : IsTree (view fs)) (w s : Name) (hs : selectedWs fs w = some s)
    (he : view fs [s] ≠ none) :
    ∃ lines, listConfigs fs w = .ok lines ∧ Lists lines (fun n => view fs [s, "configs".toList, n] = some .dir) := by
  obtain ⟨h1, h2⟩ := selected_some.1 hs
  obtain ⟨o, h3, h4, h5, h6⟩ := configNames_spec fs ho ht h2 he
  have h7 : cfgList fs w = .ok (o.getD []) := by
    unfold cfgList
    dsimp only
    rw [h1, if_neg h2, h3]
  unfold listConfigs
  rw [h7]
  exact ⟨_, rfl, printed_lists _ _ _ _ _ h4 h5 h6⟩

/-- **C106, inputs.**  `dedop input list` shows exactly the regular `.nc` files in `inputs` of the selected workspace that match the pattern,
if one is given. -/
theorem list_inputs_shows {P : Type} (fnmatch : Name → P → Bool) (fs : FS) (ho : Once fs) (ht : IsTree (view fs)) (w s : Name)
    (hs : selectedWs fs w = some s) (pattern : Option P) :
    ∃ lines, listInputs fnmatch fs w pattern = .ok lines ∧ Lists lines (fun n =>
      (∃ text, view fs [s, "inputs".toList, n] = some (.file text)) ∧ (∃ m, n = m ++ ".nc".toList) ∧
        ∀ p, pattern = some p → fnmatch n p = true) := by
  obtain ⟨h1, h2⟩ := selected_some.1 hs
  unfold listInputs
  dsimp only
  rw [h1, if_neg h2]
  have hd : inputs s = [s, "inputs".toList] := by unfold inputs; rw [comp_plain h2]; rfl
  obtain ⟨h4, h5, h6⟩ := ncDir_spec fnmatch fs ho [s, "inputs".toList] pattern
    (inputNames fnmatch fs s (match pattern with | none => .absent | some p => .single p)) (by rw [inputNames, hd]) ht
  exact ⟨_, rfl, printed_lists _ _ _ _ _ h4 h5 h6⟩

/-- **C106, outputs.**  `dedop output list` shows exactly the regular `.nc` files in `outputs` of the selected configuration that match the
pattern, if one is given. -/
theorem list_outputs_shows {P : Type} (fnmatch : Name → P → Bool) (fs : FS) (ho : Once fs) (ht : IsTree (view fs)) (w c s d : Name)
    (hs : selectedWs fs w = some s) (hd : selectedCfg fs s c = some d) (he : view fs [s] ≠ none) (pattern : Option P) :
    ∃ lines, listOutputs fnmatch fs w c pattern = .ok lines ∧ Lists lines (fun n =>
      (∃ text, view fs [s, "configs".toList, d, "outputs".toList, n] = some (.file text)) ∧ (∃ m, n = m ++ ".nc".toList) ∧
        ∀ p, pattern = some p → fnmatch n p = true) := by
  obtain ⟨h1, h2⟩ := selected_some.1 hs
  have hb : both fs w c = .ok (s, d) := by
    unfold both
    rcases args_cases fs w c with ⟨g1, g2, g3, m, g4⟩ | ⟨g1, g2⟩ | ⟨g1, g2, g3⟩
    · rw [h1] at g3; exact absurd g3 he
    · rw [h1] at g1; exact absurd g1 h2
    · rw [g3, h1, hd]
      dsimp only [Option.getD_some]
      rw [if_neg h2, if_neg (selectedCfg_ne hd)]
  unfold listOutputs
  rw [hb]
  dsimp only
  have hp : cfgPath s d ++ [outputsDir] = [s, "configs".toList, d, "outputs".toList] := by
    rw [cfgPath_plain h2 (selectedCfg_ne hd)]; rfl
  obtain ⟨h4, h5, h6⟩ := ncDir_spec fnmatch fs ho [s, "configs".toList, d, "outputs".toList] pattern
    (outputNamesIn fnmatch fs s d (match pattern with | none => .absent | some p => .single p)) (by rw [outputNamesIn, hp]) ht
  exact ⟨_, rfl, printed_lists _ _ _ _ _ h4 h5 h6⟩

/-- Names separated by a comma and a blank, as a relation. -/
inductive Joined : List Name → Name → Prop where
  | one (n : Name) : Joined [n] n
  | cons (n : Name) (rest : List Name) (text : Name) : Joined rest text → Joined (n :: rest) (n ++ [',', ' '] ++ text)

theorem joined_spec (names : List Name) (h : names ≠ []) : Joined names (joined names) := by
  induction names with
  | nil => exact absurd rfl h
  | cons n t ih =>
    cases t with
    | nil => exact .one n
    | cons m t => exact .cons n (m :: t) _ (ih (by simp))

/-- **C106, status.**  `dedop status` names all workspaces and the recorded workspace and configuration, unless the recorded workspace is
missing. -/
theorem status_shows (fs : FS) (ho : Once fs) (ht : IsTree (view fs)) (h0 : view fs [] ≠ none)
    (he : ∀ s, Run.recorded fs [".current".toList] = some s → view fs [s] ≠ none) :
    ∃ names ws cfg, statusLines fs = .ok (names, ws, cfg) ∧
      (∃ l : List Name, l.Pairwise (fun a b => a ≤ b ∧ a ≠ b) ∧ (∀ n, n ∈ l ↔ view fs [n] = some .dir) ∧
        (l = [] ∧ names = "(not set)".toList ∨ Joined l names)) ∧
      ws = (Run.recorded fs [".current".toList]).getD "(not set)".toList ∧
      cfg = ((Run.recorded fs [".current".toList]).bind fun s =>
        Run.recorded fs [s, "configs".toList, ".current".toList]).getD "(not set)".toList := by
  obtain ⟨n1, n2, n3⟩ := workspaceNames_spec fs ho ht
  have hx : fs.exists? [] = true := by by_contra h; exact h0 (exists?_false.1 h)
  have hnames : ∃ l : List Name, l.Pairwise (fun a b => a ≤ b ∧ a ≠ b) ∧ (∀ n, n ∈ l ↔ view fs [n] = some .dir) ∧
      (l = [] ∧ (if workspaceNames fs = [] then notSet else joined (workspaceNames fs)) = "(not set)".toList ∨
        Joined l (if workspaceNames fs = [] then notSet else joined (workspaceNames fs))) := by
    refine ⟨workspaceNames fs, n1.imp₂ (fun _ _ h1 h2 => ⟨h1, h2⟩) n2, n3, ?_⟩
    by_cases h : workspaceNames fs = []
    · left; exact ⟨h, by rw [if_pos h]; rfl⟩
    · right; rw [if_neg h]; exact joined_spec _ h
  obtain ⟨r1, r2⟩ := Run.recorded_eq fs [".current".toList]
  have hcur : (getCurrent fs).getD [] = (Run.recorded fs [".current".toList]).getD [] := r1
  unfold statusLines status
  rw [if_pos hx, if_pos hx]
  dsimp only
  rw [hcur]
  cases hr : Run.recorded fs [".current".toList] with
  | none =>
    rw [Option.getD_none, if_neg (by simp)]
    refine ⟨_, _, _, rfl, hnames, ?_, ?_⟩
    · rw [if_pos rfl]; rfl
    · rw [if_pos (Or.inl rfl)]; rfl
  | some s =>
    have hs : s ≠ [] := Run.recorded_some hr
    rw [Option.getD_some, if_pos hs, getCurrentConfig, if_neg (fun h => he s hr ((wsPath_view hs).1 h))]
    dsimp only
    refine ⟨_, _, _, rfl, hnames, ?_, ?_⟩
    · rw [if_neg hs]; rfl
    · have hm : cfgMarker s = [s, "configs".toList, ".current".toList] := by rw [cfgMarker, comp_plain hs]; rfl
      obtain ⟨q1, q2⟩ := Run.recorded_eq fs (cfgMarker s)
      rw [hm] at q1 q2
      rw [hm, q1, Option.bind_some]
      cases hc : Run.recorded fs [s, "configs".toList, ".current".toList] with
      | none => rw [Option.getD_none, if_pos (Or.inr rfl)]; rfl
      | some d =>
        have := Run.recorded_some hc
        rw [Option.getD_some, if_neg (by rintro (h | h); exacts [hs h, this h])]; rfl

/-- A state with two workspaces, two inputs and a text file among them. -/
def shelf : FS := [([], .dir), (["b".toList], .dir), (["a".toList], .dir), ([".current".toList], .file "b".toList),
  (["b".toList, "inputs".toList], .dir), (["b".toList, "inputs".toList, "y.nc".toList], .file []),
  (["b".toList, "inputs".toList, "x.nc".toList], .file []), (["b".toList, "inputs".toList, "notes.txt".toList], .file [])]

/-- What the commands print there. -/
example : listWorkspaces shelf = ["2 workspaces:".toList, "  1: a".toList, "  2: b".toList] ∧
    listInputs (fun _ (_ : Unit) => true) shelf [] none =
      .ok ["2 inputs in workspace \"b\":".toList, "  1: x.nc".toList, "  2: y.nc".toList] ∧
    listConfigs shelf [] = .ok ["no DDP configurations in workspace \"b\"".toList] ∧
    statusLines shelf = .ok ("a, b".toList, "b".toList, "(not set)".toList) := by decide +kernel

example : (shelf.map (·.1)).Nodup ∧ selectedWs shelf [] = some "b".toList ∧ view shelf ["b".toList] ≠ none := by decide +kernel

theorem shelf_tree : IsTree (view shelf) := by
  intro p n h
  have hm : ∀ q ∈ shelf.map (·.1), ∀ p n, q = p ++ [n] → view shelf p = some .dir := by
    intro q hq p n hqn
    have : p = q.dropLast := by rw [hqn]; simp
    subst this
    have hall : ∀ q ∈ shelf.map (·.1), q ≠ [] → view shelf q.dropLast = some .dir := by decide +kernel
    exact hall q hq (by rw [hqn]; simp)
  cases hv : view shelf (p ++ [n]) with
  | none => exact absurd hv h
  | some e => exact hm _ (List.mem_map_of_mem (FS.mem_of_get? hv)) p n rfl

end Dedop.Report
