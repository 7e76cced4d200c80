import Verif.Names.Lemmas
import Verif.Basic.Tactics
/-!
# The summary of a workspace, and saving a workspace object (C175, C176)

Models `/repo/dedop/ui/workspace_info.py` and `Workspace.save` in `/repo/dedop/ui/workspace.py:45-55`.  The command which printed the
summary is commented out (`cli/main.py:1045-1046`); the class can still be used from Python.
-/
namespace Dedop.Info
open Dedop.Names

/-! ## Model -/

/-- The fields of `WorkspaceInfo` (`workspace_info.py:5-14`); `None` or the name of the current workspace and configuration. -/
structure Info where
  dir : Name
  current : Option Name
  workspaces : List Name
  config : Option Name
  configs : List Name
  deriving DecidableEq, Repr

/-- The directories on disk: for a directory its entries, in the order of `os.listdir`, with their sizes in bytes
(`workspace_info.py:34-37`, `56-59`). -/
abbrev Disk := Name → Option (List (Name × Nat))

/-- The line of a workspace or configuration (`workspace_info.py:26-29`, `46-49`). -/
def marked (current : Option Name) (n : Name) : Name :=
  if some n = current then [' ', '*'] ++ n else [' ', ' '] ++ n

/-- The lines of the workspaces or configurations (`workspace_info.py:24-31`, `44-51`). -/
def nameLines (none : Name) (current : Option Name) (names : List Name) : List Name :=
  if names = [] then [none] else names.map (marked current)

/-- `'  %s\t\t%s MiB' % (path, size >> 20)` (`workspace_info.py:37`, `59`). -/
def fileLine (dir : Name) (e : Name × Nat) : Name :=
  [' ', ' '] ++ join dir e.1 ++ ['\t', '\t'] ++ decimal (e.2 / 2 ^ 20) ++ [' ', 'M', 'i', 'B']

/-- The lines of the inputs (`workspace_info.py:34-39`). -/
def inputLines (disk : Disk) (a : Info) : List Name :=
  let dir := join a.dir "inputs".toList
  match disk dir with
  | some files => files.map (fileLine dir)
  | none => ["(no inputs yet)".toList]

/-- The lines of the outputs (`workspace_info.py:54-61`).  The name of the configuration is taken to be relative. -/
def outputLines (disk : Disk) (a : Info) : List Name :=
  match a.config with
  | none => ["(no outputs yet)".toList]
  | some [] => ["(no outputs yet)".toList]
  | some c =>
    let dir := join (join (join a.dir "configs".toList) c) "outputs".toList
    match disk dir with
    | some files => files.map (fileLine dir)
    | none => []

/-- The list of lines (`workspace_info.py:20-62`). -/
def infoLines (disk : Disk) (a : Info) : List Name :=
  "Workspaces:".toList :: (nameLines "(no workspaces yet)".toList a.current a.workspaces ++
    [] :: "Inputs:".toList :: (inputLines disk a ++
    [] :: "DDP configurations:".toList :: (nameLines "(no DDP configurations yet)".toList a.config a.configs ++
    [] :: "Outputs:".toList :: (outputLines disk a ++ [[]]))))

/-- `'\n'.join(lines)` (`workspace_info.py:64`). -/
def joinLines : List Name → Name
  | [] => []
  | [n] => n
  | n :: m :: rest => n ++ '\n' :: joinLines (m :: rest)

/-- `get_workspace_info_string` (`workspace_info.py:16-64`). -/
def text (disk : Disk) (a : Info) : Name := joinLines (infoLines disk a)

/-- What an instance of `Workspace` has: the attributes set by the constructor and those of the class
(`ui/workspace.py:9-17`, `19-68`). -/
def wsAttrs : List String :=
  ["_workspace_dir", "_name", "_is_current", "name", "is_current", "workspace_dir", "get_workspace_dir", "create", "open", "save",
    "from_json_dict", "to_json_dict"]

/-- `Workspace.save` (`ui/workspace.py:45-55`) on the directories that exist: `base` is the value which the attribute `base_dir`
would have.  The attribute is read outside of the `try`.  Failures of `mkdir` are not modelled. -/
def save (attrs : List String) (base dir : Name) (dirs : List Name) : Except PyErr Unit × List Name :=
  if "base_dir" ∈ attrs then
    let dirs := if base ∈ dirs then dirs else dirs ++ [base]
    (.ok (), if dir ∈ dirs then dirs else dirs ++ [dir])
  else (.error (.other "AttributeError"), dirs)

/-! ## Specification -/

/-- No name holds a line end, and neither do the names of the files shown.  (Not in the code: for statements about
`workspace_info.py:16-64`.) -/
structure Plain (disk : Disk) (a : Info) : Prop where
  dir : '\n' ∉ a.dir
  workspaces : ∀ w ∈ a.workspaces, '\n' ∉ w
  configs : ∀ c ∈ a.configs, '\n' ∉ c
  config : ∀ c, a.config = some c → '\n' ∉ c
  files : ∀ d l, disk d = some l → ∀ e ∈ l, '\n' ∉ e.1

/-- The input files with their sizes in whole MiB.  (Not in the code: for statements about `workspace_info.py:34-39`.) -/
def inputsOf (disk : Disk) (a : Info) : Option (List (Name × Nat)) :=
  (disk (join a.dir "inputs".toList)).map (·.map fun e => (e.1, e.2 / 1048576))

/-! ## Lemmas -/

theorem first_split {α : Type} {x : α} : ∀ {a b r s : List α}, x ∉ a → x ∉ b → a ++ x :: r = b ++ x :: s → a = b ∧ r = s
  | [], [], _, _, _, _, h => by simpa using h
  | [], c :: b, _, _, _, hb, h => by
    simp only [List.nil_append, List.cons_append, List.cons.injEq] at h
    exact absurd (by rw [h.1]; simp) hb
  | c :: a, [], _, _, ha, _, h => by
    simp only [List.nil_append, List.cons_append, List.cons.injEq] at h
    exact absurd (by rw [h.1]; simp) ha
  | c :: a, d :: b, _, _, ha, hb, h => by
    simp only [List.cons_append, List.cons.injEq] at h
    simp only [List.mem_cons, not_or] at ha hb
    obtain ⟨h1, h2⟩ := first_split ha.2 hb.2 h.2
    exact ⟨by rw [h.1, h1], h2⟩

theorem last_split {α : Type} {x : α} {a b r s : List α} (hr : x ∉ r) (hs : x ∉ s) (h : a ++ x :: r = b ++ x :: s) :
    a = b ∧ r = s := by
  have h2 := congrArg List.reverse h
  simp only [List.reverse_append, List.reverse_cons, List.append_assoc, List.singleton_append] at h2
  obtain ⟨h3, h4⟩ := first_split (by simpa using hr) (by simpa using hs) h2
  exact ⟨List.reverse_injective h4, List.reverse_injective h3⟩

theorem joinLines_injective : ∀ {l m : List Name}, l ≠ [] → m ≠ [] → (∀ n ∈ l, '\n' ∉ n) → (∀ n ∈ m, '\n' ∉ n) →
    joinLines l = joinLines m → l = m
  | [], _, h, _, _, _, _ => absurd rfl h
  | _ :: _, [], _, h, _, _, _ => absurd rfl h
  | [n], [k], _, _, _, _, h => by simpa [joinLines] using h
  | [n], k :: k' :: m, _, _, hl, _, h => by
    simp only [joinLines] at h
    exact absurd (by rw [h]; simp) (hl n (by simp))
  | n :: n' :: l, [k], _, _, _, hm, h => by
    simp only [joinLines] at h
    exact absurd (by rw [← h]; simp) (hm k (by simp))
  | n :: n' :: l, k :: k' :: m, _, _, hl, hm, h => by
    simp only [joinLines] at h
    obtain ⟨h1, h2⟩ := first_split (hl n (by simp)) (hm k (by simp)) h
    have h3 := joinLines_injective (by simp) (by simp) (fun x hx => hl x (by simp [hx])) (fun x hx => hm x (by simp [hx])) h2
    rw [h1, h3]

theorem decimal_digits (n : Nat) : ∀ c ∈ decimal n, ∃ d, d < 10 ∧ c = digitChar d := by
  induction n using Nat.strongRecOn with
  | ind n ih =>
    intro c hc
    rw [decimal] at hc
    split at hc
    · rename_i h
      exact ⟨n, h, by simpa using hc⟩
    · rename_i h
      rw [List.mem_append] at hc
      rcases hc with hc | hc
      · exact ih (n / 10) (by omega) c hc
      · exact ⟨n % 10, by omega, by simpa using hc⟩

theorem decimal_plain (n : Nat) : '\n' ∉ decimal n ∧ '\t' ∉ decimal n := by
  have hd : ∀ d, d < 10 → digitChar d ≠ '\n' ∧ digitChar d ≠ '\t' := by decide
  constructor <;> intro h <;> obtain ⟨d, h1, h2⟩ := decimal_digits n _ h
  · exact (hd d h1).1 h2.symm
  · exact (hd d h1).2 h2.symm

theorem join_plain {d n : Name} (hd : '\n' ∉ d) (hn : '\n' ∉ n) : '\n' ∉ join d n := by
  unfold join
  split <;> simp [hd, hn]

theorem join_injective {d n m : Name} (h : join d n = join d m) : n = m := by
  unfold join at h
  split at h <;> simpa using h

theorem fileLine_injective {d : Name} {e f : Name × Nat} (h : fileLine d e = fileLine d f) :
    e.1 = f.1 ∧ e.2 / 1048576 = f.2 / 1048576 := by
  unfold fileLine at h
  simp only [List.append_assoc, List.cons_append, List.nil_append, List.cons.injEq, true_and] at h
  have h2 : (join d e.1 ++ ['\t']) ++ '\t' :: (decimal (e.2 / 2 ^ 20) ++ [' ', 'M', 'i', 'B'])
      = (join d f.1 ++ ['\t']) ++ '\t' :: (decimal (f.2 / 2 ^ 20) ++ [' ', 'M', 'i', 'B']) := by
    simpa using h
  obtain ⟨h3, h4⟩ := last_split (by simp [(decimal_plain _).2]) (by simp [(decimal_plain _).2]) h2
  exact ⟨join_injective (List.append_cancel_right h3), decimal_injective (List.append_cancel_right h4)⟩

theorem fileLine_plain {d : Name} {e : Name × Nat} (hd : '\n' ∉ d) (he : '\n' ∉ e.1) : '\n' ∉ fileLine d e := by
  unfold fileLine
  simp [join_plain hd he, (decimal_plain _).1]

theorem marked_plain {c : Option Name} {n : Name} (h : '\n' ∉ n) : '\n' ∉ marked c n := by
  unfold marked
  split <;> simp [h]

theorem marked_eq {c d : Option Name} {n m : Name} (h : marked c n = marked d m) : n = m ∧ (some n = c ↔ some m = d) := by
  unfold marked at h
  split at h <;> split at h <;> simp_all

theorem map_marked {c d : Option Name} : ∀ {l m : List Name}, l.map (marked c) = m.map (marked d) →
    l = m ∧ ∀ n ∈ l, some n = c ↔ some n = d
  | [], [], _ => by simp
  | [], _ :: _, h => by simp at h
  | _ :: _, [], h => by simp at h
  | n :: l, k :: m, h => by
    simp only [List.map_cons, List.cons.injEq] at h
    obtain ⟨h1, h2⟩ := marked_eq h.1
    obtain ⟨h3, h4⟩ := map_marked h.2
    subst h1 h3
    refine ⟨rfl, fun x hx => ?_⟩
    rcases List.mem_cons.1 hx with rfl | hx
    · exact h2
    · exact h4 x hx

theorem nameLines_eq {t : Name} (ht : t.head? = some '(') {c d : Option Name} {l m : List Name}
    (h : nameLines t c l = nameLines t d m) : l = m ∧ ∀ n ∈ l, some n = c ↔ some n = d := by
  have no : ∀ (c : Option Name) (n : Name), marked c n ≠ t := by
    intro c n hn
    rw [← hn] at ht
    unfold marked at ht
    split at ht <;> simp at ht
  unfold nameLines at h
  split at h <;> split at h
  · rename_i h1 h2; subst h1 h2; simp
  · rename_i h1 h2
    cases m with
    | nil => exact absurd rfl h2
    | cons k m => simp only [List.map_cons, List.cons.injEq] at h; exact absurd h.1.symm (no d k)
  · rename_i h1 h2
    cases l with
    | nil => exact absurd rfl h1
    | cons k l => simp only [List.map_cons, List.cons.injEq] at h; exact absurd h.1 (no c k)
  · exact map_marked h

theorem nameLines_ne {t : Name} (ht : t.head? = some '(') (c : Option Name) (l : List Name) : [] ∉ nameLines t c l := by
  unfold nameLines
  split
  · simp only [List.mem_singleton]; intro h; rw [← h] at ht; simp at ht
  · simp only [List.mem_map, not_exists, not_and]
    intro n _ h
    unfold marked at h
    split at h <;> simp at h

theorem nameLines_plain {t : Name} (ht : '\n' ∉ t) {c : Option Name} {l : List Name} (hl : ∀ n ∈ l, '\n' ∉ n) :
    ∀ x ∈ nameLines t c l, '\n' ∉ x := by
  intro x hx
  unfold nameLines at hx
  split at hx
  · rw [List.mem_singleton.1 hx]; exact ht
  · obtain ⟨n, hn, rfl⟩ := List.mem_map.1 hx
    exact marked_plain (hl n hn)

theorem inputLines_ne (disk : Disk) (a : Info) : [] ∉ inputLines disk a := by
  unfold inputLines
  dsimp only
  split
  · simp [fileLine]
  · simp

theorem inputLines_plain {disk : Disk} {a : Info} (h : Plain disk a) : ∀ x ∈ inputLines disk a, '\n' ∉ x := by
  intro x hx
  unfold inputLines at hx
  dsimp only at hx
  split at hx
  · rename_i l hl
    obtain ⟨e, he, rfl⟩ := List.mem_map.1 hx
    exact fileLine_plain (join_plain h.dir (by decide)) (h.files _ l hl e he)
  · rw [List.mem_singleton.1 hx]; decide

theorem outputLines_plain {disk : Disk} {a : Info} (h : Plain disk a) : ∀ x ∈ outputLines disk a, '\n' ∉ x := by
  intro x hx
  unfold outputLines at hx
  split at hx
  · rw [List.mem_singleton.1 hx]; decide
  · rw [List.mem_singleton.1 hx]; decide
  · rename_i c _ hc
    dsimp only at hx
    split at hx
    · rename_i l hl
      obtain ⟨e, he, rfl⟩ := List.mem_map.1 hx
      exact fileLine_plain (join_plain (join_plain (join_plain h.dir (by decide)) (h.config c hc)) (by decide))
        (h.files _ l hl e he)
    · simp at hx

theorem infoLines_plain {disk : Disk} {a : Info} (h : Plain disk a) : ∀ x ∈ infoLines disk a, '\n' ∉ x := by
  intro x hx
  simp only [infoLines, List.mem_cons, List.mem_append, List.not_mem_nil, or_false] at hx
  rcases hx with rfl | hx | rfl | rfl | hx | rfl | rfl | hx | rfl | rfl | hx | rfl
  · decide
  · exact nameLines_plain (by decide) h.workspaces x hx
  · decide
  · decide
  · exact inputLines_plain h x hx
  · decide
  · decide
  · exact nameLines_plain (by decide) h.configs x hx
  · decide
  · decide
  · exact outputLines_plain h x hx
  · decide

theorem map_fileLine {d : Name} : ∀ {l m : List (Name × Nat)}, l.map (fileLine d) = m.map (fileLine d) →
    (l.map fun e => (e.1, e.2 / 1048576)) = m.map fun e => (e.1, e.2 / 1048576)
  | [], [], _ => rfl
  | [], _ :: _, h => by simp at h
  | _ :: _, [], h => by simp at h
  | e :: l, f :: m, h => by
    simp only [List.map_cons, List.cons.injEq] at h ⊢
    obtain ⟨h1, h2⟩ := fileLine_injective h.1
    exact ⟨by rw [h1, h2], map_fileLine h.2⟩

theorem inputLines_eq {disk disk' : Disk} {a b : Info} (hd : a.dir = b.dir) (h : inputLines disk a = inputLines disk' b) :
    inputsOf disk a = inputsOf disk' b := by
  have no : ∀ (d : Name) (e : Name × Nat), fileLine d e ≠ "(no inputs yet)".toList := by
    intro d e he
    have h2 := congrArg List.head? he
    simp [fileLine] at h2
  unfold inputLines at h
  unfold inputsOf
  rw [← hd] at h ⊢
  dsimp only at h
  generalize join a.dir "inputs".toList = d at h ⊢
  cases h1 : disk d with
  | none =>
    cases h2 : disk' d with
    | none => rfl
    | some m =>
      rw [h1, h2] at h
      cases m with
      | nil => simp at h
      | cons f m => simp only [List.map_cons, List.cons.injEq] at h; exact absurd h.1.symm (no d f)
  | some l =>
    cases h2 : disk' d with
    | none =>
      rw [h1, h2] at h
      cases l with
      | nil => simp at h
      | cons f m => simp only [List.map_cons, List.cons.injEq] at h; exact absurd h.1 (no d f)
    | some m =>
      rw [h1, h2] at h
      simp only [Option.map_some, Option.some.injEq]
      exact map_fileLine h

/-! ## C175 -/

/-- The summary tells which workspaces and configurations there are, in their order, and which are the current ones: two situations
with the same summary have the same lists and the same marks, and, for the same directory, the same inputs with the same sizes in MiB. -/
theorem summary_tells (disk disk' : Disk) (a b : Info) (ha : Plain disk a) (hb : Plain disk' b) (h : text disk a = text disk' b) :
    (a.workspaces = b.workspaces ∧ ∀ w ∈ a.workspaces, some w = a.current ↔ some w = b.current) ∧
    (a.configs = b.configs ∧ ∀ c ∈ a.configs, some c = a.config ↔ some c = b.config) ∧
    (a.dir = b.dir → inputsOf disk a = inputsOf disk' b) := by
  have h1 := joinLines_injective (by simp [infoLines]) (by simp [infoLines]) (infoLines_plain ha) (infoLines_plain hb) h
  unfold infoLines at h1
  rw [List.cons.injEq] at h1
  obtain ⟨h2, h3⟩ := first_split (nameLines_ne (by decide) _ _) (nameLines_ne (by decide) _ _) h1.2
  rw [List.cons.injEq] at h3
  obtain ⟨h4, h5⟩ := first_split (inputLines_ne _ _) (inputLines_ne _ _) h3.2
  rw [List.cons.injEq] at h5
  obtain ⟨h6, -⟩ := first_split (nameLines_ne (by decide) _ _) (nameLines_ne (by decide) _ _) h5.2
  exact ⟨nameLines_eq (by decide) h2, nameLines_eq (by decide) h6, fun hd => inputLines_eq hd h4⟩

/-- Without a current configuration the summary says that there are no outputs. -/
theorem no_outputs_told (disk : Disk) (a : Info) (h : a.config = none) :
    ∃ before, infoLines disk a = before ++ ["Outputs:".toList, "(no outputs yet)".toList, []] := by
  refine ⟨"Workspaces:".toList :: (nameLines "(no workspaces yet)".toList a.current a.workspaces ++
    [] :: "Inputs:".toList :: (inputLines disk a ++
    [] :: "DDP configurations:".toList :: (nameLines "(no DDP configurations yet)".toList a.config a.configs ++ [[]]))), ?_⟩
  simp [infoLines, outputLines, h]

/-- With a current configuration that has never been run, the summary says nothing about outputs: the heading is the last line that
is not empty. -/
theorem no_outputs_told_violated (disk : Disk) (a : Info) (c : Name) (hc : a.config = some c) (hne : c ≠ [])
    (h : disk (join (join (join a.dir "configs".toList) c) "outputs".toList) = none) :
    ∃ before, infoLines disk a = before ++ ["Outputs:".toList, []] := by
  refine ⟨"Workspaces:".toList :: (nameLines "(no workspaces yet)".toList a.current a.workspaces ++
    [] :: "Inputs:".toList :: (inputLines disk a ++
    [] :: "DDP configurations:".toList :: (nameLines "(no DDP configurations yet)".toList a.config a.configs ++ [[]]))), ?_⟩
  have ho : outputLines disk a = [] := by
    unfold outputLines
    rw [hc]
    cases c with
    | nil => exact absurd rfl hne
    | cons x c => dsimp only; rw [h]
  simp [infoLines, ho]

/-- The same for inputs: with an empty directory of inputs nothing is said. -/
theorem no_inputs_told_violated (disk : Disk) (a : Info) (h : disk (join a.dir "inputs".toList) = some []) :
    ∃ before after, infoLines disk a = before ++ "Inputs:".toList :: [] :: "DDP configurations:".toList :: after := by
  refine ⟨"Workspaces:".toList :: (nameLines "(no workspaces yet)".toList a.current a.workspaces ++ [[]]),
    nameLines "(no DDP configurations yet)".toList a.config a.configs ++ [] :: "Outputs:".toList :: (outputLines disk a ++ [[]]), ?_⟩
  have hi : inputLines disk a = [] := by unfold inputLines; dsimp only; rw [h]; rfl
  simp [infoLines, hi]

/-! ## C176 -/

/-- Saving a workspace object makes its directory.  It would, if the object had the attribute which `save` reads. -/
theorem save_partial (attrs : List String) (h : "base_dir" ∈ attrs) (base dir : Name) (dirs : List Name) :
    (save attrs base dir dirs).1 = .ok () ∧ ∀ d, d ∈ (save attrs base dir dirs).2 ↔ d ∈ dirs ∨ d = base ∨ d = dir := by
  unfold save
  rw [if_pos h]
  refine ⟨rfl, fun d => ?_⟩
  dsimp only
  split <;> split <;> simp_all <;> grind

/-- No workspace object can be saved, and no directory is made. -/
theorem save_violated (base dir : Name) (dirs : List Name) :
    save wsAttrs base dir dirs = (.error (.other "AttributeError"), dirs) := by
  unfold save
  rw [if_neg (by decide)]

/-! ## Examples -/

/-- A workspace with two inputs and a configuration that has not been run. -/
def demo : Info := ⟨"/w/a".toList, some "a".toList, ["a".toList, "b".toList], some "c".toList, ["c".toList]⟩

/-- The disk of the example. -/
def demoDisk : Disk := fun d => if d = "/w/a/inputs".toList then some [("x.nc".toList, 3145728), ("y.nc".toList, 12)] else none

example : String.ofList (text demoDisk demo) =
    "Workspaces:\n *a\n  b\n\nInputs:\n  /w/a/inputs/x.nc\t\t3 MiB\n  /w/a/inputs/y.nc\t\t0 MiB\n\nDDP configurations:\n *c\n\nOutputs:\n" := by
  decide +kernel

example : Plain demoDisk demo := by
  refine ⟨by decide, by decide, by decide, ?_, ?_⟩
  · intro c hc; cases hc; decide
  · intro d l hl
    unfold demoDisk at hl
    split at hl
    · cases hl; decide
    · cases hl

example : ∃ before, infoLines demoDisk demo = before ++ ["Outputs:".toList, []] :=
  no_outputs_told_violated demoDisk demo "c".toList rfl (by decide) (by decide +kernel)

end Dedop.Info
