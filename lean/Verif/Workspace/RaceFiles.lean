import Verif.Workspace.Files
import Verif.Workspace.FilesProps

/-!
# Two saves of one configuration file at the same time

`write_config_file` (`/repo/dedop/ui/workspace_manager.py:267-272`), called by `save_configs` of the web service
(`/repo/dedop/webapi/websocket.py:119-125`), whose calls run in a pool of threads.  C122, and what an interrupted save leaves, C123.
-/
namespace Dedop.Workspace
open Dedop.Names

/-- The character which fills a gap in a file; not tied to a line of the code. -/
def nul : Char := Char.ofNat 0

/-- The first `n` characters of a file, filled up if there are fewer (`workspace_manager.py:272`, system call `ftruncate`). -/
def cut (n : Nat) (content : Name) : Name := content.take n ++ List.replicate (n - content.length) nul

/-- Writing at a position (`workspace_manager.py:271`, system call `write`). -/
def writeAt (pos : Nat) (text content : Name) : Name := cut pos content ++ text ++ content.drop (pos + text.length)

/-- What a save does to the open file (`workspace_manager.py:270-272`): it writes its text from the start, piece by piece, and cuts the file
where it stands.  `sizes` are the sizes of the pieces in which the text reaches the file, the rest coming last. -/
def saveSteps (text : Name) : Nat → List Nat → List (Name → Name)
  | pos, [] => [writeAt pos (text.drop pos), cut text.length]
  | pos, n :: sizes => writeAt pos ((text.drop pos).take n) :: saveSteps text (min (pos + n) text.length) sizes

/-- Steps one after the other. -/
def perform (steps : List (Name → Name)) (content : Name) : Name := steps.foldl (fun c f => f c) content

/-- The orders of the steps of two sequences. -/
inductive Shuffle {α : Type} : List α → List α → List α → Prop
  | nil : Shuffle [] [] []
  | left {a : α} {as bs cs : List α} : Shuffle as bs cs → Shuffle (a :: as) bs (a :: cs)
  | right {b : α} {as bs cs : List α} : Shuffle as bs cs → Shuffle as (b :: bs) (b :: cs)

theorem perform_cons (f : Name → Name) (l : List (Name → Name)) (c : Name) : perform (f :: l) c = perform l (f c) := rfl

theorem cut_length (n : Nat) (c : Name) : (cut n c).length = n := by
  simp [cut]; omega

theorem cut_of_le {n : Nat} {c : Name} (h : n ≤ c.length) : cut n c = c.take n := by
  simp [cut, Nat.sub_eq_zero_of_le h]

theorem save_alone_aux (text old : Name) : ∀ (sizes : List Nat) (pos : Nat) (c : Name), pos ≤ text.length →
    c.take pos = text.take pos → pos ≤ c.length → perform (saveSteps text pos sizes) c = text := by
  intro sizes
  induction sizes with
  | nil =>
    intro pos c hpos hc hl
    simp only [saveSteps, perform_cons]
    have h1 : writeAt pos (text.drop pos) c = text ++ c.drop text.length := by
      unfold writeAt
      rw [cut_of_le hl, hc, List.take_append_drop, List.length_drop, Nat.add_sub_cancel' hpos]
    rw [h1, cut_of_le (by simp)]
    simp [perform]
  | cons n sizes ih =>
    intro pos c hpos hc hl
    simp only [saveSteps, perform_cons]
    have hlen : ((text.drop pos).take n).length = min n (text.length - pos) := by simp
    have h0 : text.take pos ++ (text.drop pos).take n = text.take (min (pos + n) text.length) := by
      rw [← List.take_add]
      by_cases h : pos + n ≤ text.length
      · rw [min_eq_left h]
      · rw [min_eq_right (by omega), List.take_of_length_le (by omega), List.take_of_length_le (by omega)]
    refine ih _ _ (by omega) ?_ ?_
    · unfold writeAt
      rw [cut_of_le hl, hc, h0, List.take_append_of_le_length (by simp), List.take_take, min_self]
    · unfold writeAt
      rw [cut_of_le hl, hc, h0]
      simp

/-- A save without others leaves its text, however it is split. -/
theorem save_alone (text old : Name) (sizes : List Nat) : perform (saveSteps text 0 sizes) old = text :=
  save_alone_aux text old sizes 0 old (Nat.zero_le _) (by simp) (Nat.zero_le _)

/-- The same as the function of `Workspace/Files`. -/
theorem save_alone_rewritten (text old : Name) (sizes : List Nat) : perform (saveSteps text 0 sizes) old = rewritten old text := by
  rw [save_alone, rewritten]
  simp only [write_from_start, OpenFile.truncate, List.take_left]

/-- **C122.**  If both texts are written at once and have the same length, then afterwards the file holds one of them, whatever it held
before. -/
theorem concurrent_save_partial (a b old : Name) (hlen : a.length = b.length) (steps : List (Name → Name))
    (h : Shuffle (saveSteps a 0 []) (saveSteps b 0 []) steps) : perform steps old = a ∨ perform steps old = b := by
  have w : ∀ x c : Name, writeAt 0 (x.drop 0) c = x ++ c.drop x.length := by
    intro x c; simp [writeAt, cut]
  have k : ∀ x y : Name, cut x.length (x ++ y) = x := by
    intro x y; rw [cut_of_le (by simp)]; simp
  have k1 : ∀ x : Name, cut x.length x = x := by
    intro x; simpa using k x []
  have hw : ∀ x y c : Name, x.length = y.length → writeAt 0 (x.drop 0) (y ++ c) = x ++ c := by
    intro x y c hxy; rw [w, hxy, List.drop_left]
  have hw0 : ∀ x y : Name, x.length = y.length → writeAt 0 (x.drop 0) y = x := by
    intro x y hxy; simpa using hw x y [] hxy
  have kx : ∀ x y c : Name, x.length = y.length → cut x.length (y ++ c) = y := by
    intro x y c hxy; rw [hxy]; exact k y c
  have kx0 : ∀ x y : Name, x.length = y.length → cut x.length y = y := by
    intro x y hxy; rw [hxy]; exact k1 y
  simp only [saveSteps] at h
  have hba := hlen.symm
  rcases h with _ | h | h
  · rcases h with _ | h | h
    · rcases h with _ | h | h
      rcases h with _ | h | h
      rcases h with _ | h | h
      right
      simp only [perform, List.foldl_cons, List.foldl_nil]
      rw [w a old, k, hw0 b a hba, k1]
    · rcases h with _ | h | h
      · rcases h with _ | h | h
        rcases h with _ | h | h
        right
        simp only [perform, List.foldl_cons, List.foldl_nil]
        rw [w a old, hw b a _ hba, kx a b _ hlen, k1]
      · rcases h with _ | h | h
        rcases h with _ | h | h
        right
        simp only [perform, List.foldl_cons, List.foldl_nil]
        rw [w a old, hw b a _ hba, k, kx0 a b hlen]
  · rcases h with _ | h | h
    · rcases h with _ | h | h
      · rcases h with _ | h | h
        rcases h with _ | h | h
        left
        simp only [perform, List.foldl_cons, List.foldl_nil]
        rw [w b old, hw a b _ hlen, k, kx0 b a hba]
      · rcases h with _ | h | h
        rcases h with _ | h | h
        left
        simp only [perform, List.foldl_cons, List.foldl_nil]
        rw [w b old, hw a b _ hlen, kx b a _ hba, k1]
    · rcases h with _ | h | h
      rcases h with _ | h | h
      rcases h with _ | h | h
      left
      simp only [perform, List.foldl_cons, List.foldl_nil]
      rw [w b old, k, hw0 a b hlen, k1]

/-- **C122 fails for texts of different lengths.**  For any two texts of which the second is shorter there is an order after which the file
holds neither of them, but the shorter one with zero characters at its end. -/
theorem concurrent_save_violated (a b old : Name) (hlen : b.length < a.length) (hnul : nul ∉ a) :
    ∃ steps, Shuffle (saveSteps a 0 []) (saveSteps b 0 []) steps ∧ perform steps old ≠ a ∧ perform steps old ≠ b ∧
      perform steps old = b ++ List.replicate (a.length - b.length) nul := by
  refine ⟨[writeAt 0 (a.drop 0), writeAt 0 (b.drop 0), cut b.length, cut a.length], .left (.right (.right (.left .nil))), ?_⟩
  have hfin : perform [writeAt 0 (a.drop 0), writeAt 0 (b.drop 0), cut b.length, cut a.length] old =
      b ++ List.replicate (a.length - b.length) nul := by
    simp only [perform, List.foldl_cons, List.foldl_nil]
    have h1 : ∀ c : Name, cut b.length (writeAt 0 (b.drop 0) c) = b := by
      intro c
      have : writeAt 0 (b.drop 0) c = b ++ c.drop b.length := by simp [writeAt, cut]
      rw [this, cut_of_le (by simp)]; simp
    rw [h1, cut, List.take_of_length_le (by omega)]
  rw [hfin]
  refine ⟨?_, ?_, rfl⟩
  · intro h
    apply hnul
    rw [← h]
    simp only [List.mem_append, List.mem_replicate]
    exact .inr ⟨by omega, trivial⟩
  · intro h
    have := congrArg List.length h
    simp at this
    omega

/-- **C122 fails for texts in several pieces.**  Texts of the same length which reach the file in pieces may be mixed. -/
theorem concurrent_save_pieces_violated : ∃ (a b old : Name) (n : Nat) (steps : List (Name → Name)), a.length = b.length ∧
    Shuffle (saveSteps a 0 [n]) (saveSteps b 0 [n]) steps ∧ perform steps old ≠ a ∧ perform steps old ≠ b :=
  ⟨['a', 'a'], ['b', 'b'], [], 1, _, rfl, .left (.right (.right (.right (.left (.left .nil))))), by decide +kernel, by decide +kernel⟩

/-! ## Interrupted saves -/

/-- **C123.**  A save which is written at once and is not shorter than the file leaves the old or the new text, wherever it is interrupted. -/
theorem interrupted_save_partial (old text : Name) (hlen : old.length ≤ text.length) (n : Nat) :
    perform ((saveSteps text 0 []).take n) old = old ∨ perform ((saveSteps text 0 []).take n) old = text := by
  have w : writeAt 0 (text.drop 0) old = text := by
    simp [writeAt, cut, hlen]
  match n with
  | 0 => exact .inl rfl
  | 1 => exact .inr w
  | n + 2 =>
    right
    have : (saveSteps text 0 []).take (n + 2) = saveSteps text 0 [] := List.take_of_length_le (by simp [saveSteps])
    rw [this, save_alone]

/-- **C123 fails for a text that is shorter than the file.**  Interrupted before the cut the save leaves the new text followed by the rest of the
old one, which is neither unless the new text is the start of the old one. -/
theorem interrupted_save_violated (old text : Name) (hlen : text.length < old.length) (hne : ¬ text <+: old) :
    ∃ n, perform ((saveSteps text 0 []).take n) old ≠ old ∧ perform ((saveSteps text 0 []).take n) old ≠ text ∧
      perform ((saveSteps text 0 []).take n) old = text ++ old.drop text.length := by
  have w : perform ((saveSteps text 0 []).take 1) old = text ++ old.drop text.length := by
    simp [saveSteps, perform, writeAt, cut]
  refine ⟨1, ?_, ?_, w⟩
  · rw [w]
    intro h
    exact hne ⟨_, h⟩
  · rw [w]
    intro h
    have := congrArg List.length h
    simp at this
    omega

/-- **C123 fails for a text in several pieces**, also if it is not shorter than the file. -/
theorem interrupted_save_pieces_violated : ∃ (old text : Name) (size n : Nat), old.length ≤ text.length ∧
    perform ((saveSteps text 0 [size]).take n) old ≠ old ∧ perform ((saveSteps text 0 [size]).take n) old ≠ text :=
  ⟨['a', 'a'], ['b', 'b', 'b'], 1, 1, by decide, by decide +kernel, by decide +kernel⟩

/-! ## Non-vacuity -/

example : perform (saveSteps "{\"a\": 10}".toList 0 [3, 2]) "old, and longer".toList = "{\"a\": 10}".toList := by decide +kernel

example : perform ((saveSteps "{}".toList 0 []).take 1) "{\"a\": 10}".toList = "{}a\": 10}".toList := by decide +kernel

end Dedop.Workspace
