import Verif.Workspace.Invariant
import Verif.Names.Props

namespace Dedop.Workspace
open Dedop.Names

/-- The invariant of the command line. -/
def Inv (fs : FS) : Prop := Tidied (view fs) ∧ Marked (view fs)

/-! ## Names -/

theorem comp_plain {w : Name} (h : w ≠ []) : comp w = [w] := by unfold comp; rw [if_neg h]

theorem firstLine_eq (n : Name) (h1 : '\n' ∉ n) (h2 : '\r' ∉ n) : firstLine n = n := by
  induction n with
  | nil => rfl
  | cons c t ih =>
    simp only [List.mem_cons, not_or] at h1 h2
    rw [firstLine, if_neg (by rintro (h | h) <;> [exact h1.1 h.symm; exact h2.1 h.symm]),
      ih h1.2 h2.2]

theorem firstLine_plain {n : Name} (h : n = [] ∨ Plain n) : firstLine n = n := by
  rcases h with rfl | h
  · rfl
  · exact firstLine_eq n h.2.1 h.2.2.1

theorem decimal_digits (k : Nat) : ∀ ch ∈ decimal k, ch ∈ "0123456789".toList := by
  have hd : ∀ d, d < 10 → digitChar d ∈ "0123456789".toList := by decide +kernel
  induction k using Nat.strongRecOn with
  | ind k ih =>
    intro ch hch
    rw [decimal] at hch
    split at hch
    · rename_i h
      rw [List.mem_singleton] at hch
      subst hch; exact hd k h
    · rcases List.mem_append.1 hch with h | h
      · exact ih (k / 10) (by omega) ch h
      · rw [List.mem_singleton] at h
        subst h; exact hd _ (by omega)

theorem plain_append {a b : Name} (ha : Plain a) (hu : '_' ∈ b)
    (hb : '\n' ∉ b ∧ '\r' ∉ b ∧ '/' ∉ b) : Plain (a ++ b) := by
  obtain ⟨h1, h2, h3, h4, -⟩ := ha
  have hmem : '_' ∈ a ++ b := List.mem_append_right _ hu
  refine ⟨by simp [h1], ?_, ?_, ?_, ?_, ?_, ?_⟩
  · simp [h2, hb.1]
  · simp [h3, hb.2.1]
  · simp [h4, hb.2.2]
  · intro h; rw [h] at hmem; revert hmem; decide
  · intro h; rw [h] at hmem; revert hmem; decide
  · intro h; rw [h] at hmem; revert hmem; decide

theorem plain_suffix {a : Name} (ha : Plain a) (k : Nat) : Plain (a ++ ['_'] ++ decimal k) := by
  rw [List.append_assoc]
  refine plain_append ha (by simp) ⟨?_, ?_, ?_⟩ <;>
  · intro h
    rcases List.mem_append.1 h with h | h
    · revert h; decide
    · have := decimal_digits k _ h
      revert this; decide

theorem plain_default : Plain defaultName := by decide +kernel

/-! ## Reading the state -/

theorem dir_of_exists {g : View} (ht : Tidied g) {b : Path} {n : Name} (hb : Level b) (hn : Plain n)
    (h : g (b ++ [n]) ≠ none) : g (b ++ [n]) = some .dir := by
  rcases ht.2 b hb n h with h1 | h1
  · exact absurd (h1.1 ▸ hn) current_not_plain
  · exact h1.2

theorem plain_of_dir {g : View} (ht : Tidied g) {b : Path} {n : Name} (hb : Level b)
    (h : g (b ++ [n]) = some .dir) : Plain n := by
  rcases ht.2 b hb n (by rw [h]; simp) with h1 | h1
  · exact absurd h h1.2
  · exact h1.1

theorem marker_not_dir {g : View} (ht : Tidied g) {b : Path} (hb : Level b) :
    g (b ++ [".current".toList]) ≠ some .dir := fun hd =>
  current_not_plain (plain_of_dir ht hb hd)

theorem mem_workspaceNames {fs : FS} (ht : Tidied (view fs)) (n : Name) :
    n ∈ workspaceNames fs ↔ view fs [n] = some .dir := by
  unfold workspaceNames
  constructor
  · intro h
    split at h
    · rw [(sortNames_perm _).mem_iff, List.mem_filter, FS.isDir_iff] at h
      exact h.2
    · cases h
  · intro h
    have h0 : view fs [] = some .dir := ht.1 [] n (by simpa using (by rw [h]; simp))
    rw [if_pos ((FS.exists?_iff _ _).2 (by unfold view at h0; rw [h0]; simp)),
      (sortNames_perm _).mem_iff, List.mem_filter, FS.isDir_iff, FS.mem_listdir]
    exact ⟨by unfold view at h; simp [h], h⟩

theorem configNames_mem {fs : FS} (ht : Tidied (view fs)) {w : Name} (hw : Plain w)
    {names : List Name} (h : configNames fs w = .ok (some names)) (n : Name) :
    n ∈ names ↔ view fs ([w, configsDir] ++ [n]) = some .dir := by
  unfold configNames at h
  rw [wsPath, comp_plain hw.1] at h
  split at h
  · cases h
  · split at h
    · cases h
      rw [(sortNames_perm _).mem_iff, List.mem_filter, FS.isDir_iff, FS.mem_listdir]
      simp only [view, List.singleton_append, List.cons_append, List.nil_append]
      constructor
      · exact fun h => h.2
      · intro h; exact ⟨by rw [h]; simp, h⟩
    · cases h

theorem getCurrent_eq {fs : FS} {w : Name} :
    getCurrent fs = some w ↔ ∃ s, view fs [currentFile] = some (.file s) ∧ firstLine s = w := by
  unfold getCurrent readline view
  split
  · rename_i s h
    rw [h]; simp
  · rename_i h
    simp only [reduceCtorEq, false_iff, not_exists, not_and]
    intro s hs
    exact absurd hs (h s)

theorem readline_eq {fs : FS} {p : Path} {w : Name} :
    readline fs p = some w ↔ ∃ s, view fs p = some (.file s) ∧ firstLine s = w := by
  unfold readline view
  split
  · rename_i s h
    rw [h]; simp
  · rename_i h
    simp only [reduceCtorEq, false_iff, not_exists, not_and]
    intro s hs
    exact absurd hs (h s)

theorem current_plain {fs : FS} (h : Inv fs) {w : Name} (hc : getCurrent fs = some w) :
    w = [] ∨ (Plain w ∧ view fs [w] = some .dir) := by
  obtain ⟨s, hs, rfl⟩ := getCurrent_eq.1 hc
  rcases h.2 [] (Or.inl rfl) s hs with h1 | h1
  · exact Or.inl h1
  · exact Or.inr ⟨plain_of_dir h.1 (Or.inl rfl) h1, h1⟩

theorem argOrCurrent_plain {fs : FS} (h : Inv fs) {w : Name} (hw : w = [] ∨ Plain w) :
    argOrCurrent fs w = [] ∨ Plain (argOrCurrent fs w) := by
  unfold argOrCurrent
  split
  · rcases hw with rfl | hw
    · rename_i h1; exact absurd rfl h1
    · exact Or.inr hw
  · cases hg : getCurrent fs with
    | none => exact Or.inl rfl
    | some v =>
      rcases current_plain h hg with h1 | h1
      · exact Or.inl h1
      · exact Or.inr h1.1

theorem fallback_mem (names : List Name) : fallback names = [] ∨ fallback names ∈ names := by
  unfold fallback
  split
  · rename_i h; exact Or.inr h
  · cases names with
    | nil => exact Or.inl rfl
    | cons a l => exact Or.inr (by simp)

/-! ## Marker writing -/

/-- View after the marker of `b` was written. -/
def MarkWritten (g g' : View) (b : Path) (n : Name) : Prop :=
  ∀ r, g' r = if r = b ++ [".current".toList] then some (.file n) else g r

theorem writeline_cases (fs : FS) (p : Path) (n : Name) :
    ((writeline fs p n).1 = .ok () ∧ view fs p.dropLast = some .dir ∧ view fs p ≠ some .dir ∧
      ∀ r, view (writeline fs p n).2 r = if r = p then some (.file n) else view fs r) ∨
    ((∃ e, (writeline fs p n).1 = .error e) ∧ (writeline fs p n).2 = fs ∧
      ¬ (view fs p.dropLast = some .dir ∧ view fs p ≠ some .dir)) := by
  unfold writeline
  split
  · rename_i fs' h
    left
    have h2 : fs.isDir p.dropLast = true ∧ ¬ fs.isDir p = true := by
      unfold FS.write at h
      split at h
      · assumption
      · cases h
    rw [FS.isDir_iff, FS.isDir_iff] at h2
    exact ⟨rfl, h2.1, h2.2, FS.write_ok h⟩
  · rename_i e h
    right
    refine ⟨⟨_, rfl⟩, rfl, ?_⟩
    rintro ⟨h1, h2⟩
    rw [FS.write_succeeds fs p n h1 h2] at h
    cases h

theorem setCurrent_cases {fs : FS} (ht : Tidied (view fs)) {n : Name} (hn : n = [] ∨ Plain n) :
    ((setCurrent fs n).1 = .ok () ∧ view fs [] = some .dir ∧
      (n = [] ∨ view fs [n] = some .dir) ∧ MarkWritten (view fs) (view (setCurrent fs n).2) [] n) ∨
    ((∃ e, (setCurrent fs n).1 = .error e) ∧ (setCurrent fs n).2 = fs ∧
      ¬ (view fs [] = some .dir ∧ (n = [] ∨ view fs [n] = some .dir))) := by
  have key : view fs (wsPath n) ≠ none → (n = [] ∨ view fs [n] = some .dir) := by
    intro h
    rcases hn with rfl | hn
    · exact Or.inl rfl
    · rw [wsPath, comp_plain hn.1] at h
      exact Or.inr (dir_of_exists ht (b := []) (Or.inl rfl) hn h)
  unfold setCurrent
  split
  · rename_i h
    right
    refine ⟨⟨_, rfl⟩, rfl, ?_⟩
    rintro ⟨h0, h1⟩
    apply h
    rw [FS.exists?_iff]
    rcases hn with rfl | hn
    · show view fs [] ≠ none
      rw [h0]; simp
    · rw [wsPath, comp_plain hn.1]
      rcases h1 with h1 | h1
      · exact absurd h1 hn.1
      · show view fs [n] ≠ none
        rw [h1]; simp
  · rename_i h
    rw [not_not, FS.exists?_iff] at h
    rcases writeline_cases fs [currentFile] n with h1 | h1
    · left
      exact ⟨h1.1, h1.2.1, key h, h1.2.2.2⟩
    · right
      refine ⟨h1.1, h1.2.1, ?_⟩
      rintro ⟨h2, -⟩
      exact h1.2.2 ⟨h2, marker_not_dir ht (b := []) (Or.inl rfl)⟩

theorem setCurrentConfig_cases {fs : FS} (ht : Tidied (view fs)) {w n : Name} (hw : Plain w)
    (hn : n = [] ∨ Plain n) :
    ((setCurrentConfig fs w n).1 = .ok () ∧ view fs [w, configsDir] = some .dir ∧
      (n = [] ∨ view fs ([w, configsDir] ++ [n]) = some .dir) ∧
      MarkWritten (view fs) (view (setCurrentConfig fs w n).2) [w, configsDir] n) ∨
    ((∃ e, (setCurrentConfig fs w n).1 = .error e) ∧ (setCurrentConfig fs w n).2 = fs ∧
      ¬ (view fs [w, configsDir] = some .dir ∧
        (n = [] ∨ view fs ([w, configsDir] ++ [n]) = some .dir))) := by
  have hl : Level [w, configsDir] := Or.inr ⟨w, hw, rfl⟩
  have hcw : comp w = [w] := comp_plain hw.1
  have key : view fs (cfgPath w n) ≠ none →
      (n = [] ∨ view fs ([w, configsDir] ++ [n]) = some .dir) := by
    intro h
    rcases hn with rfl | hn
    · exact Or.inl rfl
    · rw [cfgPath, hcw, comp_plain hn.1] at h
      exact Or.inr (dir_of_exists ht hl hn h)
  unfold setCurrentConfig
  rw [wsPath, hcw]
  split
  · rename_i h
    right
    refine ⟨⟨_, rfl⟩, rfl, ?_⟩
    rintro ⟨h0, h1⟩
    apply h
    rw [FS.exists?_iff]
    have h2 := ht.1 [w] configsDir (by show view fs [w, configsDir] ≠ none; rw [h0]; simp)
    show view fs [w] ≠ none
    rw [h2]; simp
  · split
    · rename_i _ h
      right
      refine ⟨⟨_, rfl⟩, rfl, ?_⟩
      rintro ⟨h0, h1⟩
      apply h
      rw [FS.exists?_iff]
      rcases hn with rfl | hn
      · rw [cfgPath, hcw]
        show view fs [w, configsDir] ≠ none
        rw [h0]; simp
      · rw [cfgPath, hcw, comp_plain hn.1]
        rcases h1 with h1 | h1
        · exact absurd h1 hn.1
        · show view fs ([w, configsDir] ++ [n]) ≠ none
          rw [h1]; simp
    · rename_i _ h
      rw [not_not, FS.exists?_iff] at h
      have hp : cfgMarker w = [w, configsDir] ++ [".current".toList] := by
        unfold cfgMarker; rw [hcw]; rfl
      rcases writeline_cases fs (cfgMarker w) n with h1 | h1
      · left
        rw [hp] at h1 ⊢
        exact ⟨h1.1, by simpa using h1.2.1, key h, h1.2.2.2⟩
      · right
        refine ⟨h1.1, h1.2.1, ?_⟩
        rintro ⟨h2, -⟩
        apply h1.2.2
        rw [hp]
        exact ⟨by simpa using h2, marker_not_dir ht hl⟩

theorem inv_marked {fs fs' : FS} {b : Path} {n : Name} (hb : Level b) (ht : Tidied (view fs))
    (hother : ∀ c, Level c → c ≠ b → NotDangling (view fs) c) (hdir : view fs b = some .dir)
    (hn : n = [] ∨ Plain n) (hex : n = [] ∨ view fs (b ++ [n]) = some .dir)
    (hw : MarkWritten (view fs) (view fs') b n) : Inv fs' := by
  refine ⟨tidied_mark hdir hb hw ht, marked_mark hb hw ht ?_ hother⟩
  rw [firstLine_plain hn]
  exact hex

theorem inv_setCurrent {fs : FS} (h : Inv fs) {n : Name} (hn : n = [] ∨ Plain n) :
    Inv (setCurrent fs n).2 := by
  rcases setCurrent_cases h.1 hn with h1 | h1
  · exact inv_marked (Or.inl rfl) h.1 (fun c hc _ => h.2 c hc) h1.2.1 hn h1.2.2.1 h1.2.2.2
  · rw [h1.2.1]; exact h

theorem inv_setCurrentConfig {fs : FS} (h : Inv fs) {w n : Name} (hw : Plain w)
    (hn : n = [] ∨ Plain n) : Inv (setCurrentConfig fs w n).2 := by
  rcases setCurrentConfig_cases h.1 hw hn with h1 | h1
  · exact inv_marked (Or.inr ⟨w, hw, rfl⟩) h.1 (fun c hc _ => h.2 c hc) h1.2.1 hn h1.2.2.1 h1.2.2.2
  · rw [h1.2.1]; exact h

/-! ## Creating, removing, copying, renaming -/

theorem createWorkspace_cases (fs : FS) {w : Name} (hw : Plain w) :
    ((createWorkspace fs w).2 = fs) ∨
    ((createWorkspace fs w).1 = .ok () ∧
      ∀ r, view (createWorkspace fs w).2 r = if r <+: [w] then some .dir else view fs r) := by
  unfold createWorkspace
  rw [if_neg hw.1]
  split
  · exact Or.inl rfl
  · unfold ensureDir
    split
    · exact Or.inl rfl
    · split
      · rename_i fs' h
        right
        rw [wsPath, comp_plain hw.1] at h
        exact ⟨rfl, FS.makedirs_ok h⟩
      · exact Or.inl rfl

theorem inv_createWorkspace {fs : FS} (h : Inv fs) {w : Name} (hw : w = [] ∨ Plain w) :
    Inv (createWorkspace fs w).2 := by
  rcases hw with rfl | hw
  · unfold createWorkspace; rw [if_pos rfl]; exact h
  rcases createWorkspace_cases fs hw with h1 | h1
  · rw [h1]; exact h
  · exact ⟨tidied_mkws hw h1.2 h.1, marked_mkws hw h1.2 h.2⟩

theorem deleteWorkspace_cases (fs : FS) (w : Name) :
    ((∃ e, (deleteWorkspace fs w).1 = .error e) ∧ (deleteWorkspace fs w).2 = fs ∧
      view fs (wsPath w) ≠ some .dir) ∨
    ((deleteWorkspace fs w).1 = .ok () ∧ view fs (wsPath w) = some .dir ∧
      ∀ r, view (deleteWorkspace fs w).2 r = if wsPath w <+: r then none else view fs r) := by
  unfold deleteWorkspace
  split
  · rename_i h
    left
    refine ⟨⟨_, rfl⟩, rfl, fun h1 => h ?_⟩
    rw [FS.exists?_iff]
    show view fs _ ≠ none
    rw [h1]; simp
  · split
    · rename_i h
      right
      rw [FS.isDir_iff] at h
      exact ⟨rfl, h, fun r => FS.get?_rmtree _ _ _⟩
    · rename_i h
      left
      refine ⟨⟨_, rfl⟩, rfl, fun h1 => h ?_⟩
      rw [FS.isDir_iff]; exact h1

theorem deleteConfig_cases (fs : FS) (w c : Name) :
    ((∃ e, (deleteConfig fs w c).1 = .error e) ∧ (deleteConfig fs w c).2 = fs) ∨
    ((deleteConfig fs w c).1 = .ok () ∧ view fs (cfgPath w c) = some .dir ∧
      view fs (wsPath w) ≠ none ∧
      ∀ r, view (deleteConfig fs w c).2 r = if cfgPath w c <+: r then none else view fs r) := by
  unfold deleteConfig
  split
  · exact Or.inl ⟨⟨_, rfl⟩, rfl⟩
  · rename_i hw
    split
    · exact Or.inl ⟨⟨_, rfl⟩, rfl⟩
    · split
      · rename_i h
        right
        rw [FS.isDir_iff] at h
        rw [not_not, FS.exists?_iff] at hw
        exact ⟨rfl, h, hw, fun r => FS.get?_rmtree _ _ _⟩
      · exact Or.inl ⟨⟨_, rfl⟩, rfl⟩

theorem copytreeChecked_cases {fs : FS} (ht : IsTree (view fs)) (p q : Path) :
    ((∃ e, (copytreeChecked fs p q).1 = .error e) ∧ (copytreeChecked fs p q).2 = fs) ∨
    ((copytreeChecked fs p q).1 = .ok () ∧ view fs p = some .dir ∧ view fs q = none ∧
      ∀ r, view (copytreeChecked fs p q).2 r =
        if q <+: r then view fs (p ++ r.drop q.length) else view fs r) := by
  unfold copytreeChecked
  split
  · exact Or.inl ⟨⟨_, rfl⟩, rfl⟩
  · rename_i hp
    split
    · exact Or.inl ⟨⟨_, rfl⟩, rfl⟩
    · rename_i hq
      right
      rw [not_not, FS.isDir_iff] at hp
      have hq' : view fs q = none := by
        by_contra h; exact hq ((FS.exists?_iff _ _).2 h)
      exact ⟨rfl, hp, hq', fun r => FS.get?_copytree _ _ _ _ (tree_none_below ht hq')⟩

theorem inv_copy {fs fs' : FS} (h : Inv fs) {b : Path} {x y : Name} (hb : Level b) (hx : Plain x)
    (hy : Plain y) (hsrc : view fs (b ++ [x]) = some .dir)
    (hg : ∀ r, view fs' r = if b ++ [y] <+: r then view fs (b ++ [x] ++ r.drop (b ++ [y]).length)
      else view fs r) : Inv fs' :=
  ⟨tidied_copy hb hx hy (h.1.1 b x (by rw [hsrc]; simp)) hsrc hg h.1,
   marked_copy hb hx hy hsrc hg h.2⟩

/-- Renaming keeps everything but possibly the marker of its own directory. -/
theorem tidied_rename {g g' : View} {b : Path} {x y : Name} (hb : Level b) (hx : Plain x)
    (hy : Plain y) (hxy : x ≠ y) (hsrc : g (b ++ [x]) = some .dir) (ht : Tidied g)
    (hg : ∀ r, g' r = if b ++ [y] <+: r then g (b ++ [x] ++ r.drop (b ++ [y]).length)
      else if b ++ [x] <+: r then none else g r) :
    Tidied g' ∧ (Marked g → ∀ c, Level c →
      (c = b → ∀ s, g (b ++ [".current".toList]) = some (.file s) → firstLine s ≠ x) →
      NotDangling g' c) := by
  let g1 : View := fun r => if b ++ [y] <+: r then g (b ++ [x] ++ r.drop (b ++ [y]).length) else g r
  have hdisj : ∀ r, b ++ [x] <+: r → ¬ b ++ [y] <+: r := by
    rintro r ⟨t, rfl⟩ ⟨u, hu⟩
    rw [List.append_assoc, List.append_assoc] at hu
    have := List.append_cancel_left hu
    simp at this
    exact hxy this.1.symm
  have hg2 : ∀ r, g' r = if b ++ [x] <+: r then none else g1 r := by
    intro r
    rw [hg r]
    by_cases h1 : b ++ [x] <+: r
    · rw [if_neg (hdisj r h1), if_pos h1, if_pos h1]
    · simp only [h1, if_false, g1]
  have ht1 : Tidied g1 := tidied_copy hb hx hy (ht.1 b x (by rw [hsrc]; simp)) hsrc (fun r => rfl) ht
  refine ⟨tidied_remove (by simp) hg2 ht1, ?_⟩
  intro hm c hc hne
  have hm1 : Marked g1 := marked_copy hb hx hy hsrc (fun r => rfl) hm
  refine notDangling_remove hx hg2 (hm1 c hc) ?_
  rintro hcb s hs
  refine hne hcb s ?_
  have : ¬ b ++ [y] <+: b ++ [".current".toList] := by
    intro h
    rcases prefix_snoc.1 h with h | h
    · obtain ⟨-, rfl⟩ := snoc_inj.1 h
      exact current_not_plain hy
    · have := h.length_le; simp at this
  simp only [g1, this, if_false] at hs
  exact hs

/-! ## Unique names -/

theorem cliUnique_spec {fs : FS} (ht : Tidied (view fs)) {base : Name} (hb : base = [] ∨ Plain base) :
    (base = [] ∧ cliUnique fs base = []) ∨
    (Plain (cliUnique fs base) ∧ view fs [cliUnique fs base] = none) := by
  obtain ⟨r, h1, h2, h3⟩ := unique_name_found (workspaceNames fs) base
  have hr : cliUnique fs base = r := by
    unfold cliUnique
    simp only [h1 _ (le_refl _), Option.getD_some]
  rw [hr]
  rcases hb with rfl | hb
  · left
    refine ⟨rfl, ?_⟩
    rcases h3 with h3 | h3
    · exact h3.2
    · exfalso
      have := (mem_workspaceNames ht []).1 h3.1
      exact (plain_of_dir ht (b := []) (Or.inl rfl) this).1 rfl
  · right
    have hp : Plain r := by
      rcases h3 with h3 | ⟨-, k, -, rfl, -⟩
      · rw [h3.2]; exact hb
      · exact plain_suffix hb k
    refine ⟨hp, ?_⟩
    by_contra hne
    exact h2 ((mem_workspaceNames ht r).2 (dir_of_exists ht (b := []) (Or.inl rfl) hp hne))

theorem cliUniqueConfig_spec {fs : FS} (ht : Tidied (view fs)) {w base r : Name} (hw : Plain w)
    (hb : Plain base) (h : cliUniqueConfig fs w base = .ok r) :
    Plain r ∧ view fs ([w, configsDir] ++ [r]) = none := by
  unfold cliUniqueConfig at h
  split at h
  · cases h
  · cases h
  · rename_i names hn
    obtain ⟨r', h1, h2, h3⟩ := unique_name_found names base
    have hr : uniqueLoop names base (names.length + 2) base 2 = some r' := h1 _ (le_refl _)
    rw [hr] at h
    have : r' = r := by simpa using h
    subst this
    have hp : Plain r' := by
      rcases h3 with h3 | ⟨-, k, -, rfl, -⟩
      · rw [h3.2]; exact hb
      · exact plain_suffix hb k
    refine ⟨hp, ?_⟩
    by_contra hne
    exact h2 ((configNames_mem ht hw hn r').2 (dir_of_exists ht (Or.inr ⟨w, hw, rfl⟩) hp hne))

end Dedop.Workspace
