import Verif.Workspace.FrameLemmas

/-! # What workspace operations change: properties C09, C11, C12, C13 -/
namespace Dedop.Workspace
open Dedop.Names

theorem cfgPath_head {w c : Name} (hw : w ≠ []) {n : Name} {tail : Path}
    (h : cfgPath w c <+: n :: tail) : n = w := by
  unfold cfgPath at h
  rw [comp_plain hw] at h
  simp only [List.cons_append, List.nil_append, List.cons_prefix_cons] at h
  exact h.1.symm

/-! ## C11 -/

/-- **C11, other workspaces.**  Every manager call, whether it succeeds or fails, leaves every file and
directory of every workspace it does not name exactly as it was (names not empty; see C13). -/
theorem other_workspaces_untouched (t : Templates) (fs : FS) (op : MgrOp)
    (hne : ∀ w ∈ op.workspaces, w ≠ []) (n : Name) (hn : n ∉ op.workspaces) (tail : Path) :
    view (mgr t fs op).2 (n :: tail) = view fs (n :: tail) := by
  cases op with
  | createWs w =>
    have hw := hne w (by simp [MgrOp.workspaces])
    refine only_createWorkspace fs w _ ?_
    rintro ⟨h, -⟩
    rw [wsPath, comp_plain hw, List.cons_prefix_cons] at h
    exact hn (by simp [MgrOp.workspaces, h.1])
  | deleteWs w =>
    have hw := hne w (by simp [MgrOp.workspaces])
    refine only_deleteWorkspace fs w _ ?_
    intro h
    rw [wsPath, comp_plain hw, List.cons_prefix_cons] at h
    exact hn (by simp [MgrOp.workspaces, h.1])
  | copyWs w new =>
    have hw := hne new (by simp [MgrOp.workspaces])
    refine only_copyWorkspace fs w new _ ?_
    intro h
    rw [wsPath, comp_plain hw, List.cons_prefix_cons] at h
    exact hn (by simp [MgrOp.workspaces, h.1])
  | renameWs w new =>
    have hw := hne w (by simp [MgrOp.workspaces])
    have hw' := hne new (by simp [MgrOp.workspaces])
    refine only_renameWorkspace fs w new _ ?_
    rw [wsPath, wsPath, comp_plain hw, comp_plain hw']
    show ¬ ([w] <+: n :: tail ∨ [new] <+: n :: tail)
    rw [List.cons_prefix_cons, List.cons_prefix_cons]
    rintro (h | h)
    · exact hn (by simp [MgrOp.workspaces, h.1])
    · exact hn (by simp [MgrOp.workspaces, h.1])
  | createCfg w c =>
    have hw := hne w (by simp [MgrOp.workspaces])
    have hnw : n ≠ w := fun h => hn (by simp [MgrOp.workspaces, h])
    have hcw : cfgPath w c = w :: ([configsDir] ++ comp c) := by
      unfold cfgPath; rw [comp_plain hw]; rfl
    refine only_createConfig fs w c t _ ?_
    rw [hcw]
    rintro (⟨h, -⟩ | h | h | h)
    · rw [List.cons_prefix_cons] at h; exact hnw h.1
    all_goals
      rw [List.cons_append, List.cons.injEq] at h
      exact hnw h.1
  | deleteCfg w c =>
    have hw := hne w (by simp [MgrOp.workspaces])
    exact only_deleteConfig fs w c _ (fun h => hn (by simp [MgrOp.workspaces, cfgPath_head hw h]))
  | copyCfg w c new =>
    have hw := hne w (by simp [MgrOp.workspaces])
    exact only_copyConfig fs w c new _ (fun h => hn (by simp [MgrOp.workspaces, cfgPath_head hw h]))
  | renameCfg w c new =>
    have hw := hne w (by simp [MgrOp.workspaces])
    refine only_renameConfig fs w c new _ ?_
    rintro (h | h)
    · exact hn (by simp [MgrOp.workspaces, cfgPath_head hw h])
    · exact hn (by simp [MgrOp.workspaces, cfgPath_head hw h])
  | setCfg w c =>
    have hw := hne w (by simp [MgrOp.workspaces])
    refine only_setCurrentConfig fs w c _ ?_
    unfold cfgMarker
    rw [comp_plain hw]
    intro h
    rw [List.singleton_append, List.cons.injEq] at h
    exact hn (by simp [MgrOp.workspaces, h.1])

/-- **C11, other configurations.**  A call on configurations leaves everything outside the named
configurations' directories as it was (except that it may create a missing `configs` directory). -/
theorem other_configs_untouched (t : Templates) (fs : FS) (htree : IsTree (view fs)) (op : MgrOp)
    (w : Name) (cs : List Name) (hop : op.configs = some (w, cs)) (hw : w ≠ [])
    (hcs : ∀ c ∈ cs, c ≠ []) (r : Path)
    (hr : ∀ c ∈ cs, ¬ [w, "configs".toList, c] <+: r)
    (hr' : r ≠ [w, "configs".toList] ∨ view fs r ≠ none) :
    view (mgr t fs op).2 r = view fs r := by
  have hpath : ∀ c ∈ cs, cfgPath w c = [w, "configs".toList, c] :=
    fun c hc => cfgPath_plain hw (hcs c hc)
  cases op with
  | createWs w => cases hop
  | deleteWs w => cases hop
  | copyWs w new => cases hop
  | renameWs w new => cases hop
  | setCfg w c => cases hop
  | createCfg w' c =>
    simp only [MgrOp.configs, Option.some.injEq, Prod.mk.injEq] at hop
    obtain ⟨rfl, rfl⟩ := hop
    have hp := hpath c (by simp)
    have hrc := hr c (by simp)
    by_cases hfail : ¬ fs.exists? (wsPath w') = true
    · show view (createConfig fs w' c t).2 r = _
      unfold createConfig
      rw [if_pos hfail]
    · refine only_createConfig fs w' c t r ?_
      rw [hp]
      rintro (⟨h, hnone⟩ | h | h | h)
      · rw [not_not, FS.exists?_iff, wsPath, comp_plain hw] at hfail
        have hroot : view fs [] = some .dir := htree [] w' hfail
        obtain ⟨s, hs⟩ := h
        match r, hs with
        | [], _ => rw [hroot] at hnone; cases hnone
        | [a], hs =>
          simp only [List.cons_append, List.cons.injEq] at hs
          rw [hs.1] at hnone
          exact hfail hnone
        | [a, b], hs =>
          simp only [List.cons_append, List.cons.injEq] at hs
          rcases hr' with h1 | h1
          · exact h1 (by rw [hs.1, hs.2.1])
          · exact h1 hnone
        | a :: b :: d :: tl, hs =>
          simp only [List.cons_append, List.cons.injEq] at hs
          apply hrc
          rw [hs.1, hs.2.1, hs.2.2.1]
          exact ⟨tl, rfl⟩
      all_goals
        rw [h] at hrc
        exact hrc (List.prefix_append _ _)
  | deleteCfg w' c =>
    simp only [MgrOp.configs, Option.some.injEq, Prod.mk.injEq] at hop
    obtain ⟨rfl, rfl⟩ := hop
    exact only_deleteConfig fs w' c r (by rw [hpath c (by simp)]; exact hr c (by simp))
  | copyCfg w' c new =>
    simp only [MgrOp.configs, Option.some.injEq, Prod.mk.injEq] at hop
    obtain ⟨rfl, rfl⟩ := hop
    exact only_copyConfig fs w' c new r (by rw [hpath new (by simp)]; exact hr new (by simp))
  | renameCfg w' c new =>
    simp only [MgrOp.configs, Option.some.injEq, Prod.mk.injEq] at hop
    obtain ⟨rfl, rfl⟩ := hop
    refine only_renameConfig fs w' c new r ?_
    rw [hpath c (by simp), hpath new (by simp)]
    rintro (h | h)
    · exact hr c (by simp) h
    · exact hr new (by simp) h

/-- **C11, create.**  A new workspace is an empty directory; nothing else is changed. -/
theorem create_exact (fs : FS) (htree : IsTree (view fs)) (w : Name) (hw : Plain w)
    (hfree : view fs [w] = none) (hroot : view fs [] = none ∨ view fs [] = some .dir) :
    (createWorkspace fs w).1 = .ok () ∧ view (createWorkspace fs w).2 [w] = some .dir ∧
    (∀ n tail, view (createWorkspace fs w).2 (w :: n :: tail) = none) ∧
    ∀ r, r ≠ [] → r ≠ [w] → view (createWorkspace fs w).2 r = view fs r := by
  have hne : ¬ fs.exists? (wsPath w) = true := by
    rw [FS.exists?_iff, wsPath, comp_plain hw.1, not_not]; exact hfree
  have hnd : ¬ (fs.isDir (wsPath w) = true ∧ fs.listdir (wsPath w) ≠ []) := by
    rintro ⟨h, -⟩
    rw [FS.isDir_iff, wsPath, comp_plain hw.1] at h
    unfold view at hfree
    rw [hfree] at h; cases h
  have hmk : ∃ fs', fs.makedirs [w] = .ok fs' := by
    unfold view at hfree hroot
    have hm : ∀ fs1 : FS, Dict.get? fs1 [w] = none → ∃ fs', fs1.mkdirOk [w] = .ok fs' := by
      intro fs1 h
      unfold FS.mkdirOk; rw [h]; exact ⟨_, rfl⟩
    unfold FS.makedirs
    simp only [FS.makedirsFrom, List.nil_append]
    rcases hroot with h | h
    · have h1 : fs.mkdirOk [] = .ok (Dict.set fs [] .dir) := by unfold FS.mkdirOk; rw [h]
      rw [h1]
      exact hm _ (by rw [FS.get?_set, if_neg (by simp)]; exact hfree)
    · have h1 : fs.mkdirOk [] = .ok fs := by unfold FS.mkdirOk; rw [h]
      rw [h1]
      exact hm _ hfree
  obtain ⟨fs', hfs'⟩ := hmk
  have hres : createWorkspace fs w = (.ok (), fs') := by
    unfold createWorkspace
    rw [if_neg hw.1, if_neg hnd]
    unfold ensureDir
    rw [if_neg hne]
    rw [wsPath, comp_plain hw.1, hfs']
  rw [hres]
  have hg := FS.makedirs_ok hfs'
  refine ⟨rfl, ?_, ?_, ?_⟩
  · show Dict.get? fs' [w] = _
    rw [hg, if_pos (List.prefix_refl _)]
  · intro n tail
    show Dict.get? fs' _ = _
    rw [hg, if_neg (fun h => by have := h.length_le; simp at this)]
    exact tree_none_below htree hfree (n :: tail)
  · intro r h1 h2
    show Dict.get? fs' _ = _
    rw [hg, if_neg]
    · rfl
    · intro h
      match r, h with
      | [], _ => exact h1 rfl
      | [a], h => exact h2 (by simpa using h)
      | a :: b :: c, h => have := h.length_le; simp at this

/-- **C11, delete.**  A successful delete removes exactly the named tree. -/
theorem delete_exact (fs fs' : FS) (w : Name) (hw : w ≠ [])
    (hok : deleteWorkspace fs w = (.ok (), fs')) :
    (∀ tail, view fs' (w :: tail) = none) ∧
    ∀ r, (∀ tail, r ≠ w :: tail) → view fs' r = view fs r := by
  rcases deleteWorkspace_cases fs w with ⟨⟨e, he⟩, -⟩ | ⟨-, -, hg⟩
  · rw [hok] at he; cases he
  · rw [hok, wsPath, comp_plain hw] at hg
    constructor
    · intro tail
      rw [hg, if_pos (by simp)]
    · intro r hr
      rw [hg, if_neg]
      rintro ⟨t, rfl⟩
      exact hr t rfl

/-- **C11, copy.**  A successful copy has exactly the source's tree, the target did not exist, and
nothing else changed. -/
theorem copy_exact (fs fs' : FS) (htree : IsTree (view fs)) (w new : Name) (hw : w ≠ [])
    (hn : new ≠ []) (hok : copyWorkspace fs w new = (.ok (), fs')) :
    view fs [w] = some .dir ∧ view fs [new] = none ∧
    (∀ tail, view fs' (new :: tail) = view fs (w :: tail)) ∧
    ∀ r, (∀ tail, r ≠ new :: tail) → view fs' r = view fs r := by
  rcases copyWorkspace_cases htree hw hn with ⟨-, e, he⟩ | ⟨-, h1, h2, hg⟩
  · rw [hok] at he; cases he
  · rw [hok] at hg
    refine ⟨h1, h2, ?_, ?_⟩
    · intro tail
      rw [hg, if_pos (by simp)]; simp
    · intro r hr
      rw [hg, if_neg]
      rintro ⟨t, rfl⟩
      exact hr t rfl

/-- **C11, rename (`_partial`: the new name is free).**  The tree moves as it is and nothing else
changes.  Missing: a new name that is taken, where the claim is false
(`rename_onto_existing_violated`). -/
theorem rename_exact_partial (fs : FS) (htree : IsTree (view fs)) (w new : Name) (hw : w ≠ [])
    (hn : new ≠ []) (hex : view fs [w] ≠ none) (hfree : view fs [new] = none) :
    ∃ fs', renameWorkspace fs w new = (.ok (), fs') ∧
      (∀ tail, view fs' (new :: tail) = view fs (w :: tail)) ∧
      (∀ tail, view fs' (w :: tail) = none) ∧
      ∀ r, (∀ tail, r ≠ new :: tail) → (∀ tail, r ≠ w :: tail) → view fs' r = view fs r := by
  have hwn : w ≠ new := by rintro rfl; exact hex hfree
  obtain ⟨fs', h1, hg⟩ := renameWorkspace_free htree hw hn hwn hex hfree
  refine ⟨fs', h1, ?_, ?_, ?_⟩
  · intro tail
    rw [hg, if_pos (by simp)]; simp
  · intro tail
    rw [hg, if_neg (by
      intro h
      rw [List.cons_prefix_cons] at h
      exact hwn h.1.symm), if_pos (by simp)]
  · intro r h1 h2
    rw [hg, if_neg, if_neg]
    · rintro ⟨t, rfl⟩; exact h2 t rfl
    · rintro ⟨t, rfl⟩; exact h1 t rfl

/-- Two workspaces `a` (with a file) and `b`. -/
def twoWorkspaces : FS :=
  [([], .dir), (["a".toList], .dir), (["a".toList, "f".toList], .file "1".toList),
   (["b".toList], .dir), (["b".toList, "g".toList], .file "2".toList)]

/-- **C11 is violated for a taken name**: `rename_workspace('a', 'b')` with an existing `b` reports
success, but `b` does not become the old `a`: `a` ends up inside `b`. -/
theorem rename_onto_existing_violated :
    ∃ fs', renameWorkspace twoWorkspaces "a".toList "b".toList = (.ok (), fs') ∧
      view fs' ["b".toList, "f".toList] ≠ view twoWorkspaces ["a".toList, "f".toList] ∧
      view fs' ["b".toList, "g".toList] = some (.file "2".toList) ∧
      view fs' ["b".toList, "a".toList, "f".toList] = some (.file "1".toList) :=
  ⟨_, rfl, by decide +kernel, by decide +kernel, by decide +kernel⟩

example : IsTree (view twoWorkspaces) ∧ view twoWorkspaces ["a".toList] ≠ none ∧
    view twoWorkspaces ["c".toList] = none ∧
    (copyWorkspace twoWorkspaces "a".toList "c".toList).1 = .ok () ∧
    (deleteWorkspace twoWorkspaces "a".toList).1 = .ok () := by
  refine ⟨?_, by decide +kernel, by decide +kernel, by decide +kernel, by decide +kernel⟩
  intro p n h
  obtain ⟨e, he⟩ := Option.ne_none_iff_exists'.1 h
  have hm := FS.mem_of_get? he
  simp only [twoWorkspaces, List.mem_cons, Prod.mk.injEq, List.not_mem_nil, or_false] at hm
  rcases hm with h1 | h1 | h1 | h1 | h1
  · simp at h1
  · have := (snoc_inj (b := [])).1 h1.1; rw [this.1]; decide +kernel
  · have := (snoc_inj (b := ["a".toList])).1 h1.1; rw [this.1]; decide +kernel
  · have := (snoc_inj (b := [])).1 h1.1; rw [this.1]; decide +kernel
  · have := (snoc_inj (b := ["b".toList])).1 h1.1; rw [this.1]; decide +kernel

/-- **C11, configurations.**  Deleting a configuration removes exactly its tree; copying one gives the
target, which did not exist, exactly the tree of the source; renaming moves the tree and never
replaces a configuration that holds anything.  Nothing else changes. -/
theorem config_operations_exact (fs fs' : FS) (htree : IsTree (view fs)) (w c new : Name)
    (hw : w ≠ []) (hc : c ≠ []) (hn : new ≠ []) (hne : c ≠ new) :
    (deleteConfig fs w c = (.ok (), fs') →
      (∀ tail, view fs' ([w, "configs".toList, c] ++ tail) = none) ∧
      ∀ r, (∀ tail, r ≠ [w, "configs".toList, c] ++ tail) → view fs' r = view fs r) ∧
    (copyConfig fs w c new = (.ok (), fs') →
      view fs [w, "configs".toList, new] = none ∧
      (∀ tail, view fs' ([w, "configs".toList, new] ++ tail) =
        view fs ([w, "configs".toList, c] ++ tail)) ∧
      ∀ r, (∀ tail, r ≠ [w, "configs".toList, new] ++ tail) → view fs' r = view fs r) ∧
    (renameConfig fs w c new = (.ok (), fs') →
      (∀ n tail, view fs ([w, "configs".toList, new, n] ++ tail) = none) ∧
      (∀ tail, view fs' ([w, "configs".toList, new] ++ tail) =
        view fs ([w, "configs".toList, c] ++ tail)) ∧
      (∀ tail, view fs' ([w, "configs".toList, c] ++ tail) = none) ∧
      ∀ r, (∀ tail, r ≠ [w, "configs".toList, new] ++ tail) →
        (∀ tail, r ≠ [w, "configs".toList, c] ++ tail) → view fs' r = view fs r) := by
  have hp : cfgPath w c = [w, "configs".toList, c] := cfgPath_plain hw hc
  have hq : cfgPath w new = [w, "configs".toList, new] := cfgPath_plain hw hn
  have hpq : ¬ ([w, "configs".toList, c] : Path) <+: [w, "configs".toList, new] := by
    simp [List.cons_prefix_cons, hne]
  have hqp : ∀ tail, ¬ ([w, "configs".toList, new] : Path) <+: [w, "configs".toList, c] ++ tail := by
    intro tail
    simp [List.cons_prefix_cons, Ne.symm hne]
  have hnp : ∀ (q r : Path), (∀ tail, r ≠ q ++ tail) → ¬ q <+: r := by
    rintro q r h ⟨t, rfl⟩; exact h t rfl
  refine ⟨?_, ?_, ?_⟩
  · intro hok
    unfold deleteConfig at hok
    split at hok
    · cases hok
    split at hok
    · cases hok
    split at hok
    · cases hok
      rw [hp]
      constructor
      · intro tail
        show Dict.get? _ _ = _
        rw [FS.get?_rmtree, if_pos (List.prefix_append _ _)]
      · intro r hr
        show Dict.get? _ _ = _
        rw [FS.get?_rmtree, if_neg (hnp _ _ hr)]
        rfl
    · cases hok
  · intro hok
    unfold copyConfig copytreeChecked at hok
    split at hok
    · cases hok
    split at hok
    · cases hok
    split at hok
    · cases hok
    split at hok
    · cases hok
    · rename_i hex
      rw [hq, FS.exists?_iff, not_not] at hex
      cases hok
      rw [hp, hq]
      have hb := tree_none_below htree hex
      refine ⟨hex, ?_, ?_⟩
      · intro tail
        show Dict.get? _ _ = _
        rw [FS.get?_copytree _ _ _ _ hb, if_pos (List.prefix_append _ _), List.drop_left]
        rfl
      · intro r hr
        show Dict.get? _ _ = _
        rw [FS.get?_copytree _ _ _ _ hb, if_neg (hnp _ _ hr)]
        rfl
  · intro hok
    have main : ∀ fs1 : FS, (∀ t, Dict.get? fs1 ([w, "configs".toList, new] ++ t) = none) →
        (∀ r, (∀ tail, r ≠ [w, "configs".toList, new] ++ tail) → view fs1 r = view fs r) →
        fs' = fs1.rename [w, "configs".toList, c] [w, "configs".toList, new] →
        (∀ tail, view fs' ([w, "configs".toList, new] ++ tail) =
          view fs ([w, "configs".toList, c] ++ tail)) ∧
        (∀ tail, view fs' ([w, "configs".toList, c] ++ tail) = none) ∧
        ∀ r, (∀ tail, r ≠ [w, "configs".toList, new] ++ tail) →
          (∀ tail, r ≠ [w, "configs".toList, c] ++ tail) → view fs' r = view fs r := by
      intro fs1 h1 h2 hfs
      subst hfs
      refine ⟨?_, ?_, ?_⟩
      · intro tail
        show Dict.get? _ _ = _
        rw [FS.get?_rename _ _ _ _ h1, if_pos (List.prefix_append _ _), List.drop_left]
        apply h2
        intro t' h
        exact hqp tail (h ▸ List.prefix_append _ _)
      · intro tail
        show Dict.get? _ _ = _
        rw [FS.get?_rename _ _ _ _ h1, if_neg (hqp tail), if_pos (List.prefix_append _ _)]
      · intro r hr1 hr2
        show Dict.get? _ _ = _
        rw [FS.get?_rename _ _ _ _ h1, if_neg (hnp _ _ hr1), if_neg (hnp _ _ hr2)]
        exact h2 r hr1
    have hrm : ∀ t, Dict.get? (fs.rmtree [w, "configs".toList, new])
        ([w, "configs".toList, new] ++ t) = none := by
      intro t; rw [FS.get?_rmtree, if_pos (List.prefix_append _ _)]
    have hrm' : ∀ r, (∀ tail, r ≠ [w, "configs".toList, new] ++ tail) →
        view (fs.rmtree [w, "configs".toList, new]) r = view fs r := by
      intro r hr
      show Dict.get? _ _ = _
      rw [FS.get?_rmtree, if_neg (hnp _ _ hr)]; rfl
    unfold renameConfig renameChecked at hok
    rw [hp, hq] at hok
    split at hok
    · cases hok
    split at hok
    · cases hok
    rw [if_neg (by intro h; exact hpq (h ▸ List.prefix_refl _))] at hok
    have sub : ∀ n tail, ([w, "configs".toList, new, n] ++ tail : Path) =
        ([w, "configs".toList, new] ++ [n]) ++ tail := fun _ _ => rfl
    cases hg : Dict.get? fs [w, "configs".toList, new] with
    | none =>
      rw [hg] at hok
      simp only [Prod.mk.injEq, true_and] at hok
      have hb := tree_none_below htree hg
      refine ⟨fun n tail => hb (n :: tail), main fs hb (fun _ _ => rfl) hok.symm⟩
    | some e =>
      rw [hg] at hok
      cases e with
      | file s =>
        simp only at hok
        split at hok
        · rename_i x hx
          split at hx
          · cases hx
          · cases hx
            cases hok
            refine ⟨?_, main _ hrm hrm' rfl⟩
            intro n tail
            rw [sub]
            have : view fs ([w, "configs".toList, new] ++ [n]) = none := by
              by_contra h
              have := htree _ _ h
              unfold view at this
              rw [hg] at this; cases this
            exact tree_none_below htree this tail
        · cases hok
      | dir =>
        simp only at hok
        split at hok
        · rename_i x hx
          split at hx
          · rename_i hl
            cases hx
            cases hok
            refine ⟨?_, main _ hrm hrm' rfl⟩
            intro n tail
            rw [sub]
            have : view fs ([w, "configs".toList, new] ++ [n]) = none := by
              by_contra h
              have hm := (FS.mem_listdir fs [w, "configs".toList, new] n).2 h
              rw [hl.2] at hm; cases hm
            exact tree_none_below htree this tail
          · cases hx
        · cases hok

/-- Two configurations in a workspace. -/
def twoConfigs : FS :=
  [([], .dir), (["w".toList], .dir), (["w".toList, "configs".toList], .dir),
   (["w".toList, "configs".toList, "a".toList], .dir),
   (["w".toList, "configs".toList, "a".toList, "CHD.json".toList], .file "1".toList),
   (["w".toList, "configs".toList, "b".toList], .dir),
   (["w".toList, "configs".toList, "b".toList, "CHD.json".toList], .file "2".toList)]

/-- Renaming onto the other one is refused, to a free name it works. -/
example : (∃ e, renameConfig twoConfigs "w".toList "a".toList "b".toList = (.error e, twoConfigs)) ∧
    (renameConfig twoConfigs "w".toList "a".toList "c".toList).1 = .ok () ∧
    (copyConfig twoConfigs "w".toList "a".toList "c".toList).1 = .ok () ∧
    (deleteConfig twoConfigs "w".toList "a".toList).1 = .ok () :=
  ⟨⟨_, rfl⟩, by decide +kernel, by decide +kernel, by decide +kernel⟩

/-! ## C12 -/

/-- **C12.**  Whenever creating, deleting, copying or renaming a workspace, or deleting, copying or
renaming a configuration, or selecting one, fails, nothing has changed — for every argument and every
file system. -/
theorem failing_operation_changes_nothing (t : Templates) (fs : FS) (op : MgrOp)
    (hop : ∀ w c, op ≠ .createCfg w c) (e : PyErr) (h : (mgr t fs op).1 = .error e) :
    (mgr t fs op).2 = fs := by
  cases op with
  | createCfg w c => exact absurd rfl (hop w c)
  | createWs w =>
    simp only [mgr] at h ⊢
    unfold createWorkspace at h ⊢
    split
    · rfl
    · rename_i h1
      rw [if_neg h1] at h
      split
      · rfl
      · rename_i h2
        rw [if_neg h2] at h
        unfold ensureDir at h ⊢
        split
        · rfl
        · rename_i h3
          rw [if_neg h3] at h
          split
          · rename_i fs' h4
            rw [h4] at h; cases h
          · rfl
  | deleteWs w =>
    simp only [mgr] at h ⊢
    rcases deleteWorkspace_cases fs w with h1 | h1
    · exact h1.2.1
    · rw [h1.1] at h; cases h
  | copyWs w new =>
    simp only [mgr] at h ⊢
    unfold copyWorkspace copytreeChecked at h ⊢
    split
    · rfl
    · rename_i h1
      rw [if_neg h1] at h
      split
      · rename_i h2
        rw [if_pos h2] at h
        split
        · rfl
        · rename_i h3
          rw [if_neg h3] at h
          split
          · rfl
          · rename_i h4
            rw [if_neg h4] at h; cases h
      · rfl
  | renameWs w new =>
    simp only [mgr] at h ⊢
    unfold renameWorkspace at h ⊢
    split
    · rfl
    · rename_i h1
      rw [if_neg h1] at h
      split
      · rfl
      · rename_i h2
        rw [if_neg h2] at h
        split
        · rename_i h3
          rw [if_pos h3] at h
          split
          · rename_i fs' h4
            rw [h4] at h; cases h
          · rfl
        · rfl
  | deleteCfg w c =>
    simp only [mgr] at h ⊢
    rcases deleteConfig_cases fs w c with h1 | h1
    · exact h1.2
    · rw [h1.1] at h; cases h
  | copyCfg w c new =>
    simp only [mgr] at h ⊢
    unfold copyConfig copytreeChecked at h ⊢
    split
    · rfl
    · rename_i h1
      rw [if_neg h1] at h
      split
      · rfl
      · rename_i h2
        rw [if_neg h2] at h
        split
        · rfl
        · rename_i h3
          rw [if_neg h3] at h
          split
          · rfl
          · rename_i h4
            rw [if_neg h4] at h; cases h
  | renameCfg w c new =>
    simp only [mgr] at h ⊢
    unfold renameConfig at h ⊢
    split
    · rfl
    · rename_i h1
      rw [if_neg h1] at h
      split
      · rfl
      · rename_i h2
        rw [if_neg h2] at h
        split
        · rename_i fs' h4
          rw [h4] at h; cases h
        · rfl
  | setCfg w c =>
    simp only [mgr] at h ⊢
    unfold setCurrentConfig at h ⊢
    split
    · rfl
    · rename_i h1
      rw [if_neg h1] at h
      split
      · rfl
      · rename_i h2
        rw [if_neg h2] at h
        rcases writeline_cases fs (cfgMarker w) c with h3 | h3
        · rw [h3.1] at h; cases h
        · exact h3.2.1

/-- **C12, which arguments fail.**  A missing source, or a taken target of a copy, is always reported as
an error. -/
theorem missing_or_taken_names_fail (t : Templates) (fs : FS) (w new c : Name) :
    (view fs (comp w) = none →
      (∃ e, (deleteWorkspace fs w).1 = .error e) ∧ (∃ e, (copyWorkspace fs w new).1 = .error e) ∧
      (∃ e, (renameWorkspace fs w new).1 = .error e) ∧ (∃ e, (createConfig fs w c t).1 = .error e) ∧
      (∃ e, (deleteConfig fs w c).1 = .error e) ∧ (∃ e, (copyConfig fs w c new).1 = .error e) ∧
      (∃ e, (renameConfig fs w c new).1 = .error e) ∧ (∃ e, (setCurrentConfig fs w c).1 = .error e)) ∧
    (view fs (comp new) ≠ none → view fs [] ≠ none → ∃ e, (copyWorkspace fs w new).1 = .error e) ∧
    (view fs (cfgPath w c) = none →
      (∃ e, (deleteConfig fs w c).1 = .error e) ∧ (∃ e, (copyConfig fs w c new).1 = .error e) ∧
      (∃ e, (renameConfig fs w c new).1 = .error e) ∧ (∃ e, (setCurrentConfig fs w c).1 = .error e)) ∧
    (view fs (cfgPath w new) ≠ none → ∃ e, (copyConfig fs w c new).1 = .error e) := by
  refine ⟨?_, ?_, ?_, ?_⟩
  · intro h
    have hn : ¬ fs.exists? (wsPath w) = true := by
      rw [FS.exists?_iff, not_not]; exact h
    refine ⟨?_, ?_, ?_, ?_, ?_, ?_, ?_, ?_⟩
    · unfold deleteWorkspace; rw [if_pos hn]; exact ⟨_, rfl⟩
    · unfold copyWorkspace; rw [if_pos hn]; exact ⟨_, rfl⟩
    · unfold renameWorkspace; rw [if_pos hn]; exact ⟨_, rfl⟩
    · unfold createConfig; rw [if_pos hn]; exact ⟨_, rfl⟩
    · unfold deleteConfig; rw [if_pos hn]; exact ⟨_, rfl⟩
    · unfold copyConfig; rw [if_pos hn]; exact ⟨_, rfl⟩
    · unfold renameConfig; rw [if_pos hn]; exact ⟨_, rfl⟩
    · unfold setCurrentConfig; rw [if_pos hn]; exact ⟨_, rfl⟩
  · intro h hroot
    have hn : fs.exists? (wsPath new) = true := (FS.exists?_iff _ _).2 h
    unfold copyWorkspace copytreeChecked
    rw [if_pos ((FS.exists?_iff fs []).2 hroot), if_pos hn]
    split
    · exact ⟨_, rfl⟩
    · split <;> exact ⟨_, rfl⟩
  · intro h
    have hn : ¬ fs.exists? (cfgPath w c) = true := by
      rw [FS.exists?_iff, not_not]; exact h
    refine ⟨?_, ?_, ?_, ?_⟩
    · unfold deleteConfig; rw [if_pos hn]; split <;> exact ⟨_, rfl⟩
    · unfold copyConfig; rw [if_pos hn]; split <;> exact ⟨_, rfl⟩
    · unfold renameConfig; rw [if_pos hn]; split <;> exact ⟨_, rfl⟩
    · unfold setCurrentConfig; rw [if_pos hn]; split <;> exact ⟨_, rfl⟩
  · intro h
    have hn : fs.exists? (cfgPath w new) = true := (FS.exists?_iff _ _).2 h
    unfold copyConfig copytreeChecked
    rw [if_pos hn]
    split
    · exact ⟨_, rfl⟩
    · split
      · exact ⟨_, rfl⟩
      · split <;> exact ⟨_, rfl⟩

/-- **C12 for `create_config`.**  A missing workspace or an existing (non-empty) configuration is an
error that changes nothing. -/
theorem create_config_missing_or_taken_changes_nothing (t : Templates) (fs : FS) (w c : Name)
    (h : view fs (comp w) = none ∨
      (view fs (cfgPath w c) = some .dir ∧ ∃ n, view fs (cfgPath w c ++ [n]) ≠ none)) :
    ∃ e, createConfig fs w c t = (.error e, fs) := by
  unfold createConfig
  split
  · exact ⟨_, rfl⟩
  · rename_i h1
    rw [not_not, FS.exists?_iff] at h1
    rcases h with h | ⟨hd, n, hn⟩
    · exact absurd h h1
    · rw [if_pos]
      · exact ⟨_, rfl⟩
      · unfold configExists
        rw [Bool.and_eq_true, FS.isDir_iff]
        refine ⟨hd, ?_⟩
        have : n ∈ fs.listdir (cfgPath w c) := (FS.mem_listdir _ _ _).2 hn
        cases hl : fs.listdir (cfgPath w c) with
        | nil => rw [hl] at this; cases this
        | cons a l => rfl

example : ∃ e, mgr ⟨[], [], []⟩ twoWorkspaces (.copyWs "a".toList "b".toList) = (.error e, twoWorkspaces) :=
  ⟨_, rfl⟩

/-! ## C13 -/

/-- **C13 (`_partial`: non-empty names).**  Whatever the outcome, deleting a workspace with a non-empty
name keeps the workspaces directory and every other workspace.  Missing: the empty name, for which
the claim is false (`delete_empty_name_violated`). -/
theorem delete_confined_partial (fs : FS) (w : Name) (hw : w ≠ []) :
    view (deleteWorkspace fs w).2 [] = view fs [] ∧
    ∀ n tail, n ≠ w → view (deleteWorkspace fs w).2 (n :: tail) = view fs (n :: tail) := by
  constructor
  · refine only_deleteWorkspace fs w [] ?_
    rw [wsPath, comp_plain hw]
    intro h
    have := h.length_le
    simp at this
  · intro n tail hn
    refine only_deleteWorkspace fs w _ ?_
    rw [wsPath, comp_plain hw]
    intro h
    rw [List.cons_prefix_cons] at h
    exact hn h.1.symm

/-- **C13 is violated**: `delete_workspace('')` is accepted and removes every workspace and the
workspaces directory itself. -/
theorem delete_empty_name_violated :
    ∃ fs', deleteWorkspace twoWorkspaces [] = (.ok (), fs') ∧ ∀ r, view fs' r = none :=
  ⟨[], rfl, fun _ => rfl⟩

/-! ## C09 -/

/-- **C09 (names without line breaks), read back.**  After the current workspace was set, reading it gives
exactly that name. -/
theorem current_round_trip_partial (fs fs' : FS) (n : Name) (h1 : '\n' ∉ n) (h2 : '\r' ∉ n)
    (hok : setCurrent fs n = (.ok (), fs')) : getCurrent fs' = some n := by
  unfold setCurrent at hok
  split at hok
  · cases hok
  · rcases writeline_cases fs [currentFile] n with h | h
    · rw [hok] at h
      refine getCurrent_eq.2 ⟨n, ?_, firstLine_eq n h1 h2⟩
      rw [h.2.2.2, if_pos rfl]
    · rw [hok] at h
      obtain ⟨⟨e, he⟩, -⟩ := h
      cases he

/-- **C09, later history.**  It stays so under any later sequence of manager calls on workspaces and
configurations with non-empty names other than `.current`, failing or not. -/
theorem current_stays (t : Templates) (fs : FS) (ops : List MgrOp)
    (hops : ∀ op ∈ ops, ∀ w ∈ op.workspaces, w ≠ [] ∧ w ≠ ".current".toList) :
    getCurrent (mgrSession t fs ops) = getCurrent fs := by
  induction ops generalizing fs with
  | nil => rfl
  | cons op ops ih =>
    rw [mgrSession, ih _ (fun o ho => hops o (List.mem_cons_of_mem _ ho))]
    have hop := hops op List.mem_cons_self
    have hv : view (mgr t fs op).2 [currentFile] = view fs [currentFile] :=
      other_workspaces_untouched t fs op (fun w hw => (hop w hw).1) currentFile
        (fun h => (hop _ h).2 rfl) []
    unfold getCurrent readline
    unfold view at hv
    rw [hv]

/-- **C09 for configurations, read back.** -/
theorem current_config_round_trip_partial (fs fs' : FS) (w n : Name) (hw : w ≠ [])
    (h1 : '\n' ∉ n) (h2 : '\r' ∉ n) (hok : setCurrentConfig fs w n = (.ok (), fs')) :
    getCurrentConfig fs' w = .ok (some n) := by
  unfold setCurrentConfig at hok
  split at hok
  · cases hok
  · rename_i hex
    split at hok
    · cases hok
    · rcases writeline_cases fs (cfgMarker w) n with h | h
      · rw [hok] at h
        have hcw : cfgMarker w = [w, configsDir, currentFile] := by
          unfold cfgMarker; rw [comp_plain hw]; rfl
        have hws : view fs' (wsPath w) ≠ none := by
          rw [wsPath, comp_plain hw, h.2.2.2, hcw, if_neg (by simp)]
          rw [not_not, FS.exists?_iff, wsPath, comp_plain hw] at hex
          exact hex
        unfold getCurrentConfig
        rw [if_neg (by rw [not_not, FS.exists?_iff]; exact hws)]
        congr 1
        refine readline_eq.2 ⟨n, ?_, firstLine_eq n h1 h2⟩
        rw [h.2.2.2, if_pos rfl]
      · rw [hok] at h
        obtain ⟨⟨e, he⟩, -⟩ := h
        cases he

/-- **C09 is violated for names with a line break**: such a workspace can be created and selected, but a
different name is read back. -/
theorem current_round_trip_violated :
    ∃ (fs fs' : FS) (n : Name), setCurrent fs n = (.ok (), fs') ∧ getCurrent fs' ≠ some n :=
  ⟨(createWorkspace [] "a\nb".toList).2, _, "a\nb".toList, rfl, by decide +kernel⟩

example : (mgrSession ⟨[], [], []⟩ (setCurrent twoWorkspaces "a".toList).2
    [.deleteWs "b".toList, .copyWs "a".toList "c".toList, .createCfg "c".toList "x".toList,
     .deleteWs "nope".toList] |> getCurrent) = some "a".toList := by decide +kernel

end Dedop.Workspace
