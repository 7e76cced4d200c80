import Verif.Workspace.CrashLemmas

/-!
# Interrupted commands (C116–C118)

`duringMgr t fs op g`, `duringWs fs c g`: the call or command, started in `fs`, may leave `g` when it is
killed (`Verif.Workspace.Crash`).
-/
namespace Dedop.Workspace
open Dedop.Names

/-! ## C116: only what was named -/

/-- **C116, other workspaces.**  Wherever a call of the manager is killed, every file and directory of
every workspace it does not name is as it was. -/
theorem interrupted_confined (t : Templates) (fs g : FS) (op : MgrOp) (h : duringMgr t fs op g)
    (hne : ∀ w ∈ op.workspaces, w ≠ []) (n : Name) (hn : n ∉ op.workspaces) (tail : Path) :
    view g (n :: tail) = view fs (n :: tail) := by
  refine only_duringMgr h _ ?_
  cases op with
  | createWs w =>
    have hw := hne w (by simp [MgrOp.workspaces])
    rintro ⟨h, -⟩
    rw [wsPath, comp_plain hw, List.cons_prefix_cons] at h
    exact hn (by simp [MgrOp.workspaces, h.1])
  | deleteWs w =>
    have hw := hne w (by simp [MgrOp.workspaces])
    intro h
    simp only [MgrOp.reach] at h
    rw [wsPath, comp_plain hw, List.cons_prefix_cons] at h
    exact hn (by simp [MgrOp.workspaces, h.1])
  | copyWs w new =>
    have hw := hne new (by simp [MgrOp.workspaces])
    intro h
    simp only [MgrOp.reach] at h
    rw [wsPath, comp_plain hw, List.cons_prefix_cons] at h
    exact hn (by simp [MgrOp.workspaces, h.1])
  | renameWs w new =>
    have hw := hne w (by simp [MgrOp.workspaces])
    have hw' := hne new (by simp [MgrOp.workspaces])
    intro h
    simp only [MgrOp.reach] at h
    rw [wsPath, wsPath, comp_plain hw, comp_plain hw', List.cons_prefix_cons, List.cons_prefix_cons] at h
    rcases h with h | h
    · exact hn (by simp [MgrOp.workspaces, h.1])
    · exact hn (by simp [MgrOp.workspaces, h.1])
  | createCfg w c =>
    have hw := hne w (by simp [MgrOp.workspaces])
    have hnw : n ≠ w := fun h => hn (by simp [MgrOp.workspaces, h])
    have hcw : cfgPath w c = w :: ([configsDir] ++ comp c) := by
      unfold cfgPath; rw [comp_plain hw]; rfl
    intro h
    simp only [MgrOp.reach] at h
    rw [hcw] at h
    rcases h with ⟨h, -⟩ | h | h | h
    · rw [List.cons_prefix_cons] at h; exact hnw h.1
    all_goals
      rw [List.cons_append, List.cons.injEq] at h
      exact hnw h.1
  | deleteCfg w c =>
    have hw := hne w (by simp [MgrOp.workspaces])
    exact fun h => hn (by simp [MgrOp.workspaces, cfgPath_head hw h])
  | copyCfg w c new =>
    have hw := hne w (by simp [MgrOp.workspaces])
    exact fun h => hn (by simp [MgrOp.workspaces, cfgPath_head hw h])
  | renameCfg w c new =>
    have hw := hne w (by simp [MgrOp.workspaces])
    rintro (h | h)
    · exact hn (by simp [MgrOp.workspaces, cfgPath_head hw h])
    · exact hn (by simp [MgrOp.workspaces, cfgPath_head hw h])
  | setCfg w c =>
    have hw := hne w (by simp [MgrOp.workspaces])
    intro h
    simp only [MgrOp.reach] at h
    unfold cfgMarker at h
    rw [comp_plain hw, List.singleton_append, List.cons.injEq] at h
    exact hn (by simp [MgrOp.workspaces, h.1])

/-- The calls that make something new: they have nothing to remove. -/
def MgrOp.creates : MgrOp → Bool
  | .createWs _ | .copyWs _ _ | .createCfg _ _ | .copyCfg _ _ _ | .setCfg _ _ => true
  | _ => false

theorem free_below {fs : FS} (ht : IsTree (view fs)) {q r : Path} (hq : fs.exists? q = false) (hr : q <+: r) :
    view fs r = none := by
  obtain ⟨s, rfl⟩ := hr
  refine tree_none_below ht ?_ s
  by_contra h
  rw [(FS.exists?_iff fs q).2 h] at hq
  cases hq

/-- **C116, nothing is lost.**  Wherever a call that creates or selects something is killed, everything that
existed is as it was (the marker of the current configuration apart). -/
theorem interrupted_creation_keeps (t : Templates) (fs g : FS) (ht : IsTree (view fs)) (op : MgrOp)
    (hop : op.creates = true) (h : duringMgr t fs op g) (r : Path) (hr : view fs r ≠ none)
    (hm : ∀ w c, op = .setCfg w c → r ≠ cfgMarker w) : view g r = view fs r := by
  cases op with
  | createWs w => exact only_duringMgr h r (fun h1 => hr h1.2)
  | copyWs w new =>
    simp only [duringMgr, duringCopyWorkspace] at h
    split at h
    · subst h; rfl
    split at h
    · rcases h with rfl | ⟨-, h1, h2, -⟩
      · rfl
      · exact h2 r (fun h3 => hr (free_below ht h1 h3))
    · subst h; rfl
  | createCfg w c =>
    have hno : view fs (cfgPath w c ++ [chdFile]) = none ∧ view fs (cfgPath w c ++ [cnfFile]) = none ∧
        view fs (cfgPath w c ++ [cstFile]) = none ∨ g = fs := by
      simp only [duringMgr, duringCreateConfig] at h
      split at h
      · exact .inr h
      split at h
      · exact .inr h
      rename_i h1 h2
      have hnone : ∀ f, view fs (cfgPath w c ++ [f]) = none := by
        intro f
        by_contra hf
        apply h2
        unfold configExists
        rw [(FS.isDir_iff fs _).2 (ht _ f hf), Bool.true_and, Bool.not_eq_true', List.isEmpty_eq_false_iff]
        intro h3
        have := (FS.mem_listdir fs (cfgPath w c) f).2 hf
        rw [h3] at this
        cases this
      exact .inl ⟨hnone _, hnone _, hnone _⟩
    rcases hno with ⟨h1, h2, h3⟩ | rfl
    · refine only_duringMgr h r ?_
      rintro (⟨-, h4⟩ | rfl | rfl | rfl)
      · exact hr h4
      · exact hr h1
      · exact hr h2
      · exact hr h3
    · rfl
  | copyCfg w c new =>
    simp only [duringMgr, duringCopyConfig] at h
    split at h
    · subst h; rfl
    split at h
    · subst h; rfl
    · rcases h with rfl | ⟨-, h1, h2, -⟩
      · rfl
      · exact h2 r (fun h3 => hr (free_below ht h1 h3))
  | setCfg w c => exact only_duringMgr h r (fun h1 => hm w c rfl h1)
  | deleteWs w => cases hop
  | renameWs w new => cases hop
  | deleteCfg w c => cases hop
  | renameCfg w c new => cases hop

/-- **C116, renaming.**  Wherever renaming a workspace to a free name is killed, all of it is either still under
the old name or already under the new one. -/
theorem interrupted_rename_keeps (t : Templates) (fs g : FS) (ht : IsTree (view fs)) (w new : Name) (hw : w ≠ [])
    (hn : new ≠ []) (hex : view fs [w] ≠ none) (hfree : view fs [new] = none) (h : duringMgr t fs (.renameWs w new) g) :
    (∀ tail, view g (w :: tail) = view fs (w :: tail)) ∨ (∀ tail, view g (new :: tail) = view fs (w :: tail)) := by
  rcases h with rfl | rfl
  · exact .inl (fun _ => rfl)
  · obtain ⟨fs', h1, h2, -⟩ := rename_exact_partial fs ht w new hw hn hex hfree
    rw [h1]
    exact .inr h2

/-- **C116, removing.**  What a killed removal has left of the workspace is as it was. -/
theorem interrupted_removal_keeps (t : Templates) (fs g : FS) (w : Name) (h : duringMgr t fs (.deleteWs w) g) (r : Path)
    (hr : view g r ≠ none) : view g r = view fs r := by
  simp only [duringMgr, duringDeleteWorkspace] at h
  split at h
  · subst h; rfl
  split at h
  · obtain ⟨D, -, -, rfl⟩ := h
    have hg : view (fs.filter (fun e => !D e.1)) r = if (!D r) then view fs r else none := FS.get?_filter fs (fun q => !D q) r
    rw [hg] at hr ⊢
    split
    · rfl
    · rename_i h1; rw [if_neg h1] at hr; exact absurd rfl hr
  · subst h; rfl

/-- A workspaces directory with a current workspace `a` and another one. -/
def crashExample : FS :=
  [([], .dir), ([".current".toList], .file "a".toList), (["a".toList], .dir), (["a".toList, "f".toList], .file "1".toList),
   (["b".toList], .dir)]

/-- The hypotheses are met by a copy that was killed after half of a file, and by a removal killed after the file. -/
example : IsTree (view crashExample) ∧
    duringMgr ⟨[], [], []⟩ crashExample (.deleteWs "a".toList)
      [([], .dir), ([".current".toList], .file "a".toList), (["a".toList], .dir), (["b".toList], .dir)] := by
  constructor
  · intro p n h
    have hm : ∀ e ∈ crashExample, e.1 = [] ∨ Dict.get? crashExample e.1.dropLast = some .dir := by decide +kernel
    obtain ⟨e, he⟩ := Option.ne_none_iff_exists'.1 h
    rcases hm _ (FS.mem_of_get? he) with h1 | h1
    · simp at h1
    · rw [List.dropLast_concat] at h1; exact h1
  · simp only [duringMgr, duringDeleteWorkspace]
    rw [if_neg (by decide), if_pos (by decide)]
    refine ⟨fun r => decide (["a".toList, "f".toList] <+: r), ?_, ?_, by decide +kernel⟩
    · intro r hr
      simp only [decide_eq_true_eq] at hr
      exact List.IsPrefix.trans ⟨["f".toList], rfl⟩ hr
    · intro r r' h1 h2
      simp only [decide_eq_true_eq] at h1 ⊢
      exact h1.trans h2

/-! ## C117: the current workspace -/

theorem not_current {n : Name} (h : Plain n) : n ≠ currentFile := by
  rintro rfl
  exact current_not_plain h

theorem notDangling_writeline {fs g : FS} (hi : Inv fs) {w : Name} (hw : w = [] ∨ Plain w) (h : duringSetCurrent fs w g) :
    NotDangling (view g) [] := by
  unfold duringSetCurrent at h
  split at h
  · subst h; exact hi.2 [] (.inl rfl)
  rename_i h1
  rw [not_not] at h1
  have hd : w = [] ∨ view fs [w] = some .dir := by
    rcases hw with rfl | hw
    · exact .inl rfl
    · right
      rw [wsPath, comp_plain hw.1, FS.exists?_iff] at h1
      exact dir_of_exists hi.1 (.inl rfl) hw h1
  have hmark : ∀ s, (s = [] ∨ s = w) → fs.write [currentFile] s = .ok g → NotDangling (view g) [] := by
    intro s hs hwr u hu
    have hg := fun r => FS.write_ok hwr r
    have hu' : some (Entry.file s) = some (.file u) := by
      rw [← hu]
      show _ = Dict.get? g _
      rw [hg]; rfl
    cases hu'
    rcases hs with rfl | rfl
    · exact .inl rfl
    · rw [firstLine_plain hw]
      rcases hd with rfl | hd
      · exact .inl rfl
      · right
        show Dict.get? g _ = _
        rw [hg, if_neg]
        · exact hd
        · intro h2
          have h3 : [s] = [currentFile] := h2
          have h4 : s = currentFile := by simpa using h3
          rw [h4] at hd
          exact marker_not_dir hi.1 (.inl rfl) hd
  rcases h with rfl | h | h
  · exact hi.2 [] (.inl rfl)
  · exact hmark [] (.inl rfl) h
  · exact hmark w (.inr rfl) h

/-- If the marker and the directory it names are as before, the marker still names a directory. -/
theorem notDangling_same {fs g : FS} (h : NotDangling (view fs) []) (h1 : view g [currentFile] = view fs [currentFile])
    (h2 : ∀ w, getCurrent fs = some w → view fs [w] = some .dir → view g [w] = some .dir) : NotDangling (view g) [] := by
  intro s hs
  have hs' : view fs [currentFile] = some (.file s) := by rw [← h1]; exact hs
  rcases h s hs' with h3 | h3
  · exact .inl h3
  · exact .inr (h2 _ (getCurrent_eq.2 ⟨s, hs', rfl⟩) h3)

theorem creation_notDangling {t : Templates} {fs g : FS} (hi : Inv fs) {op : MgrOp} (hop : op.creates = true)
    (hs : ∀ w c, op ≠ .setCfg w c) (hc : ¬ op.reach fs [currentFile]) (h : duringMgr t fs op g) :
    NotDangling (view g) [] := by
  refine notDangling_same (hi.2 [] (.inl rfl)) (only_duringMgr h _ hc) ?_
  intro w _ hw
  rw [interrupted_creation_keeps t fs g hi.1.1 op hop h [w] (by rw [hw]; simp) (fun w c h => absurd h (hs w c))]
  exact hw

/-- **C117**, the part that holds: killed anywhere, the commands `add`, `copy` and `current`, and `remove` and `rename` of a
workspace that is not the current one, leave a current workspace that exists, or none. -/
theorem interrupted_current_partial (fs g : FS) (hi : Inv fs) (c : WsCmd) (hp : c.PlainNames) (h : duringWs fs c g)
    (hc : ∀ w, (c = .remove w ∨ ∃ new, c = .rename w new) → getCurrent fs ≠ some (argOrCurrent fs w)) :
    NotDangling (view g) [] := by
  cases c with
  | add w =>
    simp only [duringWs, thenDuring] at h
    rcases h with h | h
    · refine creation_notDangling (t := ⟨[], [], []⟩) hi (op := .createWs w) rfl (by simp) ?_ h
      rintro ⟨h1, -⟩
      rcases hp with rfl | hp
      · simp [wsPath, comp] at h1
      · rw [wsPath, comp_plain hp.1, List.cons_prefix_cons] at h1
        exact not_current hp h1.1.symm
    · rcases hcr : createWorkspace fs w with ⟨r, fs1⟩
      rw [hcr] at h
      cases r with
      | error e => exact h.elim
      | ok u =>
        have h1 := inv_createWorkspace hi hp
        rw [hcr] at h1
        exact notDangling_writeline h1 hp h
  | remove w =>
    have hcur := hc w (.inl rfl)
    simp only [duringWs] at h
    have hap := argOrCurrent_plain hi hp
    generalize hw' : argOrCurrent fs w = w' at h hcur hap
    split at h
    · subst h; exact hi.2 [] (.inl rfl)
    rename_i hne
    have hpl : Plain w' := hap.resolve_left hne
    have hpath : wsPath w' = [w'] := by rw [wsPath, comp_plain hne]
    have key : ∀ g, Only fs g (fun r => wsPath w' <+: r) → NotDangling (view g) [] := by
      intro g hg
      refine notDangling_same (hi.2 [] (.inl rfl)) (hg _ ?_) ?_
      · dsimp only
        rw [hpath, List.cons_prefix_cons]
        rintro ⟨h1, -⟩
        exact not_current hpl h1
      · intro x hx hd
        rw [hg, hd]
        dsimp only
        rw [hpath, List.cons_prefix_cons]
        rintro ⟨rfl, -⟩
        exact hcur hx
    rcases h with h | h
    · exact key g (only_duringMgr (t := ⟨[], [], []⟩) (op := .deleteWs w') h)
    · have h1 := only_deleteWorkspace fs w'
      rcases hcr : deleteWorkspace fs w' with ⟨r, fs1⟩
      rw [hcr] at h h1
      cases r with
      | error e => exact h.elim
      | ok u =>
        dsimp only at h
        rw [if_neg] at h
        · subst h; exact key _ h1
        · intro h2
          apply hcur
          rw [getCurrent_eq] at h2 ⊢
          obtain ⟨s, h3, h4⟩ := h2
          refine ⟨s, ?_, h4⟩
          rw [← h3]
          refine (h1 _ ?_).symm
          dsimp only
          rw [hpath, List.cons_prefix_cons]
          rintro ⟨h5, -⟩
          exact not_current hpl h5
  | copy w new =>
    simp only [duringWs] at h
    have hap := argOrCurrent_plain hi hp.1
    generalize hw' : argOrCurrent fs w = w' at h hap
    split at h
    · subst h; exact hi.2 [] (.inl rfl)
    rename_i hne
    have hpl : Plain w' := hap.resolve_left hne
    have hb : Plain (if new = [] then w' ++ "_1".toList else new) := by
      split
      · exact plain_append hpl (by decide) (by decide)
      · rename_i h1; exact hp.2.resolve_left h1
    rcases cliUnique_spec hi.1 (.inr hb) with h1 | h1
    · exact absurd h1.1 hb.1
    · refine creation_notDangling (t := ⟨[], [], []⟩) hi
        (op := .copyWs w' (cliUnique fs (if new = [] then w' ++ "_1".toList else new))) rfl (by simp) ?_ h
      show ¬ (wsPath _ <+: _)
      rw [wsPath, comp_plain h1.1.1, List.cons_prefix_cons]
      rintro ⟨h2, -⟩
      exact not_current h1.1 h2
  | rename w new =>
    have hcur := hc w (.inr ⟨new, rfl⟩)
    simp only [duringWs] at h
    have hap := argOrCurrent_plain hi hp.1
    generalize hw' : argOrCurrent fs w = w' at h hcur hap
    split at h
    · subst h; exact hi.2 [] (.inl rfl)
    rename_i hne
    have hpl : Plain w' := hap.resolve_left hne
    have hpath : wsPath w' = [w'] := by rw [wsPath, comp_plain hne]
    rcases cliUnique_spec hi.1 hp.2 with h1 | h1
    · rw [h1.2] at h
      have hr : (renameWorkspace fs w' []).2 = fs ∧ ∀ u, (renameWorkspace fs w' []).1 ≠ .ok u := by
        unfold renameWorkspace
        split
        · exact ⟨rfl, by simp⟩
        · simp
      rcases h with h | h
      · rcases h with rfl | rfl
        · exact hi.2 [] (.inl rfl)
        · rw [hr.1]; exact hi.2 [] (.inl rfl)
      · rcases hcr : renameWorkspace fs w' [] with ⟨r, fs1⟩
        rw [hcr] at h hr
        cases r with
        | error e => exact h.elim
        | ok u => exact absurd rfl (hr.2 u)
    · obtain ⟨hpn, hfree⟩ := h1
      generalize cliUnique fs new = new' at h hpn hfree
      have hnp : wsPath new' = [new'] := by rw [wsPath, comp_plain hpn.1]
      have hmark : ¬ (wsPath w' <+: [currentFile] ∨ wsPath new' <+: [currentFile]) := by
        rw [hpath, hnp, List.cons_prefix_cons, List.cons_prefix_cons]
        rintro (⟨h5, -⟩ | ⟨h5, -⟩)
        · exact not_current hpl h5
        · exact not_current hpn h5
      have key : ∀ g, Only fs g (fun r => wsPath w' <+: r ∨ wsPath new' <+: r) → NotDangling (view g) [] := by
        intro g hg
        refine notDangling_same (hi.2 [] (.inl rfl)) (hg _ hmark) ?_
        intro x hx hd
        rw [hg, hd]
        dsimp only
        rw [hpath, hnp, List.cons_prefix_cons, List.cons_prefix_cons]
        rintro (⟨rfl, -⟩ | ⟨rfl, -⟩)
        · exact hcur hx
        · rw [hfree] at hd; cases hd
      rcases h with h | h
      · exact key g (only_duringMgr (t := ⟨[], [], []⟩) (op := .renameWs w' new') h)
      · have h1 := only_renameWorkspace fs w' new'
        rcases hcr : renameWorkspace fs w' new' with ⟨r, fs1⟩
        rw [hcr] at h h1
        cases r with
        | error e => exact h.elim
        | ok u =>
          dsimp only at h
          rw [if_neg] at h
          · subst h; exact key _ h1
          · intro h2
            apply hcur
            rw [getCurrent_eq] at h2 ⊢
            obtain ⟨s, h3, h4⟩ := h2
            exact ⟨s, by rw [← h3]; exact (h1 _ hmark).symm, h4⟩
  | current w =>
    simp only [duringWs] at h
    split at h
    · subst h; exact hi.2 [] (.inl rfl)
    · exact notDangling_writeline hi hp h

/-- **C117 is violated by removing and renaming the current workspace**, in every state that has one: killed between the
removal (renaming) and the new marker, the command leaves a marker with the name of a workspace that does not exist. -/
theorem interrupted_current_violated (fs : FS) (hi : Inv fs) (w : Name) (hw : Plain w) (hc : getCurrent fs = some w)
    (hd : view fs [w] = some .dir) :
    (∃ g, duringWs fs (.remove w) g ∧ getCurrent g = some w ∧ view g [w] = none) ∧
    (∀ new, Plain new → ∃ g, duringWs fs (.rename w new) g ∧ getCurrent g = some w ∧ view g [w] = none) := by
  have harg : argOrCurrent fs w = w := by unfold argOrCurrent; rw [if_pos hw.1]
  have hpath : wsPath w = [w] := by rw [wsPath, comp_plain hw.1]
  have hne : ¬ [w] <+: [currentFile] := by
    rw [List.cons_prefix_cons]
    rintro ⟨h5, -⟩
    exact not_current hw h5
  constructor
  · refine ⟨fs.rmtree [w], ?_, ?_, ?_⟩
    · simp only [duringWs, harg]
      rw [if_neg hw.1]
      left
      unfold duringDeleteWorkspace
      rw [hpath, if_neg (by rw [not_not, FS.exists?_iff]; show view fs [w] ≠ none; rw [hd]; simp),
        if_pos ((FS.isDir_iff _ _).2 hd)]
      exact during_rmtree_ends
    · obtain ⟨s, h1, h2⟩ := getCurrent_eq.1 hc
      refine getCurrent_eq.2 ⟨s, ?_, h2⟩
      rw [← h1]; exact only_rmtree fs [w] _ hne
    · show Dict.get? _ _ = none
      rw [FS.get?_rmtree, if_pos (List.prefix_refl _)]
  · intro new hn
    rcases cliUnique_spec hi.1 (.inr hn) with h1 | ⟨hpn, hfree⟩
    · exact absurd h1.1 hn.1
    · have hwn : w ≠ cliUnique fs new := by
        intro h; rw [← h, hd] at hfree; cases hfree
      obtain ⟨fs', h1, h2⟩ := renameWorkspace_free hi.1.1 hw.1 hpn.1 hwn (by rw [hd]; simp) hfree
      have hne2 : ¬ [cliUnique fs new] <+: [currentFile] := by
        rw [List.cons_prefix_cons]
        rintro ⟨h5, -⟩
        exact not_current hpn h5
      refine ⟨fs', ?_, ?_, ?_⟩
      · simp only [duringWs, harg]
        rw [if_neg hw.1]
        left
        right
        rw [h1]
      · obtain ⟨s, h3, h4⟩ := getCurrent_eq.1 hc
        refine getCurrent_eq.2 ⟨s, ?_, h4⟩
        rw [← h3, h2, if_neg hne2, if_neg hne]
      · rw [h2, if_neg, if_pos (List.prefix_refl _)]
        rw [List.cons_prefix_cons]
        rintro ⟨h5, -⟩
        exact hwn h5.symm

end Dedop.Workspace
