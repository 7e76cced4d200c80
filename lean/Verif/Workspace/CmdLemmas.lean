import Verif.Workspace.OpLemmas

namespace Dedop.Workspace
open Dedop.Names

theorem not_prefix_marker {v : Name} (hv : Plain v) : ¬ [v] <+: [currentFile] := by
  intro hp
  have h : v = currentFile := (List.cons_prefix_cons.1 hp).1
  subst h
  exact current_not_plain hv

theorem root_level : Level [] := Or.inl rfl

theorem view_root_of {fs : FS} (ht : Tidied (view fs)) {w : Name} (h : view fs [w] = some .dir) :
    view fs [] = some .dir := ht.1 [] w (by simpa using (by rw [h]; simp))

/-- The current marker is not touched by changes below other names. -/
theorem inv_cli_remove {fs : FS} (h : Inv fs) {w : Name} (hw : w = [] ∨ Plain w) :
    Inv (cliWs fs (.remove w)).2 := by
  simp only [cliWs]
  have hv := argOrCurrent_plain h hw
  generalize argOrCurrent fs w = v at hv
  split
  · exact h
  · rename_i hne
    have hv : Plain v := by rcases hv with h1 | h1 <;> [exact absurd h1 hne; exact h1]
    have hc := deleteWorkspace_cases fs v
    rcases hd : deleteWorkspace fs v with ⟨r, fs1⟩
    rw [hd] at hc
    rw [wsPath, comp_plain hne] at hc
    rcases hc with ⟨⟨e, he⟩, h2, -⟩ | ⟨he, hdir, hg⟩
    · simp only at he h2
      subst he; subst h2
      exact h
    · simp only at he hg
      subst he
      have hg' : ∀ r, view fs1 r = if ([] : Path) ++ [v] <+: r then none else view fs r := hg
      have ht1 : Tidied (view fs1) := tidied_remove (by simp) hg' h.1
      have hroot : view fs1 [] = some .dir := by
        rw [hg, if_neg (by simp)]; exact view_root_of h.1 hdir
      have hcur : view fs1 [currentFile] = view fs [currentFile] := by
        rw [hg, if_neg (not_prefix_marker hv)]
      simp only
      split
      · rename_i hcurv
        have hfb := fallback_mem (workspaceNames fs1)
        have hfp : fallback (workspaceNames fs1) = [] ∨
            view fs1 [fallback (workspaceNames fs1)] = some .dir := by
          rcases hfb with h1 | h1
          · exact Or.inl h1
          · exact Or.inr ((mem_workspaceNames ht1 _).1 h1)
        have hfn : fallback (workspaceNames fs1) = [] ∨ Plain (fallback (workspaceNames fs1)) := by
          rcases hfp with h1 | h1
          · exact Or.inl h1
          · exact Or.inr (plain_of_dir ht1 (b := []) root_level h1)
        unfold cliSetCurrent
        rcases setCurrent_cases ht1 hfn with h1 | h1
        · refine inv_marked root_level ht1 ?_ hroot hfn hfp h1.2.2.2
          intro c hc hcb
          exact notDangling_remove (b := []) hv hg' (h.2 c hc) (fun he => absurd he hcb)
        · exact absurd ⟨hroot, hfp⟩ h1.2.2
      · rename_i hcurv
        refine ⟨ht1, fun c hc => notDangling_remove (b := []) hv hg' (h.2 c hc) ?_⟩
        intro hcb s hs hfs
        exact hcurv (getCurrent_eq.2 ⟨s, by rw [hcur]; exact hs, hfs⟩)

theorem copyWorkspace_cases {fs : FS} (ht : IsTree (view fs)) {w new : Name} (hw : w ≠ [])
    (hn : new ≠ []) :
    ((copyWorkspace fs w new).2 = fs ∧
      ((∃ e, (copyWorkspace fs w new).1 = .error e))) ∨
    ((copyWorkspace fs w new).1 = .ok () ∧ view fs [w] = some .dir ∧ view fs [new] = none ∧
      ∀ r, view (copyWorkspace fs w new).2 r =
        if [new] <+: r then view fs ([w] ++ r.drop 1) else view fs r) := by
  unfold copyWorkspace
  rw [wsPath, wsPath, comp_plain hw, comp_plain hn]
  split
  · exact Or.inl ⟨rfl, _, rfl⟩
  · rename_i hex
    rw [not_not, FS.exists?_iff] at hex
    have hroot : view fs [] = some .dir := ht [] w hex
    rw [if_pos (by rw [FS.exists?_iff]; unfold view at hroot; rw [hroot]; simp)]
    rcases copytreeChecked_cases ht [w] [new] with h | h
    · exact Or.inl ⟨h.2, h.1⟩
    · exact Or.inr h

theorem inv_copyWorkspace {fs : FS} (h : Inv fs) {w new : Name} (hw : Plain w)
    (hn : new = [] ∨ Plain new) : Inv (copyWorkspace fs w new).2 := by
  rcases hn with rfl | hn
  · unfold copyWorkspace
    rw [wsPath, wsPath, comp_plain hw.1]
    split
    · exact h
    · split
      · rename_i h1
        unfold copytreeChecked
        rw [comp, if_pos rfl, if_pos h1]
        split <;> exact h
      · exact h
  · rcases copyWorkspace_cases h.1.1 hw.1 hn.1 with h1 | h1
    · rw [h1.1]; exact h
    · exact inv_copy h (b := []) root_level hw hn h1.2.1 h1.2.2.2

theorem inv_cli_copy {fs : FS} (h : Inv fs) {w new : Name} (hw : w = [] ∨ Plain w)
    (hn : new = [] ∨ Plain new) : Inv (cliWs fs (.copy w new)).2 := by
  simp only [cliWs]
  have hv := argOrCurrent_plain h hw
  generalize argOrCurrent fs w = v at hv
  split
  · exact h
  · rename_i hne
    have hv : Plain v := by rcases hv with h1 | h1 <;> [exact absurd h1 hne; exact h1]
    have hbase : Plain (if new = [] then v ++ "_1".toList else new) := by
      split
      · exact plain_append hv (by decide) (by decide)
      · rename_i h1
        rcases hn with h2 | h2
        · exact absurd h2 h1
        · exact h2
    rcases cliUnique_spec h.1 (Or.inr hbase) with h1 | h1
    · exact absurd h1.1 hbase.1
    · exact inv_copyWorkspace h hv (Or.inr h1.1)

theorem renameChecked_free {fs : FS} (ht : IsTree (view fs)) {p q : Path} (hq : view fs q = none)
    (hpq : p ≠ q) (hnp : ¬ p <+: q) :
    ∃ fs', renameChecked fs p q = .ok fs' ∧ ∀ r, view fs' r =
      if q <+: r then view fs (p ++ r.drop q.length)
      else if p <+: r then none else view fs r := by
  refine ⟨fs.rename p q, ?_, fun r => FS.get?_rename _ _ _ _ (tree_none_below ht hq)⟩
  unfold renameChecked
  rw [if_neg hpq, if_neg hnp]
  unfold view at hq
  rw [hq]

theorem renameWorkspace_free {fs : FS} (ht : IsTree (view fs)) {w new : Name} (hw : w ≠ [])
    (hn : new ≠ []) (hne : w ≠ new) (hsrc : view fs [w] ≠ none) (hq : view fs [new] = none) :
    ∃ fs', renameWorkspace fs w new = (.ok (), fs') ∧ ∀ r, view fs' r =
      if [new] <+: r then view fs ([w] ++ r.drop 1)
      else if [w] <+: r then none else view fs r := by
  have hroot : view fs [] = some .dir := ht [] w hsrc
  obtain ⟨fs', h1, h2⟩ := renameChecked_free (p := [w]) ht hq (by simpa using hne)
    (by simpa using hne)
  refine ⟨fs', ?_, h2⟩
  unfold renameWorkspace
  rw [wsPath, wsPath, comp_plain hw, comp_plain hn,
    if_neg (by rw [not_not, FS.exists?_iff]; exact hsrc), if_neg hn,
    if_pos (by rw [FS.exists?_iff]; unfold view at hroot; rw [hroot]; simp)]
  unfold moveChecked
  rw [if_neg (by rw [FS.isDir_iff]; unfold view at hq; rw [hq]; simp), h1]

theorem renameWorkspace_missing {fs : FS} {w new : Name} (hw : w ≠ []) (h : view fs [w] = none) :
    (renameWorkspace fs w new).2 = fs ∧ ∃ e, (renameWorkspace fs w new).1 = .error e := by
  unfold renameWorkspace
  rw [wsPath, comp_plain hw, if_pos (by rw [FS.exists?_iff]; unfold view at h; simp [h])]
  exact ⟨rfl, _, rfl⟩

theorem inv_cli_rename {fs : FS} (h : Inv fs) {w new : Name} (hw : w = [] ∨ Plain w)
    (hn : new = [] ∨ Plain new) : Inv (cliWs fs (.rename w new)).2 := by
  simp only [cliWs]
  have hv := argOrCurrent_plain h hw
  generalize argOrCurrent fs w = v at hv
  split
  · exact h
  · rename_i hne
    have hv : Plain v := by rcases hv with h1 | h1 <;> [exact absurd h1 hne; exact h1]
    rcases cliUnique_spec h.1 hn with h1 | h1
    · have : renameWorkspace fs v (cliUnique fs new) =
          (.error (.workspaceError "workspace does not exist"), fs) ∨
          renameWorkspace fs v (cliUnique fs new) =
          (.error (.workspaceError "missing the new workspace name"), fs) := by
        unfold renameWorkspace
        rw [h1.2]
        split
        · exact Or.inl rfl
        · rw [if_pos rfl]; exact Or.inr rfl
      rcases this with h2 | h2 <;> rw [h2] <;> exact h
    · generalize cliUnique fs new = u at h1
      by_cases hex : view fs [v] = none
      · have h2 := renameWorkspace_missing (new := u) hv.1 hex
        rcases hr : renameWorkspace fs v u with ⟨r, fs1⟩
        rw [hr] at h2
        obtain ⟨h3, e, h4⟩ := h2
        simp only at h3 h4
        subst h3; subst h4
        exact h
      · have hvu : v ≠ u := by rintro rfl; exact hex h1.2
        obtain ⟨fs1, hr, hg⟩ := renameWorkspace_free h.1.1 hv.1 h1.1.1 hvu hex h1.2
        rw [hr]
        have hsrc : view fs ([] ++ [v]) = some .dir := dir_of_exists h.1 root_level hv hex
        obtain ⟨ht1, hm1⟩ := tidied_rename (b := []) (g' := view fs1) root_level hv h1.1 hvu hsrc h.1 hg
        have hcur : view fs1 [currentFile] = view fs [currentFile] := by
          rw [hg, if_neg (not_prefix_marker h1.1), if_neg (not_prefix_marker hv)]
        have hroot : view fs1 [] = some .dir := by
          rw [hg, if_neg (by simp), if_neg (by simp)]; exact view_root_of h.1 hsrc
        have hnew : view fs1 [u] = some .dir := by
          rw [hg, if_pos (List.prefix_refl _)]; exact hsrc
        simp only
        split
        · unfold cliSetCurrent
          rcases setCurrent_cases ht1 (Or.inr h1.1) with h2 | h2
          · refine inv_marked root_level ht1 ?_ hroot (Or.inr h1.1) (Or.inr hnew) h2.2.2.2
            intro c hc hcb
            exact hm1 h.2 c hc (fun he => absurd he hcb)
          · exact absurd ⟨hroot, Or.inr hnew⟩ h2.2.2
        · rename_i hcurv
          refine ⟨ht1, fun c hc => hm1 h.2 c hc ?_⟩
          intro hcb s hs hfs
          exact hcurv (getCurrent_eq.2 ⟨s, by rw [hcur]; exact hs, hfs⟩)

theorem inv_cliWs {fs : FS} (h : Inv fs) (cmd : WsCmd) (hp : cmd.PlainNames) : Inv (cliWs fs cmd).2 := by
  cases cmd with
  | add w =>
    simp only [cliWs]
    have h1 := inv_createWorkspace h hp
    rcases hc : createWorkspace fs w with ⟨r, fs1⟩
    rw [hc] at h1
    cases r with
    | error e => exact h1
    | ok u => exact inv_setCurrent h1 hp
  | remove w => exact inv_cli_remove h hp
  | copy w new => exact inv_cli_copy h hp.1 hp.2
  | rename w new => exact inv_cli_rename h hp.1 hp.2
  | current w =>
    simp only [cliWs]
    split
    · exact h
    · exact inv_setCurrent h hp

/-! ## Configuration commands -/

theorem configsDir_eq : configsDir = "configs".toList := rfl

theorem cfgPath_plain {w c : Name} (hw : w ≠ []) (hc : c ≠ []) :
    cfgPath w c = [w, configsDir] ++ [c] := by
  unfold cfgPath; rw [comp_plain hw, comp_plain hc]; rfl

theorem inv_copyResource {fs : FS} (h : Inv fs) {w c f s : Name} (hw : Plain w) (hc : Plain c) :
    Inv (copyResource fs (cfgPath w c ++ [f]) s).2 := by
  rw [cfgPath_plain hw.1 hc.1]
  unfold copyResource
  rcases writeline_cases fs ([w, configsDir] ++ [c] ++ [f]) s with h1 | h1
  · obtain ⟨-, h2, h3, h4⟩ := h1
    exact ⟨tidied_file (w := w) (c := c) (f := f) (by
      have h5 : ([w, configsDir] ++ [c] ++ [f]).dropLast = [w, configsDir, c] := rfl
      rw [h5] at h2; exact h2) h3 h4 h.1,
      marked_file (w := w) (c := c) (f := f) h4 h.2⟩
  · rw [h1.2.1]; exact h

theorem inv_ensureDir_cfg {fs : FS} (h : Inv fs) {w c : Name} (hw : Plain w) (hc : Plain c) :
    Inv (ensureDir fs (cfgPath w c)).2 := by
  rw [cfgPath_plain hw.1 hc.1]
  unfold ensureDir
  split
  · exact h
  · split
    · rename_i fs' hm
      have hg := FS.makedirs_ok hm
      exact ⟨tidied_mkcfg hw hc hg h.1, marked_mkcfg hg h.2⟩
    · exact h

theorem inv_createConfig {fs : FS} (h : Inv fs) {w c : Name} (hw : Plain w) (hc : Plain c)
    (t : Templates) : Inv (createConfig fs w c t).2 := by
  unfold createConfig
  split
  · exact h
  · split
    · exact h
    · have h1 := inv_ensureDir_cfg h hw hc
      rcases he : ensureDir fs (cfgPath w c) with ⟨r, fs1⟩
      rw [he] at h1
      cases r with
      | error e => exact h1
      | ok u =>
        simp only
        have h2 := inv_copyResource h1 (f := chdFile) (s := t.chd) hw hc
        rcases he2 : copyResource fs1 (cfgPath w c ++ [chdFile]) t.chd with ⟨r2, fs2⟩
        rw [he2] at h2
        cases r2 with
        | error e => exact h2
        | ok u =>
          simp only
          have h3 := inv_copyResource h2 (f := cnfFile) (s := t.cnf) hw hc
          rcases he3 : copyResource fs2 (cfgPath w c ++ [cnfFile]) t.cnf with ⟨r3, fs3⟩
          rw [he3] at h3
          cases r3 with
          | error e => exact h3
          | ok u => exact inv_copyResource h3 (f := cstFile) (s := t.cst) hw hc

theorem argsOrCurrent_plain {fs : FS} (h : Inv fs) {w c v d : Name} (hw : w = [] ∨ Plain w)
    (hc : c = [] ∨ Plain c) (he : argsOrCurrent fs w c = .ok (v, d)) :
    (v = [] ∨ Plain v) ∧ (d = [] ∨ Plain d) ∧ (Plain c → d = c) := by
  unfold argsOrCurrent at he
  have hv := argOrCurrent_plain h hw
  generalize argOrCurrent fs w = u at hv he
  simp only at he
  split at he
  · rename_i hcond
    have hu : Plain u := by rcases hv with h1 | h1 <;> [exact absurd h1 hcond.1; exact h1]
    split at he
    · cases he
    · rename_i cur hcur
      simp only [Except.ok.injEq, Prod.mk.injEq] at he
      obtain ⟨rfl, rfl⟩ := he
      refine ⟨hv, ?_, fun hp => absurd hcond.2 hp.1⟩
      unfold getCurrentConfig at hcur
      split at hcur
      · cases hcur
      · have hcur' : readline fs (cfgMarker u) = cur := by simpa using hcur
        cases cur with
        | none => exact Or.inl rfl
        | some x =>
          obtain ⟨s, hs, hfl⟩ := readline_eq.1 hcur'
          have hp : cfgMarker u = [u, configsDir] ++ [".current".toList] := by
            unfold cfgMarker; rw [comp_plain hu.1]; rfl
          rw [hp] at hs
          have hl : Level [u, configsDir] := Or.inr ⟨u, hu, rfl⟩
          rcases h.2 _ hl s hs with h1 | h1
          · exact Or.inl (by rw [Option.getD_some, ← hfl, h1])
          · right
            rw [Option.getD_some, ← hfl]
            exact plain_of_dir h.1 hl h1
  · simp only [Except.ok.injEq, Prod.mk.injEq] at he
    obtain ⟨rfl, rfl⟩ := he
    exact ⟨hv, hc, fun _ => rfl⟩

theorem inv_cliCreateConfig {fs : FS} (h : Inv fs) {w c : Name} (hw : Plain w) (hc : Plain c)
    (t : Templates) : Inv (cliCreateConfig t fs w c).2 := by
  unfold cliCreateConfig
  have h1 := inv_createConfig h hw hc t
  rcases he : createConfig fs w c t with ⟨r, fs1⟩
  rw [he] at h1
  cases r with
  | error e => exact h1
  | ok u => exact inv_setCurrentConfig h1 hw (Or.inr hc)

theorem inv_cliCreateDefaultWorkspace {fs : FS} (h : Inv fs) : Inv (cliCreateDefaultWorkspace fs).2 := by
  unfold cliCreateDefaultWorkspace
  split
  · exact h
  · have h1 := inv_createWorkspace h (Or.inr plain_default)
    rcases hc : createWorkspace fs defaultName with ⟨r, fs1⟩
    rw [hc] at h1
    cases r with
    | error e => exact h1
    | ok u => exact inv_setCurrent h1 (Or.inr plain_default)

theorem cfgMarker_eq {w : Name} (hw : Plain w) : cfgMarker w = [w, configsDir] ++ [".current".toList] := by
  unfold cfgMarker; rw [comp_plain hw.1]; rfl

/-- The rest of `execute_remove` after a configuration was deleted. -/
theorem inv_after_config_removed {fs fs1 : FS} (h : Inv fs) {w c : Name} (hw : Plain w) (hc : Plain c)
    (hdir : view fs (cfgPath w c) = some .dir)
    (hg : ∀ r, view fs1 r = if cfgPath w c <+: r then none else view fs r) :
    Tidied (view fs1) ∧
    (∀ b, Level b → b ≠ [w, configsDir] → NotDangling (view fs1) b) ∧
    (readline fs1 (cfgMarker w) ≠ some c → Inv fs1) ∧
    view fs1 [w, configsDir] = some .dir := by
  rw [cfgPath_plain hw.1 hc.1] at hdir hg
  have hl : Level [w, configsDir] := Or.inr ⟨w, hw, rfl⟩
  have ht1 : Tidied (view fs1) := tidied_remove (by simp) hg h.1
  have hcur : view fs1 (cfgMarker w) = view fs (cfgMarker w) := by
    rw [cfgMarker_eq hw, hg, if_neg]
    intro hp
    rcases prefix_snoc.1 hp with h1 | h1
    · obtain ⟨-, rfl⟩ := snoc_inj.1 h1; exact current_not_plain hc
    · have := h1.length_le; simp at this
  refine ⟨ht1, fun b hb hne => notDangling_remove hc hg (h.2 b hb) (fun he => absurd he hne), ?_, ?_⟩
  · intro hcurv
    refine ⟨ht1, fun b hb => notDangling_remove hc hg (h.2 b hb) ?_⟩
    intro _ s hs hfs
    exact hcurv (readline_eq.2 ⟨s, by rw [hcur, cfgMarker_eq hw]; exact hs, hfs⟩)
  · rw [hg, if_neg (fun hp => by have := hp.length_le; simp at this)]
    exact h.1.1 _ c (by rw [hdir]; simp)

theorem inv_fallback_config {fs1 : FS} {w : Name} (hw : Plain w) (ht1 : Tidied (view fs1))
    (hother : ∀ b, Level b → b ≠ [w, configsDir] → NotDangling (view fs1) b)
    (hdir : view fs1 [w, configsDir] = some .dir) {names : List Name}
    (hn : configNames fs1 w = .ok (some names)) :
    Inv (setCurrentConfig fs1 w (fallback names)).2 := by
  have hl : Level [w, configsDir] := Or.inr ⟨w, hw, rfl⟩
  have hfp : fallback names = [] ∨ view fs1 ([w, configsDir] ++ [fallback names]) = some .dir := by
    rcases fallback_mem names with h1 | h1
    · exact Or.inl h1
    · exact Or.inr ((configNames_mem ht1 hw hn _).1 h1)
  have hfn : fallback names = [] ∨ Plain (fallback names) := by
    rcases hfp with h1 | h1
    · exact Or.inl h1
    · exact Or.inr (plain_of_dir ht1 hl h1)
  rcases setCurrentConfig_cases ht1 hw hfn with h1 | h1
  · exact inv_marked hl ht1 hother hdir hfn hfp h1.2.2.2
  · exact absurd ⟨hdir, hfp⟩ h1.2.2

theorem configNames_some {fs : FS} {w : Name} (hw : Plain w) (ht : IsTree (view fs))
    (hdir : view fs [w, configsDir] = some .dir) : ∃ names, configNames fs w = .ok (some names) := by
  unfold configNames
  rw [wsPath, comp_plain hw.1]
  have h1 : view fs [w] = some .dir := ht [w] configsDir (by
    show view fs [w, configsDir] ≠ none; rw [hdir]; simp)
  rw [if_neg (by rw [not_not, FS.exists?_iff]; unfold view at h1; rw [h1]; simp),
    if_pos (by
      rw [FS.exists?_iff]; unfold view at hdir
      show Dict.get? fs [w, configsDir] ≠ none
      rw [hdir]; simp)]
  exact ⟨_, rfl⟩

theorem getCurrentConfig_ok {fs : FS} {w : Name} (hw : Plain w) (ht : IsTree (view fs))
    (hdir : view fs [w, configsDir] = some .dir) :
    getCurrentConfig fs w = .ok (readline fs (cfgMarker w)) := by
  unfold getCurrentConfig
  rw [wsPath, comp_plain hw.1]
  have h1 : view fs [w] = some .dir := ht [w] configsDir (by
    show view fs [w, configsDir] ≠ none; rw [hdir]; simp)
  rw [if_neg (by rw [not_not, FS.exists?_iff]; unfold view at h1; rw [h1]; simp)]

theorem copyConfig_cases {fs : FS} (ht : IsTree (view fs)) {w c new : Name} :
    ((copyConfig fs w c new).2 = fs ∧ ∃ e, (copyConfig fs w c new).1 = .error e) ∨
    ((copyConfig fs w c new).1 = .ok () ∧ view fs (cfgPath w c) = some .dir ∧
      view fs (cfgPath w new) = none ∧
      ∀ r, view (copyConfig fs w c new).2 r =
        if cfgPath w new <+: r then view fs (cfgPath w c ++ r.drop (cfgPath w new).length)
        else view fs r) := by
  unfold copyConfig
  split
  · exact Or.inl ⟨rfl, _, rfl⟩
  · split
    · exact Or.inl ⟨rfl, _, rfl⟩
    · rcases copytreeChecked_cases ht (cfgPath w c) (cfgPath w new) with h | h
      · exact Or.inl ⟨h.2, h.1⟩
      · exact Or.inr h

theorem inv_copyConfig {fs : FS} (h : Inv fs) {w c new : Name} (hw : Plain w) (hc : Plain c)
    (hn : Plain new) : Inv (copyConfig fs w c new).2 := by
  rcases copyConfig_cases h.1.1 (w := w) (c := c) (new := new) with h1 | h1
  · rw [h1.1]; exact h
  · rw [cfgPath_plain hw.1 hc.1, cfgPath_plain hw.1 hn.1] at h1
    exact inv_copy h (Or.inr ⟨w, hw, rfl⟩) hc hn h1.2.1 h1.2.2.2

theorem renameConfig_free {fs : FS} (ht : IsTree (view fs)) {w c new : Name} (hw : w ≠ [])
    (hc : c ≠ []) (hn : new ≠ []) (hne : c ≠ new) (hsrc : view fs (cfgPath w c) ≠ none)
    (hq : view fs (cfgPath w new) = none) :
    ∃ fs', renameConfig fs w c new = (.ok (), fs') ∧ ∀ r, view fs' r =
      if cfgPath w new <+: r then view fs (cfgPath w c ++ r.drop (cfgPath w new).length)
      else if cfgPath w c <+: r then none else view fs r := by
  have hd := cfgPath_plain hw hc
  have hd' := cfgPath_plain hw hn
  have hcfg : view fs [w, configsDir] = some .dir := ht _ c (by rw [← hd]; exact hsrc)
  have hws : view fs [w] = some .dir := ht [w] configsDir (by
    show view fs [w, configsDir] ≠ none; rw [hcfg]; simp)
  obtain ⟨fs', h1, h2⟩ := renameChecked_free (p := cfgPath w c) ht hq
    (by rw [hd, hd']; simpa using hne) (by
      rw [hd, hd']
      intro hp
      rcases prefix_snoc.1 hp with h1 | h1
      · exact hne (snoc_inj.1 h1).2
      · have := h1.length_le; simp at this)
  refine ⟨fs', ?_, h2⟩
  unfold renameConfig
  rw [if_neg (by
      rw [not_not, FS.exists?_iff, wsPath, comp_plain hw]; unfold view at hws; rw [hws]; simp),
    if_neg (by rw [not_not, FS.exists?_iff]; exact hsrc), h1]

theorem renameConfig_missing {fs : FS} {w c new : Name} (h : view fs (cfgPath w c) = none) :
    (renameConfig fs w c new).2 = fs ∧ ∃ e, (renameConfig fs w c new).1 = .error e := by
  unfold renameConfig
  split
  · exact ⟨rfl, _, rfl⟩
  · rw [if_pos (by rw [FS.exists?_iff]; unfold view at h; simp [h])]
    exact ⟨rfl, _, rfl⟩

theorem inv_cliCfg {fs : FS} (h : Inv fs) (t : Templates) (cmd : CfgCmd) (hp : cmd.PlainNames) :
    Inv (cliCfg t fs cmd).2 := by
  cases cmd with
  | add w c =>
    simp only [cliCfg]
    split
    · exact h
    · rename_i v d he
      obtain ⟨h1, h2, h3⟩ := argsOrCurrent_plain h hp.1 (Or.inr hp.2) he
      have hd := h3 hp.2
      subst hd
      split
      · have h4 := inv_cliCreateDefaultWorkspace h
        rcases hc : cliCreateDefaultWorkspace fs with ⟨r, fs1⟩
        rw [hc] at h4
        cases r with
        | error e => exact h4
        | ok u => exact inv_cliCreateConfig h4 plain_default hp.2 t
      · rename_i hne
        have hv : Plain v := by rcases h1 with h1 | h1 <;> [exact absurd h1 hne; exact h1]
        exact inv_cliCreateConfig h hv hp.2 t
  | remove w c =>
    simp only [cliCfg]
    split
    · exact h
    · rename_i v d he
      obtain ⟨h1, h2, -⟩ := argsOrCurrent_plain h hp.1 hp.2 he
      split
      · exact h
      · split
        · exact h
        · rename_i hne1 hne2
          have hv : Plain v := by rcases h1 with h1 | h1 <;> [exact absurd h1 hne1; exact h1]
          have hd : Plain d := by rcases h2 with h1 | h1 <;> [exact absurd h1 hne2; exact h1]
          have hc := deleteConfig_cases fs v d
          rcases hdel : deleteConfig fs v d with ⟨r, fs1⟩
          rw [hdel] at hc
          rcases hc with ⟨⟨e, he⟩, h3⟩ | ⟨he, hdir, -, hg⟩
          · simp only at he h3
            subst he; subst h3
            exact h
          · simp only at he hg
            subst he
            obtain ⟨ht1, hoth, hinv, hdir1⟩ := inv_after_config_removed h hv hd hdir hg
            simp only
            rw [getCurrentConfig_ok hv ht1.1 hdir1]
            simp only
            split
            · obtain ⟨names, hnames⟩ := configNames_some hv ht1.1 hdir1
              rw [hnames]
              exact inv_fallback_config hv ht1 hoth hdir1 hnames
            · rename_i hcur
              exact hinv hcur
  | copy w c new =>
    simp only [cliCfg]
    split
    · exact h
    · rename_i v d he
      obtain ⟨h1, h2, -⟩ := argsOrCurrent_plain h hp.1 hp.2.1 he
      split
      · exact h
      · split
        · exact h
        · rename_i hne1 hne2
          have hv : Plain v := by rcases h1 with h1 | h1 <;> [exact absurd h1 hne1; exact h1]
          have hd : Plain d := by rcases h2 with h1 | h1 <;> [exact absurd h1 hne2; exact h1]
          have hbase : Plain (if new = [] then d ++ "_copy".toList else new) := by
            split
            · exact plain_append hd (by decide) (by decide)
            · rename_i h4
              rcases hp.2.2 with h5 | h5
              · exact absurd h5 h4
              · exact h5
          split
          · exact h
          · rename_i u hu
            exact inv_copyConfig h hv hd (cliUniqueConfig_spec h.1 hv hbase hu).1
  | rename w c new =>
    simp only [cliCfg]
    split
    · exact h
    · rename_i v d he
      obtain ⟨h1, h2, -⟩ := argsOrCurrent_plain h hp.1 hp.2.1 he
      split
      · exact h
      · split
        · exact h
        · rename_i hne1 hne2
          have hv : Plain v := by rcases h1 with h1 | h1 <;> [exact absurd h1 hne1; exact h1]
          have hd : Plain d := by rcases h2 with h1 | h1 <;> [exact absurd h1 hne2; exact h1]
          split
          · exact h
          · rename_i u hu
            obtain ⟨hup, hfree⟩ := cliUniqueConfig_spec h.1 hv hp.2.2 hu
            have hcd := cfgPath_plain hv.1 hd.1
            have hcu := cfgPath_plain hv.1 hup.1
            by_cases hex : view fs (cfgPath v d) = none
            · have h2 := renameConfig_missing (new := u) hex
              rcases hr : renameConfig fs v d u with ⟨r, fs1⟩
              rw [hr] at h2
              obtain ⟨h3, e, h4⟩ := h2
              simp only at h3 h4
              subst h3; subst h4
              exact h
            · have hdu : d ≠ u := by
                rintro rfl
                rw [hcd] at hex; exact hex hfree
              obtain ⟨fs1, hr, hg⟩ := renameConfig_free h.1.1 hv.1 hd.1 hup.1 hdu hex
                (by rw [hcu]; exact hfree)
              rw [hr]
              rw [hcd, hcu] at hg
              rw [hcd] at hex
              have hl : Level [v, configsDir] := Or.inr ⟨v, hv, rfl⟩
              have hsrc := dir_of_exists h.1 hl hd hex
              obtain ⟨ht1, hm1⟩ := tidied_rename (g' := view fs1) hl hd hup hdu hsrc h.1 hg
              have hdir1 : view fs1 [v, configsDir] = some .dir := by
                rw [hg, if_neg (fun hp => by have := hp.length_le; simp at this),
                  if_neg (fun hp => by have := hp.length_le; simp at this)]
                exact h.1.1 _ d (by rw [hsrc]; simp)
              have hnew : view fs1 ([v, configsDir] ++ [u]) = some .dir := by
                rw [hg, if_pos (List.prefix_refl _)]
                simpa using hsrc
              have hcur : view fs1 (cfgMarker v) = view fs (cfgMarker v) := by
                rw [cfgMarker_eq hv, hg, if_neg, if_neg]
                · intro hp
                  rcases prefix_snoc.1 hp with h1 | h1
                  · exact current_not_plain ((snoc_inj.1 h1).2 ▸ hd)
                  · have := h1.length_le; simp at this
                · intro hp
                  rcases prefix_snoc.1 hp with h1 | h1
                  · exact current_not_plain ((snoc_inj.1 h1).2 ▸ hup)
                  · have := h1.length_le; simp at this
              simp only
              rw [getCurrentConfig_ok hv ht1.1 hdir1]
              simp only
              split
              · rcases setCurrentConfig_cases ht1 hv (Or.inr hup) with h5 | h5
                · refine inv_marked hl ht1 ?_ hdir1 (Or.inr hup) (Or.inr hnew) h5.2.2.2
                  intro b hb hbb
                  exact hm1 h.2 b hb (fun he => absurd he hbb)
                · exact absurd ⟨hdir1, Or.inr hnew⟩ h5.2.2
              · rename_i hcurv
                refine ⟨ht1, fun b hb => hm1 h.2 b hb ?_⟩
                intro _ s hs hfs
                exact hcurv (readline_eq.2 ⟨s, by rw [hcur, cfgMarker_eq hv]; exact hs, hfs⟩)
  | current w c =>
    simp only [cliCfg]
    split
    · exact h
    · rename_i v d he
      obtain ⟨h1, h2, -⟩ := argsOrCurrent_plain h hp.1 hp.2 he
      have hv : Plain (if v = [] then defaultName else v) := by
        split
        · exact plain_default
        · rename_i hne
          rcases h1 with h1 | h1 <;> [exact absurd h1 hne; exact h1]
      split
      · exact inv_setCurrentConfig h hv h2
      · exact h

end Dedop.Workspace
