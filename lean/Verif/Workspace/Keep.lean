import Verif.Workspace.FrameLemmas
import Verif.Workspace.Props

/-!
# The choice of the current workspace and configuration is kept (C178)

Commands and calls that concern another workspace or configuration than the current one: `/repo/dedop/cli/main.py:262-315`, `472-531`,
`/repo/dedop/webapi/websocket.py:25-45`, `70-87`.
-/
namespace Dedop.Workspace
open Dedop.Names

theorem getCurrent_congr {fs fs' : FS} (h : view fs' [currentFile] = view fs [currentFile]) : getCurrent fs' = getCurrent fs := by
  unfold getCurrent readline
  unfold view at h
  rw [h]

theorem readline_congr {fs fs' : FS} {p : Path} (h : view fs' p = view fs p) : readline fs' p = readline fs p := by
  unfold readline
  unfold view at h
  rw [h]

theorem wsPath_plain {w : Name} (hw : Plain w) : wsPath w = [w] := comp_plain hw.1

theorem delete_keeps (fs : FS) {w : Name} (hw : Plain w) : getCurrent (deleteWorkspace fs w).2 = getCurrent fs :=
  getCurrent_congr (only_deleteWorkspace fs w _ (by rw [wsPath_plain hw]; exact not_prefix_marker hw))

theorem copy_keeps (fs : FS) (w : Name) {new : Name} (hn : Plain new) : getCurrent (copyWorkspace fs w new).2 = getCurrent fs :=
  getCurrent_congr (only_copyWorkspace fs w new _ (by rw [wsPath_plain hn]; exact not_prefix_marker hn))

theorem rename_keeps (fs : FS) {w new : Name} (hw : Plain w) (hn : Plain new) :
    getCurrent (renameWorkspace fs w new).2 = getCurrent fs := by
  refine getCurrent_congr (only_renameWorkspace fs w new _ ?_)
  rw [wsPath_plain hw, wsPath_plain hn]
  rintro (h | h)
  · exact not_prefix_marker hw h
  · exact not_prefix_marker hn h

theorem create_keeps (fs : FS) {w : Name} (hw : Plain w) : getCurrent (createWorkspace fs w).2 = getCurrent fs := by
  refine getCurrent_congr (only_createWorkspace fs w _ ?_)
  rw [wsPath_plain hw]
  rintro ⟨h, -⟩
  have h1 := (List.cons_prefix_cons.1 h).1
  exact current_not_plain (show Plain currentFile by rw [h1]; exact hw)

/-- **C178**, command line: removing or renaming another workspace, and copying any workspace, leaves the current one as it is, whether
the command succeeds or fails. -/
theorem cli_keeps_workspace (fs : FS) (ht : Tidied (view fs)) (cur : Name) (hc : getCurrent fs = some cur) (w new : Name)
    (hw : Plain w) (hn : Plain new) :
    (w ≠ cur → getCurrent (cliWs fs (.remove w)).2 = some cur) ∧
    getCurrent (cliWs fs (.copy w new)).2 = some cur ∧
    (w ≠ cur → getCurrent (cliWs fs (.rename w new)).2 = some cur) := by
  have ha : argOrCurrent fs w = w := by unfold argOrCurrent; rw [if_pos hw.1]
  have hu : Plain (cliUnique fs new) := by
    rcases cliUnique_spec ht (Or.inr hn) with ⟨h, -⟩ | ⟨h, -⟩
    · exact absurd h hn.1
    · exact h
  refine ⟨fun hne => ?_, ?_, fun hne => ?_⟩
  · simp only [cliWs, ha]
    rw [if_neg hw.1]
    have hk := delete_keeps fs hw
    split
    · rename_i e fs1 h; rw [h] at hk; exact hk.trans hc
    · rename_i fs1 h
      rw [h] at hk
      have hk : getCurrent fs1 = some cur := hk.trans hc
      rw [if_neg (by rw [hk]; intro h2; exact hne (Option.some.inj h2).symm)]
      exact hk
  · simp only [cliWs, ha]
    rw [if_neg hw.1, if_neg hn.1]
    exact (copy_keeps fs w hu).trans hc
  · simp only [cliWs, ha]
    rw [if_neg hw.1]
    have hk := rename_keeps fs hw hu
    split
    · rename_i e fs1 h; rw [h] at hk; exact hk.trans hc
    · rename_i fs1 h
      rw [h] at hk
      have hk : getCurrent fs1 = some cur := hk.trans hc
      rw [if_neg (by rw [hk]; intro h2; exact hne (Option.some.inj h2).symm)]
      exact hk

/-- Web service: making, copying and renaming workspaces leaves the name of the current one as it is. -/
theorem web_keeps_workspace_partial (fs : FS) (w new : Name) (hw : Plain w) (hn : Plain new) :
    getCurrent (webWs fs (.create w)).2 = getCurrent fs ∧ getCurrent (webWs fs (.copy w new)).2 = getCurrent fs ∧
    getCurrent (webWs fs (.rename w new)).2 = getCurrent fs :=
  ⟨create_keeps fs hw, copy_keeps fs w hn, rename_keeps fs hw hn⟩

/-- Deleting any workspace through the web service makes `default` the current one if it exists, whatever the current one was. -/
theorem web_delete_resets_violated (fs : FS) (ht : Tidied (view fs)) (w : Name) (hw : Plain w) (hd : view fs [w] = some .dir)
    (hne : w ≠ defaultName) (hdef : view fs [defaultName] = some .dir) :
    (webWs fs (.delete w)).1 = .ok () ∧ getCurrent (webWs fs (.delete w)).2 = some defaultName := by
  simp only [webWs]
  rcases deleteWorkspace_cases fs w with ⟨-, -, h⟩ | ⟨h1, -, h2⟩
  · rw [wsPath_plain hw] at h; exact absurd hd h
  · rw [wsPath_plain hw] at h2
    have hpair : deleteWorkspace fs w = (.ok (), (deleteWorkspace fs w).2) := by rw [← h1]
    rw [hpair]
    dsimp only
    have ht1 : Tidied (view (deleteWorkspace fs w).2) := tidied_remove (p := [w]) (by simp) h2 ht
    have hd1 : view (deleteWorkspace fs w).2 [defaultName] = some .dir := by
      rw [h2, if_neg, hdef]
      intro h
      exact hne (List.cons_prefix_cons.1 h).1
    have hf : fallback (workspaceNames (deleteWorkspace fs w).2) = defaultName := by
      unfold fallback
      rw [if_pos ((mem_workspaceNames ht1 _).2 hd1)]
    rw [hf]
    rcases setCurrent_cases ht1 (Or.inr plain_default) with ⟨h3, -, -, h4⟩ | ⟨-, -, h4⟩
    · refine ⟨h3, ?_⟩
      have h5 := h4 [currentFile]
      rw [if_pos (show [currentFile] = [] ++ [".current".toList] from rfl)] at h5
      unfold getCurrent readline
      unfold view at h5
      rw [h5]
      exact congrArg some (firstLine_plain (Or.inr plain_default))
    · exact absurd ⟨view_root_of ht1 hd1, Or.inr hd1⟩ h4

/-! ## Configurations -/

theorem cfg_not_prefix {w c : Name} (hw : Plain w) (hc : Plain c) : ¬ cfgPath w c <+: cfgMarker w := by
  rw [cfgPath_plain hw.1 hc.1]
  unfold cfgMarker
  rw [comp_plain hw.1]
  intro h
  simp only [List.cons_append, List.nil_append, List.cons_prefix_cons, true_and] at h
  exact current_not_plain (show Plain currentFile by rw [← h.1]; exact hc)

theorem deleteConfig_keeps (fs : FS) {w c : Name} (hw : Plain w) (hc : Plain c) :
    readline (deleteConfig fs w c).2 (cfgMarker w) = readline fs (cfgMarker w) :=
  readline_congr (only_deleteConfig fs w c _ (cfg_not_prefix hw hc))

theorem copyConfig_keeps (fs : FS) {w new : Name} (c : Name) (hw : Plain w) (hn : Plain new) :
    readline (copyConfig fs w c new).2 (cfgMarker w) = readline fs (cfgMarker w) :=
  readline_congr (only_copyConfig fs w c new _ (cfg_not_prefix hw hn))

theorem renameConfig_keeps (fs : FS) {w c new : Name} (hw : Plain w) (hc : Plain c) (hn : Plain new) :
    readline (renameConfig fs w c new).2 (cfgMarker w) = readline fs (cfgMarker w) :=
  readline_congr (only_renameConfig fs w c new _ (by rintro (h | h); exacts [cfg_not_prefix hw hc h, cfg_not_prefix hw hn h]))

theorem args_given (fs : FS) {w c : Name} (hw : w ≠ []) (hc : c ≠ []) : argsOrCurrent fs w c = .ok (w, c) := by
  unfold argsOrCurrent argOrCurrent
  rw [if_pos hw]
  dsimp only
  rw [if_neg (by simp [hc])]

/-- **C178**, configurations on the command line: what the marker of the workspace names is kept by removing or renaming another
configuration, and by copying any. -/
theorem cli_keeps_config (t : Templates) (fs : FS) (ht : Tidied (view fs)) (w c new cur : Name) (hw : Plain w) (hc : Plain c)
    (hn : Plain new) (hcur : readline fs (cfgMarker w) = some cur) :
    (c ≠ cur → readline (cliCfg t fs (.remove w c)).2 (cfgMarker w) = some cur) ∧
    readline (cliCfg t fs (.copy w c new)).2 (cfgMarker w) = some cur ∧
    (c ≠ cur → readline (cliCfg t fs (.rename w c new)).2 (cfgMarker w) = some cur) := by
  have ha := args_given fs hw.1 hc.1
  refine ⟨fun hne => ?_, ?_, fun hne => ?_⟩
  · simp only [cliCfg, ha]
    rw [if_neg hw.1, if_neg hc.1]
    have hk := deleteConfig_keeps fs hw hc
    split
    · rename_i e fs1 h; rw [h] at hk; exact hk.trans hcur
    · rename_i fs1 h
      rw [h] at hk
      have hk : readline fs1 (cfgMarker w) = some cur := hk.trans hcur
      unfold getCurrentConfig
      split
      · rename_i e h2; exact hk
      · rename_i v h2
        split at h2
        · cases h2
        · cases h2
          rw [if_neg (by rw [hk]; intro h3; exact hne (Option.some.inj h3).symm)]
          exact hk
  · simp only [cliCfg, ha]
    rw [if_neg hw.1, if_neg hc.1, if_neg hn.1]
    split
    · exact hcur
    · rename_i r h
      have hr : Plain r := (cliUniqueConfig_spec ht hw hn h).1
      exact (copyConfig_keeps fs c hw hr).trans hcur
  · simp only [cliCfg, ha]
    rw [if_neg hw.1, if_neg hc.1]
    split
    · exact hcur
    · rename_i r h
      have hr : Plain r := (cliUniqueConfig_spec ht hw hn h).1
      have hk := renameConfig_keeps fs hw hc hr
      split
      · rename_i e fs1 h; rw [h] at hk; exact hk.trans hcur
      · rename_i fs1 h
        rw [h] at hk
        have hk : readline fs1 (cfgMarker w) = some cur := hk.trans hcur
        unfold getCurrentConfig
        split
        · rename_i e h2; exact hk
        · rename_i v h2
          split at h2
          · cases h2
          · cases h2
            rw [if_neg (by rw [hk]; intro h3; exact hne (Option.some.inj h3).symm)]
            exact hk

/-- Deleting any configuration through the web service makes `default` the current one of the workspace if it exists. -/
theorem web_delete_config_resets_violated (t : Templates) (fs : FS) (ht : Tidied (view fs)) (w c : Name) (hw : Plain w) (hc : Plain c)
    (hd : view fs [w, configsDir, c] = some .dir) (hne : c ≠ defaultName) (hdef : view fs [w, configsDir, defaultName] = some .dir) :
    (webCfg t fs (.delete w c)).1 = .ok () ∧ readline (webCfg t fs (.delete w c)).2 (cfgMarker w) = some defaultName := by
  simp only [webCfg]
  have hp : cfgPath w c = [w, configsDir, c] := cfgPath_plain hw.1 hc.1
  have hdirs : view fs [w, configsDir] = some .dir := ht.1 [w, configsDir] c (by
    show view fs [w, configsDir, c] ≠ none
    rw [hd]; simp)
  have hws : view fs [w] = some .dir := ht.1 [w] configsDir (by
    show view fs [w, configsDir] ≠ none
    rw [hdirs]; simp)
  have hdel : deleteConfig fs w c = (.ok (), fs.rmtree [w, configsDir, c]) := by
    unfold deleteConfig
    rw [wsPath_plain hw, hp, if_neg (by rw [not_not, FS.exists?_iff]; unfold view at hws; rw [hws]; simp),
      if_neg (by rw [not_not, FS.exists?_iff]; unfold view at hd; rw [hd]; simp), if_pos ((FS.isDir_iff _ _).2 hd)]
  rw [hdel]
  dsimp only
  have h2 : ∀ r, view (fs.rmtree [w, configsDir, c]) r = if [w, configsDir, c] <+: r then none else view fs r :=
    fun r => FS.get?_rmtree _ _ _
  generalize fs.rmtree [w, configsDir, c] = fs1 at h2
  have ht1 : Tidied (view fs1) := tidied_remove (p := [w, configsDir, c]) (by simp) h2 ht
  have hd1 : view fs1 [w, configsDir, defaultName] = some .dir := by
    rw [h2, if_neg, hdef]
    intro h
    simp only [List.cons_prefix_cons, true_and] at h
    exact hne h.1
  have hdirs1 : view fs1 [w, configsDir] = some .dir := ht1.1 [w, configsDir] defaultName (by
    show view fs1 [w, configsDir, defaultName] ≠ none
    rw [hd1]; simp)
  obtain ⟨names, hnames⟩ := configNames_some hw ht1.1 hdirs1
  rw [hnames]
  dsimp only
  have hf : fallback names = defaultName := by
    unfold fallback
    rw [if_pos ((configNames_mem ht1 hw hnames _).2 hd1)]
  rw [hf]
  rcases setCurrentConfig_cases ht1 hw (Or.inr plain_default) with ⟨h3, -, -, h4⟩ | ⟨-, -, h4⟩
  · refine ⟨h3, ?_⟩
    have h5 := h4 (cfgMarker w)
    rw [if_pos (cfgMarker_eq hw)] at h5
    unfold readline
    unfold view at h5
    rw [h5]
    exact congrArg some (firstLine_plain (Or.inr plain_default))
  · exact absurd ⟨hdirs1, Or.inr hd1⟩ h4

/-! ## Examples -/

/-- Some files to begin with. -/
def someFiles : Templates := ⟨[], [], []⟩

/-- Three workspaces, of which the last one is current and has three configurations. -/
def threeWs : FS :=
  cliSession someFiles [] [.ws (.add "a".toList), .ws (.add defaultName), .ws (.add "b".toList), .cfg (.add [] defaultName),
    .cfg (.add [] "d".toList), .cfg (.add [] "c".toList)]

theorem threeWs_tidied : Tidied (view threeWs) :=
  (inv_session someFiles [] ⟨empty_is_tidied.1, empty_is_tidied.2⟩ _ (by
    intro c hc
    simp only [List.mem_cons, List.not_mem_nil, or_false] at hc
    rcases hc with rfl | rfl | rfl | rfl | rfl | rfl
    · exact Or.inr (by decide +kernel)
    · exact Or.inr (by decide +kernel)
    · exact Or.inr (by decide +kernel)
    · exact ⟨Or.inl rfl, by decide +kernel⟩
    · exact ⟨Or.inl rfl, by decide +kernel⟩
    · exact ⟨Or.inl rfl, by decide +kernel⟩)).1

example : getCurrent threeWs = some "b".toList ∧ view threeWs ["a".toList] = some .dir ∧ view threeWs [defaultName] = some .dir := by
  decide +kernel

example : getCurrent (cliWs threeWs (.remove "a".toList)).2 = some "b".toList :=
  (cli_keeps_workspace threeWs threeWs_tidied "b".toList (by decide +kernel) "a".toList "n".toList (by decide +kernel)
    (by decide +kernel)).1 (by decide)

/-- The user works in `b`; a client deletes `a`, and `default` is current. -/
example : getCurrent (webWs threeWs (.delete "a".toList)).2 = some defaultName :=
  (web_delete_resets_violated threeWs threeWs_tidied "a".toList (by decide +kernel) (by decide +kernel) (by decide)
    (by decide +kernel)).2

example : readline threeWs (cfgMarker "b".toList) = some "c".toList ∧
    readline (cliCfg someFiles threeWs (.remove "b".toList "d".toList)).2 (cfgMarker "b".toList) = some "c".toList ∧
    readline (webCfg someFiles threeWs (.delete "b".toList "d".toList)).2 (cfgMarker "b".toList) = some defaultName := by
  decide +kernel

end Dedop.Workspace
