import Verif.Workspace.CrashProps
import Verif.Workspace.Props

/-!
# Interrupted configuration commands (C131)

As in `Workspace/Crash`, for the sub-commands of `dedop config` (`/repo/dedop/cli/main.py`).
-/
namespace Dedop.Workspace
open Dedop.Names

/-! ## Model -/

/-- `create_workspace('default', exists_ok=True)` (`cli/main.py:346-357`), as in `cliCreateDefaultWorkspace`. -/
def duringDefaultWorkspace (fs : FS) (g : FS) : Prop :=
  if workspaceExists fs defaultName then g = fs
  else thenDuring g (duringCreateWorkspace fs defaultName) (createWorkspace fs defaultName) (fun fs1 => duringSetCurrent fs1 defaultName)

/-- `execute_add` (`cli/main.py:464-469`), `execute_remove` (`472-496`), `execute_copy` (`499-514`), `execute_rename` (`517-531`) and
`execute_current` (`551-565`) of `ManageConfigsCommand`, as in `cliCfg`. -/
def duringCfg (t : Templates) (fs : FS) : CfgCmd → FS → Prop
  | .add w c => fun g =>
    match argsOrCurrent fs w c with
    | .error _ => g = fs
    | .ok (w, c) =>
      if w = [] then
        thenDuring g (duringDefaultWorkspace fs) (cliCreateDefaultWorkspace fs) (fun fs1 => duringConfigAdd t fs1 defaultName c)
      else duringConfigAdd t fs w c g
  | .remove w c => fun g =>
    match argsOrCurrent fs w c with
    | .error _ => g = fs
    | .ok (w, c) =>
      if w = [] then g = fs
      else if c = [] then g = fs
      else thenDuring g (duringDeleteConfig fs w c) (deleteConfig fs w c) (fun fs1 g =>
        match getCurrentConfig fs1 w with
        | .error _ => g = fs1
        | .ok cur =>
          if cur = some c then
            match configNames fs1 w with
            | .ok (some names) => duringSetCurrentConfig fs1 w (fallback names) g
            | _ => g = fs1
          else g = fs1)
  | .copy w c new => fun g =>
    match argsOrCurrent fs w c with
    | .error _ => g = fs
    | .ok (w, c) =>
      if w = [] then g = fs
      else if c = [] then g = fs
      else match cliUniqueConfig fs w (if new = [] then c ++ "_copy".toList else new) with
        | .error _ => g = fs
        | .ok new => duringCopyConfig fs w c new g
  | .rename w c new => fun g =>
    match argsOrCurrent fs w c with
    | .error _ => g = fs
    | .ok (w, c) =>
      if w = [] then g = fs
      else if c = [] then g = fs
      else match cliUniqueConfig fs w new with
        | .error _ => g = fs
        | .ok new => thenDuring g (duringRenameConfig fs w c new) (renameConfig fs w c new) (fun fs1 g =>
            match getCurrentConfig fs1 w with
            | .error _ => g = fs1
            | .ok cur => if cur = some c then duringSetCurrentConfig fs1 w new g else g = fs1)
  | .current w c => fun g =>
    match argsOrCurrent fs w c with
    | .error _ => g = fs
    | .ok (w, c) =>
      let w := if w = [] then defaultName else w
      if c ≠ [] then duringSetCurrentConfig fs w c g else g = fs

/-! ## Specification -/

/-- No marker names something that does not exist: neither that of the current workspace nor that of a current configuration. -/
def NoDangling (g : FS) : Prop := ∀ b, Level b → NotDangling (view g) b

/-! ## Lemmas -/

theorem level_cfg {w : Name} (hw : Plain w) : Level [w, configsDir] := .inr ⟨w, hw, rfl⟩

/-- A path that a marker or a thing named by a marker can have, below a configuration: none but the configuration. -/
theorem below_cfg {b : Path} (hb : Level b) {n w c : Name} (h : [w, configsDir, c] <+: b ++ [n]) : b = [w, configsDir] ∧ n = c := by
  rcases hb with rfl | ⟨w', -, rfl⟩
  · have := h.length_le; simp at this
  · have h1 := List.IsPrefix.eq_of_length_le h (by simp)
    simp only [List.cons_append, List.nil_append, List.cons.injEq, and_true] at h1
    exact ⟨by rw [h1.1]; rfl, h1.2.2.symm⟩

/-- If the markers and what they name are as before, they still name something. -/
theorem noDangling_same {fs g : FS} (hf : NoDangling fs) (h1 : ∀ b, Level b → view g (b ++ [currentFile]) = view fs (b ++ [currentFile]))
    (h2 : ∀ b, Level b → ∀ x, readline fs (b ++ [currentFile]) = some x → view fs (b ++ [x]) = some .dir → view g (b ++ [x]) = some .dir) :
    NoDangling g := by
  intro b hb s hs
  have hs' : view fs (b ++ [currentFile]) = some (.file s) := by rw [← h1 b hb]; exact hs
  rcases hf b hb s hs' with h3 | h3
  · exact .inl h3
  · exact .inr (h2 b hb _ (readline_eq.2 ⟨s, hs', rfl⟩) h3)

theorem marker_inj {b b' : Path} (h : b ++ [currentFile] = b' ++ [currentFile]) : b = b' := by
  simpa using h

/-- Writing a marker. -/
theorem noDangling_marker {fs g : FS} (hi : Inv fs) {b : Path} (hb : Level b) {x : Name} (hx : x = [] ∨ Plain x)
    (hd : x = [] ∨ view fs (b ++ [x]) = some .dir) (h : duringWriteline fs (b ++ [currentFile]) x g) : NoDangling g := by
  have key : ∀ s, (s = [] ∨ s = x) → fs.write (b ++ [currentFile]) s = .ok g → NoDangling g := by
    intro s hs hw b' hb' u hu
    have hg : ∀ r, view g r = if r = b ++ [currentFile] then some (.file s) else view fs r := fun r => FS.write_ok hw r
    have hdir : ∀ y, view fs (b' ++ [y]) = some .dir → view g (b' ++ [y]) = some .dir := by
      intro y hy
      rw [hg, if_neg]
      · exact hy
      · intro h2
        rw [h2] at hy
        exact marker_not_dir hi.1 hb hy
    by_cases he : b' = b
    · subst he
      have hu' : some (Entry.file s) = some (.file u) := by
        rw [← hu]
        show _ = view g (b' ++ [currentFile])
        rw [hg, if_pos rfl]
      cases hu'
      rcases hs with rfl | rfl
      · exact .inl rfl
      · rw [firstLine_plain hx]
        rcases hd with rfl | hd
        · exact .inl rfl
        · exact .inr (hdir _ hd)
    · have hu' : view fs (b' ++ [currentFile]) = some (.file u) := by
        rw [← hu]
        show _ = view g (b' ++ [currentFile])
        rw [hg, if_neg (fun h2 => he (marker_inj h2))]
      rcases hi.2 b' hb' u hu' with h3 | h3
      · exact .inl h3
      · exact .inr (hdir _ h3)
  rcases h with rfl | h | h
  · exact hi.2
  · exact key [] (.inl rfl) h
  · exact key x (.inr rfl) h

theorem noDangling_setCurrent {fs g : FS} (hi : Inv fs) {w : Name} (hw : Plain w) (h : duringSetCurrent fs w g) : NoDangling g := by
  unfold duringSetCurrent at h
  split at h
  · subst h; exact hi.2
  rename_i h1
  rw [not_not, wsPath, comp_plain hw.1, FS.exists?_iff] at h1
  exact noDangling_marker hi root_level (.inr hw) (.inr (dir_of_exists hi.1 root_level hw h1)) h

theorem noDangling_setCurrentConfig {fs g : FS} (hi : Inv fs) {w c : Name} (hw : Plain w) (hc : Plain c)
    (h : duringSetCurrentConfig fs w c g) : NoDangling g := by
  unfold duringSetCurrentConfig at h
  split at h
  · subst h; exact hi.2
  split at h
  · subst h; exact hi.2
  rename_i h1
  rw [not_not, cfgPath_plain hw.1 hc.1, FS.exists?_iff] at h1
  rw [cfgMarker_eq hw] at h
  exact noDangling_marker hi (level_cfg hw) (.inr hc) (.inr (dir_of_exists hi.1 (level_cfg hw) hc h1)) h

/-- A call which creates something, and does not reach a marker. -/
theorem noDangling_creation {t : Templates} {fs g : FS} (hi : Inv fs) {op : MgrOp} (hop : op.creates = true)
    (hs : ∀ w c, op ≠ .setCfg w c) (hc : ∀ b, Level b → ¬ op.reach fs (b ++ [currentFile])) (h : duringMgr t fs op g) : NoDangling g := by
  refine noDangling_same hi.2 (fun b hb => only_duringMgr h _ (hc b hb)) ?_
  intro b _ x _ hx
  rw [interrupted_creation_keeps t fs g hi.1.1 op hop h (b ++ [x]) (by rw [hx]; simp) (fun w c h => absurd h (hs w c))]
  exact hx

theorem marker_ne_ws {b : Path} (hb : Level b) {w : Name} (hw : Plain w) : ¬ b ++ [currentFile] <+: [w] := by
  rcases hb with rfl | ⟨w', -, rfl⟩
  · rw [List.nil_append, List.cons_prefix_cons]
    rintro ⟨h, -⟩
    exact not_current hw h.symm
  · intro h
    have := h.length_le; simp at this

theorem marker_ne_cfg {b : Path} (hb : Level b) {w c : Name} (hw : Plain w) (hc : Plain c) : ¬ b ++ [currentFile] <+: [w, configsDir, c] := by
  rcases hb with rfl | ⟨w', -, rfl⟩
  · rw [List.nil_append, List.cons_prefix_cons]
    rintro ⟨h, -⟩
    exact not_current hw h.symm
  · intro h
    have h1 := List.IsPrefix.eq_of_length_le h (by simp)
    simp only [List.cons_append, List.nil_append, List.cons.injEq, and_true] at h1
    exact not_current hc h1.2.2.symm

theorem noDangling_createWorkspace {fs g : FS} (hi : Inv fs) {w : Name} (hw : Plain w) (h : duringCreateWorkspace fs w g) : NoDangling g := by
  refine noDangling_creation (t := ⟨[], [], []⟩) hi (op := .createWs w) rfl (by simp) ?_ h
  rintro b hb ⟨h1, -⟩
  rw [wsPath, comp_plain hw.1] at h1
  exact marker_ne_ws hb hw h1

theorem noDangling_createConfig {t : Templates} {fs g : FS} (hi : Inv fs) {w c : Name} (hw : Plain w) (hc : Plain c)
    (h : duringCreateConfig fs w c t g) : NoDangling g := by
  refine noDangling_creation (t := t) hi (op := .createCfg w c) rfl (by simp) ?_ h
  intro b hb h1
  have hp : cfgPath w c = [w, configsDir, c] := cfgPath_plain hw.1 hc.1
  have hfile : ∀ f, b ++ [currentFile] ≠ cfgPath w c ++ [f] := by
    intro f h2
    have := congrArg List.length h2
    rw [hp] at this
    rcases hb with rfl | ⟨w', -, rfl⟩ <;> simp at this
  rcases h1 with ⟨h1, -⟩ | h1 | h1 | h1
  · rw [hp] at h1; exact marker_ne_cfg hb hw hc h1
  · exact hfile _ h1
  · exact hfile _ h1
  · exact hfile _ h1

theorem noDangling_configAdd {t : Templates} {fs g : FS} (hi : Inv fs) {w c : Name} (hw : Plain w) (hc : Plain c)
    (h : duringConfigAdd t fs w c g) : NoDangling g := by
  rcases h with h | h
  · exact noDangling_createConfig hi hw hc h
  · have h1 := inv_createConfig hi hw hc t
    rcases hcr : createConfig fs w c t with ⟨r, fs1⟩
    rw [hcr] at h h1
    cases r with
    | error e => exact h.elim
    | ok u => exact noDangling_setCurrentConfig h1 hw hc h

theorem noDangling_defaultWorkspace {fs g : FS} (hi : Inv fs) (h : duringDefaultWorkspace fs g) : NoDangling g := by
  unfold duringDefaultWorkspace at h
  split at h
  · subst h; exact hi.2
  rcases h with h | h
  · exact noDangling_createWorkspace hi plain_default h
  · have h1 := inv_createWorkspace hi (.inr plain_default)
    rcases hcr : createWorkspace fs defaultName with ⟨r, fs1⟩
    rw [hcr] at h h1
    cases r with
    | error e => exact h.elim
    | ok u => exact noDangling_setCurrent h1 plain_default h

/-- Changes at and below configurations which are not the current one. -/
theorem noDangling_below {fs g : FS} (hi : Inv fs) {w c : Name} (hc : Plain c) (hcur : readline fs (cfgMarker w) ≠ some c)
    (hw : Plain w) (new : Name) (hn : Plain new) (hfree : new = c ∨ view fs [w, configsDir, new] = none)
    (h : Only fs g (fun r => [w, configsDir, c] <+: r ∨ [w, configsDir, new] <+: r)) : NoDangling g := by
  refine noDangling_same hi.2 (fun b hb => h _ ?_) (fun b hb x hx hd => ?_)
  · rintro (h1 | h1)
    · exact not_current hc (below_cfg hb h1).2.symm
    · exact not_current hn (below_cfg hb h1).2.symm
  · have hx' : ¬ [w, configsDir, c] <+: b ++ [x] := by
      intro h1
      obtain ⟨rfl, rfl⟩ := below_cfg hb h1
      rw [cfgMarker_eq hw] at hcur
      exact hcur hx
    rw [h, hd]
    rintro (h1 | h1)
    · exact hx' h1
    · rcases hfree with rfl | hfree
      · exact hx' h1
      · obtain ⟨rfl, rfl⟩ := below_cfg hb h1
        have hd' : view fs [w, configsDir, x] = some .dir := hd
        rw [hfree] at hd'
        cases hd'

/-- The configuration which a command means: the given one, or the current one of the given or current workspace. -/
def CfgCmd.meant (fs : FS) : CfgCmd → Option (Name × Name)
  | .remove w c => (argsOrCurrent fs w c).toOption
  | .rename w c _ => (argsOrCurrent fs w c).toOption
  | _ => none

theorem marker_kept {fs g : FS} {w c new : Name} (hw : Plain w) (hc : Plain c) (hn : Plain new)
    (h : Only fs g (fun r => [w, configsDir, c] <+: r ∨ [w, configsDir, new] <+: r)) : readline g (cfgMarker w) = readline fs (cfgMarker w) := by
  have : view g (cfgMarker w) = view fs (cfgMarker w) := by
    refine h _ ?_
    rw [cfgMarker_eq hw]
    rintro (h1 | h1)
    · exact not_current hc (below_cfg (level_cfg hw) h1).2.symm
    · exact not_current hn (below_cfg (level_cfg hw) h1).2.symm
  unfold readline
  unfold view at this
  rw [this]

/-! ## C131 -/

/-- **C131**, the part that holds: killed anywhere, the commands `dedop config add`, `copy` and `current`, and `remove` and `rename` of a
configuration that is not the current one, leave no marker which names something that does not exist. -/
theorem interrupted_config_partial (t : Templates) (fs g : FS) (hi : Inv fs) (cmd : CfgCmd) (hp : cmd.PlainNames) (h : duringCfg t fs cmd g)
    (hcur : ∀ w c, cmd.meant fs = some (w, c) → getCurrentConfig fs w ≠ .ok (some c)) : NoDangling g := by
  cases cmd with
  | add w c =>
    simp only [duringCfg] at h
    cases ha : argsOrCurrent fs w c with
    | error e => rw [ha] at h; subst h; exact hi.2
    | ok x =>
      obtain ⟨v, d⟩ := x
      rw [ha] at h
      dsimp only at h
      obtain ⟨hv, hd, hcd⟩ := argsOrCurrent_plain hi hp.1 (.inr hp.2) ha
      have hdp : Plain d := by rw [hcd hp.2]; exact hp.2
      split at h
      · rcases h with h | h
        · exact noDangling_defaultWorkspace hi h
        · have h1 := inv_cliCreateDefaultWorkspace hi
          rcases hcr : cliCreateDefaultWorkspace fs with ⟨r, fs1⟩
          rw [hcr] at h h1
          cases r with
          | error e => exact h.elim
          | ok u => exact noDangling_configAdd h1 plain_default hdp h
      · rename_i hne
        exact noDangling_configAdd hi (hv.resolve_left hne) hdp h
  | remove w c =>
    simp only [duringCfg] at h
    cases ha : argsOrCurrent fs w c with
    | error e => rw [ha] at h; subst h; exact hi.2
    | ok x =>
      obtain ⟨v, d⟩ := x
      rw [ha] at h
      dsimp only at h
      obtain ⟨hv, hd, -⟩ := argsOrCurrent_plain hi hp.1 hp.2 ha
      have hcur := hcur v d (by simp [CfgCmd.meant, ha, Except.toOption])
      split at h
      · subst h; exact hi.2
      split at h
      · subst h; exact hi.2
      rename_i hv' hd'
      have hvp := hv.resolve_left hv'
      have hdp := hd.resolve_left hd'
      have hpath : cfgPath v d = [v, configsDir, d] := cfgPath_plain hvp.1 hdp.1
      by_cases hex : fs.exists? (wsPath v) = true
      swap
      · have : deleteConfig fs v d = (.error (.workspaceError "workspace does not exist"), fs) := by unfold deleteConfig; rw [if_pos hex]
        rw [this] at h
        rcases h with h | h
        · unfold duringDeleteConfig at h
          rw [if_pos hex] at h
          subst h; exact hi.2
        · exact h.elim
      have hrd : readline fs (cfgMarker v) ≠ some d := by
        intro h1
        apply hcur
        unfold getCurrentConfig
        rw [if_neg (by simpa using hex), h1]
      have two : ∀ {g : FS}, Only fs g (fun r => cfgPath v d <+: r) → Only fs g (fun r => [v, configsDir, d] <+: r ∨ [v, configsDir, d] <+: r) := by
        intro g hg r hr
        refine hg r (fun h1 => hr (.inl ?_))
        rw [← hpath]; exact h1
      rcases h with h | h
      · exact noDangling_below hi hdp hrd hvp d hdp (.inl rfl) (two (only_duringMgr (t := t) (op := .deleteCfg v d) h))
      · have h1 := two (only_duringMgr (t := t) (op := .deleteCfg v d) (during_ends t fs hi.1.1 (.deleteCfg v d)))
        change Only fs (deleteConfig fs v d).2 _ at h1
        rcases hcr : deleteConfig fs v d with ⟨r, fs1⟩
        rw [hcr] at h h1
        cases r with
        | error e => exact h.elim
        | ok u =>
          dsimp only at h
          have hf := noDangling_below hi hdp hrd hvp d hdp (.inl rfl) h1
          split at h
          · subst h; exact hf
          · rename_i cur hg
            unfold getCurrentConfig at hg
            split at hg
            · cases hg
            cases hg
            rw [if_neg] at h
            · subst h; exact hf
            · rw [marker_kept hvp hdp hdp h1]; exact hrd
  | copy w c new =>
    simp only [duringCfg] at h
    cases ha : argsOrCurrent fs w c with
    | error e => rw [ha] at h; subst h; exact hi.2
    | ok x =>
      obtain ⟨v, d⟩ := x
      rw [ha] at h
      dsimp only at h
      obtain ⟨hv, hd, -⟩ := argsOrCurrent_plain hi hp.1 hp.2.1 ha
      split at h
      · subst h; exact hi.2
      split at h
      · subst h; exact hi.2
      rename_i hv' hd'
      have hvp := hv.resolve_left hv'
      have hdp := hd.resolve_left hd'
      have hb : Plain (if new = [] then d ++ "_copy".toList else new) := by
        split
        · exact plain_append hdp (by decide) (by decide)
        · rename_i h1; exact hp.2.2.resolve_left h1
      split at h
      · subst h; exact hi.2
      · rename_i new' hu
        obtain ⟨h1, h2⟩ := cliUniqueConfig_spec hi.1 hvp hb hu
        refine noDangling_creation (t := t) hi (op := .copyCfg v d new') rfl (by simp) ?_ h
        intro b hb' h3
        change cfgPath v new' <+: _ at h3
        rw [cfgPath_plain hvp.1 h1.1] at h3
        exact not_current h1 (below_cfg hb' h3).2.symm
  | rename w c new =>
    simp only [duringCfg] at h
    cases ha : argsOrCurrent fs w c with
    | error e => rw [ha] at h; subst h; exact hi.2
    | ok x =>
      obtain ⟨v, d⟩ := x
      rw [ha] at h
      dsimp only at h
      obtain ⟨hv, hd, -⟩ := argsOrCurrent_plain hi hp.1 hp.2.1 ha
      have hcur := hcur v d (by simp [CfgCmd.meant, ha, Except.toOption])
      split at h
      · subst h; exact hi.2
      split at h
      · subst h; exact hi.2
      rename_i hv' hd'
      have hvp := hv.resolve_left hv'
      have hdp := hd.resolve_left hd'
      split at h
      · subst h; exact hi.2
      rename_i new' hu
      obtain ⟨hn, hfree⟩ := cliUniqueConfig_spec hi.1 hvp hp.2.2 hu
      by_cases hex : fs.exists? (wsPath v) = true
      swap
      · unfold cliUniqueConfig configNames at hu
        rw [if_pos hex] at hu
        cases hu
      have hrd : readline fs (cfgMarker v) ≠ some d := by
        intro h1
        apply hcur
        unfold getCurrentConfig
        rw [if_neg (by simpa using hex), h1]
      have two : ∀ {g : FS}, Only fs g (fun r => cfgPath v d <+: r ∨ cfgPath v new' <+: r) →
          Only fs g (fun r => [v, configsDir, d] <+: r ∨ [v, configsDir, new'] <+: r) := by
        intro g hg r hr
        refine hg r (fun h1 => hr ?_)
        rw [cfgPath_plain hvp.1 hdp.1, cfgPath_plain hvp.1 hn.1] at h1
        exact h1
      rcases h with h | h
      · exact noDangling_below hi hdp hrd hvp new' hn (.inr hfree) (two (only_duringMgr (t := t) (op := .renameCfg v d new') h))
      · have h1 := two (only_duringMgr (t := t) (op := .renameCfg v d new') (.inr rfl))
        rcases hcr : renameConfig fs v d new' with ⟨r, fs1⟩
        rw [hcr] at h h1
        cases r with
        | error e => exact h.elim
        | ok u =>
          dsimp only at h h1
          have hf := noDangling_below hi hdp hrd hvp new' hn (.inr hfree) h1
          split at h
          · subst h; exact hf
          · rename_i cur hg
            unfold getCurrentConfig at hg
            split at hg
            · cases hg
            cases hg
            rw [if_neg] at h
            · subst h; exact hf
            · rw [marker_kept hvp hdp hn h1]; exact hrd
  | current w c =>
    simp only [duringCfg] at h
    cases ha : argsOrCurrent fs w c with
    | error e => rw [ha] at h; subst h; exact hi.2
    | ok x =>
      obtain ⟨v, d⟩ := x
      rw [ha] at h
      dsimp only at h
      obtain ⟨hv, hd, -⟩ := argsOrCurrent_plain hi hp.1 hp.2 ha
      split at h
      · rename_i hd'
        refine noDangling_setCurrentConfig hi ?_ (hd.resolve_left hd') h
        split
        · exact plain_default
        · rename_i h1; exact hv.resolve_left h1
      · subst h; exact hi.2

theorem cliUniqueConfig_ok {fs : FS} (hi : Inv fs) {w new : Name} (hw : Plain w) (hd : view fs [w, configsDir] = some .dir) :
    ∃ r, cliUniqueConfig fs w new = .ok r := by
  obtain ⟨names, h⟩ := configNames_some hw hi.1.1 hd
  unfold cliUniqueConfig
  rw [h]
  exact ⟨_, rfl⟩

/-- **C131 is violated by removing and renaming the current configuration**, in every state that has one: killed between the removal
(renaming) and the new marker, the command leaves a marker with the name of a configuration that does not exist. -/
theorem interrupted_config_violated (t : Templates) (fs : FS) (hi : Inv fs) (w c : Name) (hw : Plain w) (hc : Plain c)
    (hcur : getCurrentConfig fs w = .ok (some c)) (hd : view fs [w, "configs".toList, c] = some .dir) :
    (∃ g, duringCfg t fs (.remove w c) g ∧ getCurrentConfig g w = .ok (some c) ∧ view g [w, "configs".toList, c] = none) ∧
    (∀ new, Plain new → ∃ g, duringCfg t fs (.rename w c new) g ∧ getCurrentConfig g w = .ok (some c) ∧
      view g [w, "configs".toList, c] = none) := by
  have ha : argsOrCurrent fs w c = .ok (w, c) := by
    unfold argsOrCurrent argOrCurrent
    rw [if_pos hw.1]
    dsimp only
    rw [if_neg (fun h => hc.1 h.2)]
  have hpath : cfgPath w c = [w, configsDir, c] := cfgPath_plain hw.1 hc.1
  have hd' : view fs [w, configsDir, c] = some .dir := hd
  have hcd : view fs [w, configsDir] = some .dir := hi.1.1 [w, configsDir] c (by
    show view fs [w, configsDir, c] ≠ none
    rw [hd']; simp)
  have hwd : view fs [w] = some .dir := hi.1.1 [w] configsDir (by
    show view fs [w, configsDir] ≠ none
    rw [hcd]; simp)
  have hrd : readline fs (cfgMarker w) = some c := by
    rw [getCurrentConfig_ok hw hi.1.1 hcd] at hcur
    injection hcur
  have hwx : fs.exists? (wsPath w) = true := by
    rw [wsPath, comp_plain hw.1, FS.exists?_iff]
    show view fs [w] ≠ none
    rw [hwd]; simp
  have hcx : fs.exists? (cfgPath w c) = true := by
    rw [hpath, FS.exists?_iff]
    show view fs [w, configsDir, c] ≠ none
    rw [hd']; simp
  have still : ∀ (g : FS) (new : Name), Plain new → Only fs g (fun r => [w, configsDir, c] <+: r ∨ [w, configsDir, new] <+: r) →
      getCurrentConfig g w = .ok (some c) := by
    intro g new hn hg
    unfold getCurrentConfig
    rw [if_neg, marker_kept hw hc hn hg, hrd]
    rw [not_not, wsPath, comp_plain hw.1, FS.exists?_iff]
    show view g [w] ≠ none
    rw [hg, hwd]
    · simp
    · rintro (h | h)
      · have := h.length_le; simp at this
      · have := h.length_le; simp at this
  constructor
  · refine ⟨fs.rmtree (cfgPath w c), ?_, still _ c hc ?_, ?_⟩
    · simp only [duringCfg, ha]
      rw [if_neg hw.1, if_neg hc.1]
      left
      unfold duringDeleteConfig
      rw [if_neg (by rw [hwx]; simp), if_neg (by rw [hcx]; simp), if_pos ((FS.isDir_iff _ _).2 (by rw [hpath]; exact hd'))]
      exact during_rmtree_ends
    · intro r hr
      rw [hpath]
      exact only_rmtree fs _ r (fun h => hr (.inl h))
    · show Dict.get? _ [w, configsDir, c] = none
      rw [FS.get?_rmtree, hpath, if_pos (List.prefix_refl _)]
  · intro new hn
    obtain ⟨new', hu⟩ := cliUniqueConfig_ok hi (new := new) hw hcd
    obtain ⟨hpn, hfree⟩ := cliUniqueConfig_spec hi.1 hw hn hu
    have hne : c ≠ new' := by
      rintro rfl
      change view fs [w, configsDir, c] = none at hfree
      rw [hfree] at hd'; cases hd'
    have hnp : cfgPath w new' = [w, configsDir, new'] := cfgPath_plain hw.1 hpn.1
    have hdisj : ¬ [w, configsDir, c] <+: [w, configsDir, new'] := by
      intro h
      have h1 := List.IsPrefix.eq_of_length_le h (by simp)
      simp only [List.cons.injEq, and_true, true_and] at h1
      exact hne h1
    obtain ⟨fs', h1, h2⟩ := renameChecked_free hi.1.1 (p := [w, configsDir, c]) (q := [w, configsDir, new']) hfree
      (by intro h; simp only [List.cons.injEq, and_true, true_and] at h; exact hne h) hdisj
    have hren : renameConfig fs w c new' = (.ok (), fs') := by
      unfold renameConfig
      rw [if_neg (by rw [hwx]; simp), if_neg (by rw [hcx]; simp), hpath, hnp, h1]
    refine ⟨fs', ?_, still _ new' hpn ?_, ?_⟩
    · simp only [duringCfg, ha, hu]
      rw [if_neg hw.1, if_neg hc.1]
      left
      right
      rw [hren]
    · intro r hr
      rw [not_or] at hr
      rw [h2, if_neg hr.2, if_neg hr.1]
    · show view fs' [w, configsDir, c] = none
      rw [h2, if_neg, if_pos (List.prefix_refl _)]
      intro h
      have h3 := List.IsPrefix.eq_of_length_le h (by simp)
      simp only [List.cons.injEq, and_true, true_and] at h3
      exact hne h3.symm

/-! ## Examples -/

/-- A workspace with two configurations, of which the second is the current one. -/
def markedConfigs : FS :=
  cliSession ⟨[], [], []⟩ [] [.ws (.add "w".toList), .cfg (.add [] "a".toList), .cfg (.add "w".toList "b".toList)]

example : Inv markedConfigs ∧ getCurrentConfig markedConfigs "w".toList = .ok (some "b".toList) ∧
    view markedConfigs ["w".toList, "configs".toList, "b".toList] = some .dir ∧
    CfgCmd.meant markedConfigs (.remove [] "a".toList) = some ("w".toList, "a".toList) ∧ CfgCmd.PlainNames (.remove [] "a".toList) := by
  refine ⟨inv_session _ _ empty_is_tidied _ ?_, by decide +kernel, by decide +kernel, by decide +kernel, .inl rfl, .inr (by decide +kernel)⟩
  intro c hc
  simp only [List.mem_cons, List.not_mem_nil, or_false] at hc
  rcases hc with rfl | rfl | rfl
  · exact .inr (by decide)
  · exact ⟨.inl rfl, by decide⟩
  · exact ⟨.inr (by decide), by decide⟩

end Dedop.Workspace
