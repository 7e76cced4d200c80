import Verif.Workspace.CrashConfigs
import Verif.Workspace.CrashRepeat

/-!
# Repeating an interrupted configuration command (C118)
-/
namespace Dedop.Workspace
open Dedop.Names

theorem args_given {f : FS} {w c : Name} (hw : w ≠ []) (hc : c ≠ []) : argsOrCurrent f w c = .ok (w, c) := by
  unfold argsOrCurrent argOrCurrent
  rw [if_pos hw]
  dsimp only
  rw [if_neg (fun h => hc h.2)]

/-- **C118, `config remove`.**  As long as a killed `config remove` has left the directory of the configuration, repeating it has the
same outcome and leaves the same files as if it had not been killed. -/
theorem repeat_config_remove (t : Templates) (fs g : FS) (w c : Name) (hw : Plain w) (hc : Plain c)
    (h : duringCfg t fs (.remove w c) g) (hd : view g [w, "configs".toList, c] = some .dir) :
    cliCfg t g (.remove w c) = cliCfg t fs (.remove w c) := by
  have hd' : view g [w, configsDir, c] = some .dir := hd
  have hpath : cfgPath w c = [w, configsDir, c] := cfgPath_plain hw.1 hc.1
  have hwp : wsPath w = [w] := by rw [wsPath, comp_plain hw.1]
  simp only [duringCfg, args_given hw.1 hc.1] at h
  rw [if_neg hw.1, if_neg hc.1] at h
  have key : deleteConfig g w c = deleteConfig fs w c := by
    rcases h with h | h
    · unfold duringDeleteConfig at h
      split at h
      · subst h; rfl
      split at h
      · subst h; rfl
      split at h
      · rename_i h1 h2 h3
        unfold deleteConfig
        rw [if_neg h1, if_neg h2, if_pos h3, if_neg, if_neg, if_pos]
        · rw [rmtree_rest h]
        · rw [hpath]; exact (FS.isDir_iff _ _).2 hd'
        · rw [not_not, hpath, FS.exists?_iff]; show view g _ ≠ none; rw [hd']; simp
        · rw [not_not, hwp, FS.exists?_iff]
          show view g [w] ≠ none
          rw [only_duringRmtree h [w] (by rw [hpath]; intro h4; have := h4.length_le; simp at this)]
          rw [not_not, hwp, FS.exists?_iff] at h1
          exact h1
      · subst h; rfl
    · exfalso
      rcases hcr : deleteConfig fs w c with ⟨r, fs1⟩
      rw [hcr] at h
      cases r with
      | error e => exact h
      | ok u =>
        have h1 : view fs1 [w, configsDir, c] = none := by
          unfold deleteConfig at hcr
          split at hcr
          · cases hcr
          split at hcr
          · cases hcr
          split at hcr
          · cases hcr
            show Dict.get? _ _ = none
            rw [FS.get?_rmtree, hpath, if_pos (List.prefix_refl _)]
          · cases hcr
        dsimp only at h
        have hset : ∀ x, duringSetCurrentConfig fs1 w x g → view g [w, configsDir, c] = view fs1 [w, configsDir, c] := by
          intro x hx
          unfold duringSetCurrentConfig at hx
          split at hx
          · subst hx; rfl
          split at hx
          · subst hx; rfl
          refine only_duringWriteline hx _ ?_
          rw [cfgMarker_eq hw]
          intro h3
          simp only [List.cons_append, List.nil_append, List.cons.injEq, and_true, true_and] at h3
          exact not_current hc h3
        have h2 : view g [w, configsDir, c] = view fs1 [w, configsDir, c] := by
          split at h
          · subst h; rfl
          · split at h
            · split at h
              · exact hset _ h
              · subst h; rfl
            · subst h; rfl
        rw [h2, h1] at hd'
        cases hd'
  simp only [cliCfg, args_given hw.1 hc.1, key]
  rw [if_neg hw.1, if_neg hw.1, if_neg hc.1, if_neg hc.1]

/-- **C118, `config current`.**  Wherever a `config current` was killed, repeating it leaves the same files. -/
theorem repeat_config_current (t : Templates) (fs g : FS) (hi : Inv fs) (w c : Name) (hw : Plain w) (hc : Plain c)
    (h : duringCfg t fs (.current w c) g) :
    (cliCfg t g (.current w c)).1 = (cliCfg t fs (.current w c)).1 ∧
    ∀ r, view (cliCfg t g (.current w c)).2 r = view (cliCfg t fs (.current w c)).2 r := by
  have hpath : cfgPath w c = [w, configsDir, c] := cfgPath_plain hw.1 hc.1
  have hwp : wsPath w = [w] := by rw [wsPath, comp_plain hw.1]
  have hmark : cfgMarker w = [w, configsDir] ++ [currentFile] := cfgMarker_eq hw
  simp only [duringCfg, args_given hw.1 hc.1] at h
  rw [if_neg hw.1, if_pos hc.1] at h
  simp only [cliCfg, args_given hw.1 hc.1]
  rw [if_neg hw.1, if_pos hc.1, if_pos hc.1]
  unfold duringSetCurrentConfig at h
  split at h
  · subst h; exact ⟨rfl, fun _ => rfl⟩
  rename_i hwx
  split at h
  · subst h; exact ⟨rfl, fun _ => rfl⟩
  rename_i hcx
  rw [not_not] at hwx hcx
  have key : ∀ s, fs.write (cfgMarker w) s = .ok g → (setCurrentConfig g w c).1 = (setCurrentConfig fs w c).1 ∧
      ∀ r, view (setCurrentConfig g w c).2 r = view (setCurrentConfig fs w c).2 r := by
    intro s hwr
    have hv : ∀ r, view g r = if r = cfgMarker w then some (.file s) else view fs r := fun r => FS.write_ok hwr r
    have hne1 : ([w] : Path) ≠ cfgMarker w := by rw [hmark]; simp
    have hne2 : ([w, configsDir, c] : Path) ≠ cfgMarker w := by
      rw [hmark]
      intro h3
      simp only [List.cons_append, List.nil_append, List.cons.injEq, and_true, true_and] at h3
      exact not_current hc h3
    have hne3 : ([w, configsDir] : Path) ≠ cfgMarker w := by rw [hmark]; simp
    have hcd : view fs [w, configsDir] = some .dir := by
      rw [hpath, FS.exists?_iff] at hcx
      exact hi.1.1 [w, configsDir] c hcx
    have hwg : g.exists? (wsPath w) = true := by
      rw [hwp, FS.exists?_iff] at hwx ⊢
      show view g [w] ≠ none
      rw [hv, if_neg hne1]
      exact hwx
    have hcg : g.exists? (cfgPath w c) = true := by
      rw [hpath, FS.exists?_iff] at hcx ⊢
      show view g [w, configsDir, c] ≠ none
      rw [hv, if_neg hne2]
      exact hcx
    unfold setCurrentConfig
    rw [if_neg (by rw [hwg]; simp), if_neg (by rw [hcg]; simp), if_neg (by rw [hwx]; simp), if_neg (by rw [hcx]; simp)]
    unfold writeline
    rw [FS.write_succeeds fs (cfgMarker w) c (by rw [hmark, List.dropLast_concat]; exact hcd)
        (by rw [hmark]; exact marker_not_dir hi.1 (level_cfg hw)),
      FS.write_succeeds g (cfgMarker w) c
        (by rw [hmark, List.dropLast_concat]; show view g _ = _; rw [hv, if_neg hne3]; exact hcd)
        (by show view g _ ≠ _; rw [hv, if_pos rfl]; simp)]
    refine ⟨rfl, ?_⟩
    intro r
    show Dict.get? _ r = Dict.get? _ r
    rw [FS.get?_set, FS.get?_set]
    split
    · rfl
    · rename_i hr
      show view g r = view fs r
      rw [hv, if_neg hr]
  rcases h with rfl | h | h
  · exact ⟨rfl, fun _ => rfl⟩
  · exact key [] h
  · exact key c h

/-- **C118 is violated by `config remove` of the current configuration**, in every state that has one: killed after the directory is
gone, the command cannot be completed by repeating it, with or without the name, and the marker stays. -/
theorem repeat_config_remove_violated (t : Templates) (fs : FS) (hi : Inv fs) (w c : Name) (hw : Plain w) (hc : Plain c)
    (hcur : getCurrentConfig fs w = .ok (some c)) (hd : view fs [w, "configs".toList, c] = some .dir) :
    ∃ g, duringCfg t fs (.remove w c) g ∧ (∃ e, cliCfg t g (.remove w c) = (.error e, g)) ∧
      (∃ e, cliCfg t g (.remove w []) = (.error e, g)) ∧ getCurrentConfig g w = .ok (some c) := by
  obtain ⟨⟨g, h1, h2, h3⟩, -⟩ := interrupted_config_violated t fs hi w c hw hc hcur hd
  have hpath : cfgPath w c = [w, configsDir, c] := cfgPath_plain hw.1 hc.1
  have hnone : ∃ e, deleteConfig g w c = (.error e, g) := by
    unfold deleteConfig
    split
    · exact ⟨_, rfl⟩
    rw [if_pos]
    · exact ⟨_, rfl⟩
    · rw [hpath, FS.exists?_iff, not_not]; exact h3
  obtain ⟨e, he⟩ := hnone
  refine ⟨g, h1, ⟨e, ?_⟩, ⟨e, ?_⟩, h2⟩
  · simp only [cliCfg, args_given hw.1 hc.1]
    rw [if_neg hw.1, if_neg hc.1, he]
  · have h0 : argsOrCurrent g w [] = .ok (w, c) := by
      unfold argsOrCurrent argOrCurrent
      rw [if_pos hw.1]
      dsimp only
      rw [if_pos ⟨hw.1, rfl⟩, h2]
      rfl
    simp only [cliCfg, h0]
    rw [if_neg hw.1, if_neg hc.1, he]

/-- Non-vacuity: a removal killed half-way, which is then completed. -/
example : ∃ g, duringCfg ⟨[], [], []⟩ markedConfigs (.remove "w".toList "a".toList) g ∧ g ≠ markedConfigs ∧
    view g ["w".toList, "configs".toList, "a".toList] = some .dir := by
  refine ⟨markedConfigs.filter (fun e => !(decide (["w".toList, "configs".toList, "a".toList, "CHD.json".toList] <+: e.1))), ?_, by decide +kernel, by decide +kernel⟩
  left
  show duringDeleteConfig _ _ _ _
  unfold duringDeleteConfig
  rw [if_neg (by decide +kernel), if_neg (by decide +kernel), if_pos (by decide +kernel)]
  refine ⟨fun r => decide (["w".toList, "configs".toList, "a".toList, "CHD.json".toList] <+: r), ?_, ?_, rfl⟩
  · intro r hr
    exact List.IsPrefix.trans (by decide +kernel) (of_decide_eq_true hr)
  · intro r r' hr h
    exact decide_eq_true ((of_decide_eq_true hr).trans h)

end Dedop.Workspace
