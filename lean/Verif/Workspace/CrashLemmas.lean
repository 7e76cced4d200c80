import Verif.Workspace.Crash
import Verif.Workspace.FrameProps

namespace Dedop.Workspace
open Dedop.Names

/-! ## What the single steps may change -/

theorem only_write {fs g : FS} {p : Path} {s : Name} (h : fs.write p s = .ok g) : Only fs g (fun r => r = p) := by
  intro r hr
  show Dict.get? g r = Dict.get? fs r
  rw [FS.write_ok h r, if_neg hr]

theorem only_duringWriteline {fs g : FS} {p : Path} {s : Name} (h : duringWriteline fs p s g) : Only fs g (fun r => r = p) := by
  rcases h with rfl | h | h
  · exact Only.rfl'
  · exact only_write h
  · exact only_write h

theorem only_duringCopyResource {fs g : FS} {p : Path} {s : Name} (h : duringCopyResource fs p s g) :
    Only fs g (fun r => r = p) := by
  rcases h with rfl | ⟨k, h⟩
  · exact Only.rfl'
  · exact only_write h

theorem only_duringEnsureDir {fs g : FS} {p : Path} (h : duringEnsureDir fs p g) :
    Only fs g (fun r => r <+: p ∧ view fs r = none) := by
  rcases h with rfl | ⟨-, k, h⟩
  · exact Only.rfl'
  · intro r hr
    show Dict.get? g r = Dict.get? fs r
    rw [FS.makedirs_ok h r]
    split
    · rename_i h1
      rcases makedirs_dirs h r h1 with h2 | h2
      · exact absurd ⟨h1.trans (List.take_prefix _ _), h2⟩ hr
      · exact h2.symm
    · rfl

theorem only_duringRmtree {fs g : FS} {p : Path} (h : duringRmtree fs p g) : Only fs g (fun r => p <+: r) := by
  obtain ⟨D, h1, -, rfl⟩ := h
  intro r hr
  show Dict.get? _ r = Dict.get? fs r
  rw [FS.get?_filter fs (fun q => !D q) r]
  cases hD : D r with
  | false => rfl
  | true => exact absurd (h1 r hD) hr

theorem only_duringCopytree {fs g : FS} {p q : Path} (h : duringCopytree fs p q g) : Only fs g (fun r => q <+: r) := by
  rcases h with rfl | ⟨-, -, h, -⟩
  · exact Only.rfl'
  · exact h

theorem only_duringCreateConfig {fs g : FS} {w c : Name} {t : Templates} (h : duringCreateConfig fs w c t g) :
    Only fs g (fun r => (r <+: cfgPath w c ∧ view fs r = none) ∨
      r = cfgPath w c ++ [chdFile] ∨ r = cfgPath w c ++ [cnfFile] ∨ r = cfgPath w c ++ [cstFile]) := by
  unfold duringCreateConfig at h
  split at h
  · subst h; exact Only.rfl'
  split at h
  · subst h; exact Only.rfl'
  rcases h with h | h
  · exact (only_duringEnsureDir h).mono (fun r hr => Or.inl hr)
  have h1 := (only_ensureDir fs (cfgPath w c)).mono (Q := fun r =>
    (r <+: cfgPath w c ∧ view fs r = none) ∨ r = cfgPath w c ++ [chdFile] ∨
    r = cfgPath w c ++ [cnfFile] ∨ r = cfgPath w c ++ [cstFile]) (fun r hr => Or.inl hr)
  rcases he : ensureDir fs (cfgPath w c) with ⟨r, fs1⟩
  rw [he] at h1 h
  cases r with
  | error e => exact h.elim
  | ok u =>
    simp only at h
    rcases h with h | h
    · exact h1.trans ((only_duringCopyResource h).mono (fun r hr => Or.inr (Or.inl hr)))
    have h2 := h1.trans ((only_writeline fs1 (cfgPath w c ++ [chdFile]) t.chd).mono
      (fun r hr => Or.inr (Or.inl hr)))
    rcases he2 : copyResource fs1 (cfgPath w c ++ [chdFile]) t.chd with ⟨r2, fs2⟩
    rw [he2] at h
    unfold copyResource at he2
    rw [he2] at h2
    cases r2 with
    | error e => exact h.elim
    | ok u =>
      simp only at h
      rcases h with h | h
      · exact h2.trans ((only_duringCopyResource h).mono (fun r hr => Or.inr (Or.inr (Or.inl hr))))
      have h3 := h2.trans ((only_writeline fs2 (cfgPath w c ++ [cnfFile]) t.cnf).mono
        (fun r hr => Or.inr (Or.inr (Or.inl hr))))
      rcases he3 : copyResource fs2 (cfgPath w c ++ [cnfFile]) t.cnf with ⟨r3, fs3⟩
      rw [he3] at h
      unfold copyResource at he3
      rw [he3] at h3
      cases r3 with
      | error e => exact h.elim
      | ok u => exact h3.trans ((only_duringCopyResource h).mono (fun r hr => Or.inr (Or.inr (Or.inr hr))))

/-- The paths which a call of the manager may change. -/
def MgrOp.reach (fs : FS) : MgrOp → Path → Prop
  | .createWs w => fun r => r <+: wsPath w ∧ view fs r = none
  | .deleteWs w => fun r => wsPath w <+: r
  | .copyWs _ new => fun r => wsPath new <+: r
  | .renameWs w new => fun r => wsPath w <+: r ∨ wsPath new <+: r
  | .createCfg w c => fun r => (r <+: cfgPath w c ∧ view fs r = none) ∨
      r = cfgPath w c ++ [chdFile] ∨ r = cfgPath w c ++ [cnfFile] ∨ r = cfgPath w c ++ [cstFile]
  | .deleteCfg w c => fun r => cfgPath w c <+: r
  | .copyCfg w _ new => fun r => cfgPath w new <+: r
  | .renameCfg w c new => fun r => cfgPath w c <+: r ∨ cfgPath w new <+: r
  | .setCfg w _ => fun r => r = cfgMarker w

theorem only_duringMgr {t : Templates} {fs g : FS} {op : MgrOp} (h : duringMgr t fs op g) : Only fs g (op.reach fs) := by
  cases op with
  | createWs w =>
    simp only [duringMgr, duringCreateWorkspace] at h
    split at h
    · subst h; exact Only.rfl'
    split at h
    · subst h; exact Only.rfl'
    · exact only_duringEnsureDir h
  | deleteWs w =>
    simp only [duringMgr, duringDeleteWorkspace] at h
    split at h
    · subst h; exact Only.rfl'
    split at h
    · exact only_duringRmtree h
    · subst h; exact Only.rfl'
  | copyWs w new =>
    simp only [duringMgr, duringCopyWorkspace] at h
    split at h
    · subst h; exact Only.rfl'
    split at h
    · exact only_duringCopytree h
    · subst h; exact Only.rfl'
  | renameWs w new =>
    rcases h with rfl | rfl
    · exact Only.rfl'
    · exact only_renameWorkspace fs w new
  | createCfg w c => exact only_duringCreateConfig h
  | deleteCfg w c =>
    simp only [duringMgr, duringDeleteConfig] at h
    split at h
    · subst h; exact Only.rfl'
    split at h
    · subst h; exact Only.rfl'
    split at h
    · exact only_duringRmtree h
    · subst h; exact Only.rfl'
  | copyCfg w c new =>
    simp only [duringMgr, duringCopyConfig] at h
    split at h
    · subst h; exact Only.rfl'
    split at h
    · subst h; exact Only.rfl'
    · exact only_duringCopytree h
  | renameCfg w c new =>
    rcases h with rfl | rfl
    · exact Only.rfl'
    · exact only_renameConfig fs w c new
  | setCfg w c =>
    simp only [duringMgr, duringSetCurrentConfig] at h
    split at h
    · subst h; exact Only.rfl'
    split at h
    · subst h; exact Only.rfl'
    · exact only_duringWriteline h

/-! ## The states before and after are among those left -/

theorem during_write_ends {fs : FS} {p : Path} {s : Name} : duringWriteline fs p s (writeline fs p s).2 := by
  unfold writeline
  split
  · rename_i h; exact .inr (.inr h)
  · exact .inl rfl

theorem during_resource_ends {fs : FS} {p : Path} {s : Name} : duringCopyResource fs p s (copyResource fs p s).2 := by
  unfold copyResource writeline
  split
  · rename_i h; exact .inr ⟨s.length, by rw [List.take_length]; exact h⟩
  · exact .inl rfl

theorem during_ensure_ends {fs : FS} {p : Path} : duringEnsureDir fs p (ensureDir fs p).2 := by
  unfold ensureDir
  split
  · exact .inl rfl
  · rename_i h1
    split
    · rename_i h; exact .inr ⟨by simpa using h1, p.length, by rw [List.take_length]; exact h⟩
    · exact .inl rfl

theorem during_rmtree_ends {fs : FS} {p : Path} : duringRmtree fs p (fs.rmtree p) := by
  refine ⟨fun r => decide (p <+: r), by simp, ?_, ?_⟩
  · intro r r' h1 h2
    simp only [decide_eq_true_eq] at h1 ⊢
    exact h1.trans h2
  · unfold FS.rmtree; simp

theorem during_rmtree_begins {fs : FS} {p : Path} : duringRmtree fs p fs :=
  ⟨fun _ => false, by simp, by simp, by simp⟩

theorem begun_self (e : Option Entry) : Begun e e := by
  cases e with
  | none => exact .notYet _
  | some e =>
    cases e with
    | dir => exact .dir
    | file s => have := Begun.file s s.length; rwa [List.take_length] at this

theorem during_copytree_ends {fs : FS} (ht : IsTree (view fs)) {p q : Path} :
    duringCopytree fs p q (copytreeChecked fs p q).2 := by
  unfold copytreeChecked
  split
  · exact .inl rfl
  split
  · exact .inl rfl
  rename_i h1 h2
  have hq : view fs q = none := by
    by_contra h
    exact h2 ((FS.exists?_iff _ _).2 h)
  have hg := fun r => FS.get?_copytree fs p q r (fun t => tree_none_below ht hq t)
  have hin : ∀ t, view (fs.copytree p q) (q ++ t) = view fs (p ++ t) := by
    intro t
    show Dict.get? _ _ = Dict.get? _ _
    rw [hg, if_pos (List.prefix_append _ _), List.drop_left]
  refine .inr ⟨by simpa using h1, by simpa using h2, ?_, ?_, ?_⟩
  · intro r hr
    show Dict.get? _ _ = Dict.get? _ _
    rw [hg, if_neg hr]
  · intro t
    rw [hin]; exact begun_self _
  · intro t n h
    rw [List.append_assoc, hin, ← List.append_assoc] at h
    rw [hin]
    exact ht _ n h

/-- The state at the start is among those which a killed call may leave. -/
theorem during_begins (t : Templates) (fs : FS) (op : MgrOp) : duringMgr t fs op fs := by
  cases op with
  | createWs w =>
    simp only [duringMgr, duringCreateWorkspace]
    split
    · first | rfl | trivial
    split
    · first | rfl | trivial
    · exact .inl rfl
  | deleteWs w =>
    simp only [duringMgr, duringDeleteWorkspace]
    split
    · first | rfl | trivial
    split
    · exact during_rmtree_begins
    · first | rfl | trivial
  | copyWs w new =>
    simp only [duringMgr, duringCopyWorkspace]
    split
    · first | rfl | trivial
    split
    · exact .inl rfl
    · first | rfl | trivial
  | renameWs w new => exact .inl rfl
  | createCfg w c =>
    simp only [duringMgr, duringCreateConfig]
    split
    · first | rfl | trivial
    split
    · first | rfl | trivial
    · exact .inl (.inl rfl)
  | deleteCfg w c =>
    simp only [duringMgr, duringDeleteConfig]
    split
    · first | rfl | trivial
    split
    · first | rfl | trivial
    split
    · exact during_rmtree_begins
    · first | rfl | trivial
  | copyCfg w c new =>
    simp only [duringMgr, duringCopyConfig]
    split
    · first | rfl | trivial
    split
    · first | rfl | trivial
    · exact .inl rfl
  | renameCfg w c new => exact .inl rfl
  | setCfg w c =>
    simp only [duringMgr, duringSetCurrentConfig]
    split
    · first | rfl | trivial
    split
    · first | rfl | trivial
    · exact .inl rfl

/-- So is the state after the completed call (the model of C09–C15). -/
theorem during_ends (t : Templates) (fs : FS) (ht : IsTree (view fs)) (op : MgrOp) : duringMgr t fs op (mgr t fs op).2 := by
  cases op with
  | createWs w =>
    simp only [duringMgr, mgr, duringCreateWorkspace, createWorkspace]
    split
    · first | rfl | trivial
    split
    · first | rfl | trivial
    · exact during_ensure_ends
  | deleteWs w =>
    simp only [duringMgr, mgr, duringDeleteWorkspace, deleteWorkspace]
    split
    · first | rfl | trivial
    split
    · exact during_rmtree_ends
    · first | rfl | trivial
  | copyWs w new =>
    simp only [duringMgr, mgr, duringCopyWorkspace, copyWorkspace]
    split
    · first | rfl | trivial
    split
    · exact during_copytree_ends ht
    · first | rfl | trivial
  | renameWs w new => exact .inr rfl
  | createCfg w c =>
    simp only [duringMgr, mgr, duringCreateConfig, createConfig]
    split
    · first | rfl | trivial
    split
    · first | rfl | trivial
    · have h0 := during_ensure_ends (fs := fs) (p := cfgPath w c)
      rcases he : ensureDir fs (cfgPath w c) with ⟨r, fs1⟩
      rw [he] at h0
      cases r with
      | error e => exact .inl h0
      | ok u =>
        right
        simp only
        have h1 := during_resource_ends (fs := fs1) (p := cfgPath w c ++ [chdFile]) (s := t.chd)
        rcases he2 : copyResource fs1 (cfgPath w c ++ [chdFile]) t.chd with ⟨r2, fs2⟩
        rw [he2] at h1
        cases r2 with
        | error e => exact .inl h1
        | ok u =>
          right
          simp only
          have h2 := during_resource_ends (fs := fs2) (p := cfgPath w c ++ [cnfFile]) (s := t.cnf)
          rcases he3 : copyResource fs2 (cfgPath w c ++ [cnfFile]) t.cnf with ⟨r3, fs3⟩
          rw [he3] at h2
          cases r3 with
          | error e => exact .inl h2
          | ok u => exact .inr during_resource_ends
  | deleteCfg w c =>
    simp only [duringMgr, mgr, duringDeleteConfig, deleteConfig]
    split
    · first | rfl | trivial
    split
    · first | rfl | trivial
    split
    · exact during_rmtree_ends
    · first | rfl | trivial
  | copyCfg w c new =>
    simp only [duringMgr, mgr, duringCopyConfig, copyConfig]
    split
    · first | rfl | trivial
    split
    · first | rfl | trivial
    · exact during_copytree_ends ht
  | renameCfg w c new => exact .inr rfl
  | setCfg w c =>
    simp only [duringMgr, mgr, duringSetCurrentConfig, setCurrentConfig]
    split
    · first | rfl | trivial
    split
    · first | rfl | trivial
    · exact during_write_ends

end Dedop.Workspace
