import Verif.Workspace.CmdLemmas

namespace Dedop.Workspace
open Dedop.Names

/-- The two file systems agree outside of `P`. -/
def Only (fs fs' : FS) (P : Path → Prop) : Prop := ∀ r, ¬ P r → view fs' r = view fs r

theorem Only.rfl' {fs : FS} {P : Path → Prop} : Only fs fs P := fun _ _ => rfl

theorem Only.mono {fs fs' : FS} {P Q : Path → Prop} (h : Only fs fs' P) (hPQ : ∀ r, P r → Q r) :
    Only fs fs' Q := fun r hr => h r (fun hp => hr (hPQ r hp))

theorem Only.trans {fs fs' fs'' : FS} {P : Path → Prop} (h : Only fs fs' P) (h' : Only fs' fs'' P) :
    Only fs fs'' P := fun r hr => (h' r hr).trans (h r hr)

theorem only_rmtree (fs : FS) (p : Path) : Only fs (fs.rmtree p) (fun r => p <+: r) := by
  intro r hr
  show Dict.get? _ r = Dict.get? _ r
  rw [FS.get?_rmtree, if_neg hr]

theorem only_copytree (fs : FS) (p q : Path) : Only fs (fs.copytree p q) (fun r => q <+: r) := by
  intro r hr
  show Dict.get? _ r = Dict.get? _ r
  unfold FS.copytree
  rw [FS.get?_append, FS.get?_rebase, if_neg hr]
  cases Dict.get? fs r <;> rfl

theorem only_rename (fs : FS) (p q : Path) :
    Only fs (fs.rename p q) (fun r => p <+: r ∨ q <+: r) := by
  intro r hr
  rw [not_or] at hr
  show Dict.get? _ r = Dict.get? _ r
  unfold FS.rename
  rw [FS.get?_append, FS.get?_rebase, if_neg hr.2, FS.get?_rmtree, if_neg hr.1]
  cases Dict.get? fs r <;> rfl

theorem only_writeline (fs : FS) (p : Path) (s : Name) :
    Only fs (writeline fs p s).2 (fun r => r = p) := by
  rcases writeline_cases fs p s with h | h
  · intro r hr; rw [h.2.2.2, if_neg hr]
  · rw [h.2.1]; exact Only.rfl'

/-- `makedirs` succeeds only if nothing on the way is a regular file. -/
theorem makedirsFrom_dirs {fs fs' : FS} {pre t : Path} (h : fs.makedirsFrom pre t = .ok fs')
    (r : Path) (h1 : pre <+: r) (h2 : r <+: pre ++ t) :
    Dict.get? fs r = none ∨ Dict.get? fs r = some .dir := by
  induction t generalizing fs pre with
  | nil =>
    have : r = pre := by
      rw [List.append_nil] at h2
      exact List.IsPrefix.eq_of_length_le h2 h1.length_le
    subst this
    simp only [FS.makedirsFrom, FS.mkdirOk] at h
    split at h
    · rename_i hg; exact Or.inl hg
    · rename_i hg; exact Or.inr hg
    · cases h
  | cons c t ih =>
    simp only [FS.makedirsFrom] at h
    split at h
    · cases h
    · rename_i fs1 hm
      by_cases hr : r = pre
      · subst hr
        simp only [FS.mkdirOk] at hm
        split at hm
        · rename_i hg; exact Or.inl hg
        · rename_i hg; exact Or.inr hg
        · cases hm
      · have h3 : pre ++ [c] <+: r := by
          obtain ⟨s, rfl⟩ := h1
          cases s with
          | nil => simp at hr
          | cons d s =>
            rw [List.prefix_append_right_inj, List.cons_prefix_cons] at h2
            rw [h2.1, List.prefix_append_right_inj]
            simp
        have := ih h h3 (by simpa using h2)
        rwa [FS.mkdirOk_ok hm, if_neg hr] at this

theorem makedirs_dirs {fs fs' : FS} {p : Path} (h : fs.makedirs p = .ok fs') (r : Path)
    (h2 : r <+: p) : Dict.get? fs r = none ∨ Dict.get? fs r = some .dir :=
  makedirsFrom_dirs h r List.nil_prefix (by simpa using h2)

/-- `ensureDir` changes only directories that were missing. -/
theorem only_ensureDir (fs : FS) (p : Path) :
    Only fs (ensureDir fs p).2 (fun r => r <+: p ∧ view fs r = none) := by
  unfold ensureDir
  split
  · exact Only.rfl'
  · split
    · rename_i fs' h
      intro r hr
      show Dict.get? fs' r = Dict.get? fs r
      rw [FS.makedirs_ok h]
      split
      · rename_i hp
        rcases makedirs_dirs h r hp with h1 | h1
        · exact absurd ⟨hp, h1⟩ hr
        · exact h1.symm
      · rfl
    · exact Only.rfl'

theorem only_renameChecked {fs fs' : FS} {p q : Path} (h : renameChecked fs p q = .ok fs') :
    Only fs fs' (fun r => p <+: r ∨ q <+: r) := by
  unfold renameChecked at h
  split at h
  · cases h; exact Only.rfl'
  · split at h
    · cases h
    · split at h
      · cases h; exact only_rename fs p q
      · split at h
        · cases h
        · cases h
          exact ((only_rmtree fs q).mono (fun r hr => Or.inr hr)).trans (only_rename _ p q)
      · split at h
        · cases h
          exact ((only_rmtree fs q).mono (fun r hr => Or.inr hr)).trans (only_rename _ p q)
        · cases h

theorem only_moveChecked {fs fs' : FS} {p q : Path} (h : moveChecked fs p q = .ok fs') :
    Only fs fs' (fun r => p <+: r ∨ q <+: r) := by
  unfold moveChecked at h
  split at h
  · split at h
    · cases h; exact Only.rfl'
    · split at h
      · cases h
      · split at h
        · cases h
        · refine (only_renameChecked h).mono ?_
          rintro r (hr | hr)
          · exact Or.inl hr
          · exact Or.inr ((List.prefix_append _ _).trans hr)
  · exact only_renameChecked h

theorem only_createConfig (fs : FS) (w c : Name) (t : Templates) :
    Only fs (createConfig fs w c t).2 (fun r =>
      (r <+: cfgPath w c ∧ view fs r = none) ∨
      r = cfgPath w c ++ [chdFile] ∨ r = cfgPath w c ++ [cnfFile] ∨ r = cfgPath w c ++ [cstFile]) := by
  unfold createConfig
  split
  · exact Only.rfl'
  · split
    · exact Only.rfl'
    · have h1 := (only_ensureDir fs (cfgPath w c)).mono (Q := fun r =>
        (r <+: cfgPath w c ∧ view fs r = none) ∨ r = cfgPath w c ++ [chdFile] ∨
        r = cfgPath w c ++ [cnfFile] ∨ r = cfgPath w c ++ [cstFile]) (fun r hr => Or.inl hr)
      rcases he : ensureDir fs (cfgPath w c) with ⟨r, fs1⟩
      rw [he] at h1
      cases r with
      | error e => exact h1
      | ok u =>
        simp only
        have h2 := h1.trans ((only_writeline fs1 (cfgPath w c ++ [chdFile]) t.chd).mono
          (fun r hr => Or.inr (Or.inl hr)))
        rcases he2 : copyResource fs1 (cfgPath w c ++ [chdFile]) t.chd with ⟨r2, fs2⟩
        unfold copyResource at he2
        rw [he2] at h2
        cases r2 with
        | error e => exact h2
        | ok u =>
          simp only
          have h3 := h2.trans ((only_writeline fs2 (cfgPath w c ++ [cnfFile]) t.cnf).mono
            (fun r hr => Or.inr (Or.inr (Or.inl hr))))
          rcases he3 : copyResource fs2 (cfgPath w c ++ [cnfFile]) t.cnf with ⟨r3, fs3⟩
          unfold copyResource at he3
          rw [he3] at h3
          cases r3 with
          | error e => exact h3
          | ok u =>
            exact h3.trans ((only_writeline fs3 (cfgPath w c ++ [cstFile]) t.cst).mono
              (fun r hr => Or.inr (Or.inr (Or.inr hr))))

theorem only_deleteWorkspace (fs : FS) (w : Name) :
    Only fs (deleteWorkspace fs w).2 (fun r => wsPath w <+: r) := by
  unfold deleteWorkspace
  split
  · exact Only.rfl'
  · split
    · exact only_rmtree fs _
    · exact Only.rfl'

theorem only_createWorkspace (fs : FS) (w : Name) :
    Only fs (createWorkspace fs w).2 (fun r => r <+: wsPath w ∧ view fs r = none) := by
  unfold createWorkspace
  split
  · exact Only.rfl'
  · split
    · exact Only.rfl'
    · exact only_ensureDir fs _

theorem only_copytreeChecked (fs : FS) (p q : Path) :
    Only fs (copytreeChecked fs p q).2 (fun r => q <+: r) := by
  unfold copytreeChecked
  split
  · exact Only.rfl'
  · split
    · exact Only.rfl'
    · exact only_copytree fs _ _

theorem only_copyWorkspace (fs : FS) (w new : Name) :
    Only fs (copyWorkspace fs w new).2 (fun r => wsPath new <+: r) := by
  unfold copyWorkspace
  split
  · exact Only.rfl'
  · split
    · exact only_copytreeChecked fs _ _
    · exact Only.rfl'

theorem only_renameWorkspace (fs : FS) (w new : Name) :
    Only fs (renameWorkspace fs w new).2 (fun r => wsPath w <+: r ∨ wsPath new <+: r) := by
  unfold renameWorkspace
  split
  · exact Only.rfl'
  · split
    · exact Only.rfl'
    · split
      · split
        · rename_i h; exact only_moveChecked h
        · exact Only.rfl'
      · exact Only.rfl'

theorem only_deleteConfig (fs : FS) (w c : Name) :
    Only fs (deleteConfig fs w c).2 (fun r => cfgPath w c <+: r) := by
  unfold deleteConfig
  split
  · exact Only.rfl'
  · split
    · exact Only.rfl'
    · split
      · exact only_rmtree fs _
      · exact Only.rfl'

theorem only_copyConfig (fs : FS) (w c new : Name) :
    Only fs (copyConfig fs w c new).2 (fun r => cfgPath w new <+: r) := by
  unfold copyConfig
  split
  · exact Only.rfl'
  · split
    · exact Only.rfl'
    · exact only_copytreeChecked fs _ _

theorem only_renameConfig (fs : FS) (w c new : Name) :
    Only fs (renameConfig fs w c new).2 (fun r => cfgPath w c <+: r ∨ cfgPath w new <+: r) := by
  unfold renameConfig
  split
  · exact Only.rfl'
  · split
    · exact Only.rfl'
    · split
      · rename_i h; exact only_renameChecked h
      · exact Only.rfl'

theorem only_setCurrentConfig (fs : FS) (w c : Name) :
    Only fs (setCurrentConfig fs w c).2 (fun r => r = cfgMarker w) := by
  unfold setCurrentConfig
  split
  · exact Only.rfl'
  · split
    · exact Only.rfl'
    · exact only_writeline fs _ _

end Dedop.Workspace
