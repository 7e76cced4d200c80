import Verif.Workspace.RaceLemmas

/-!
# Calls that run at the same time

C121.
-/
namespace Dedop.Workspace
open Dedop.Names

/-! ## The steps of a call are the call -/

theorem run_unless (bad : FS → Bool) (e : PyErr) (k : Prog) (fs : FS) :
    (Prog.unless bad e k).run fs = if bad fs then (.error e, fs) else k.run fs := by
  simp only [Prog.unless, Prog.run]
  split <;> rfl

theorem run_change (f : FS → Res Unit) (fs : FS) : (Prog.change f (.done (.ok ()))).run fs = f fs := by
  simp only [Prog.run]
  rcases f fs with ⟨_ | _, _⟩ <;> rfl

/-- Without others the steps of a call have the effect of the call. -/
theorem run_whole (t : Templates) (c : Call) (fs : FS) : (c.prog t).run fs = c.whole t fs := by
  cases c with
  | createWs w =>
    simp only [Call.prog, Call.whole, createWsProg, createWorkspace, run_unless, run_change, decide_eq_true_eq, Bool.and_eq_true,
      Bool.not_eq_true', List.isEmpty_eq_false_iff]
  | deleteWs w =>
    simp only [Call.prog, Call.whole, deleteWsProg, deleteWorkspace, rmtreeChecked, run_unless, run_change, Bool.not_eq_true']
    by_cases h : fs.exists? (wsPath w) = true <;> simp [h]
  | copyWs w new =>
    simp only [Call.prog, Call.whole, copyWsProg, copyWorkspace, run_unless, Bool.not_eq_true']
    by_cases h : fs.exists? (wsPath w) = true
    · simp only [h]
      simp only [Prog.run]
      by_cases h0 : fs.exists? [] = true
      · simp only [h0, if_true]
        simpa using run_change _ fs
      · simp [h0, Prog.run]
    · simp [h]
  | createCfg w c =>
    simp only [Call.prog, Call.whole, createCfgProg, createConfig, run_unless, Bool.not_eq_true']
    by_cases h : fs.exists? (wsPath w) = true
    · simp only [h, Bool.true_eq_false, if_false, not_true]
      by_cases h1 : configExists fs w c = true
      · simp [h1]
      · simp only [h1, if_false]
        simp only [Prog.run]
        rcases ensureDir fs (cfgPath w c) with ⟨_ | _, fs1⟩
        · rfl
        · dsimp only
          rcases copyResource fs1 (cfgPath w c ++ [chdFile]) t.chd with ⟨_ | _, fs2⟩
          · rfl
          · dsimp only
            rcases copyResource fs2 (cfgPath w c ++ [cnfFile]) t.cnf with ⟨_ | _, fs3⟩
            · rfl
            · dsimp only
              rcases copyResource fs3 (cfgPath w c ++ [cstFile]) t.cst with ⟨_ | _, fs4⟩ <;> rfl
    · simp [h]
  | deleteCfg w c =>
    simp only [Call.prog, Call.whole, deleteCfgProg, deleteConfig, rmtreeChecked, run_unless, run_change, Bool.not_eq_true']
    by_cases h : fs.exists? (wsPath w) = true <;> by_cases h1 : fs.exists? (cfgPath w c) = true <;> simp [h, h1]
  | copyCfg w c new =>
    simp only [Call.prog, Call.whole, copyCfgProg, copyConfig, run_unless, run_change, Bool.not_eq_true']
    by_cases h : fs.exists? (wsPath w) = true <;> by_cases h1 : fs.exists? (cfgPath w c) = true <;> simp [h, h1]
  | setCfg w c =>
    simp only [Call.prog, Call.whole, setCfgProg, setCurrentConfig, run_unless, run_change, Bool.not_eq_true']
    by_cases h : fs.exists? (wsPath w) = true <;> by_cases h1 : fs.exists? (cfgPath w c) = true <;> simp [h, h1]

/-! ## A call is confined to the workspaces which it names -/

theorem exists_agree {R : Path → Prop} {fs fs' : FS} (h : Agree R fs fs') {p : Path} (hp : R p) : fs.exists? p = fs'.exists? p := by
  rw [Bool.eq_iff_iff, FS.exists?_iff, FS.exists?_iff]
  show view fs p ≠ _ ↔ view fs' p ≠ _
  rw [h p hp]

theorem isDir_agree {R : Path → Prop} {fs fs' : FS} (h : Agree R fs fs') {p : Path} (hp : R p) : fs.isDir p = fs'.isDir p := by
  rw [Bool.eq_iff_iff, FS.isDir_iff, FS.isDir_iff]
  show view fs p = _ ↔ view fs' p = _
  rw [h p hp]

theorem empty_agree {R : Path → Prop} {fs fs' : FS} (h : Agree R fs fs') {p : Path} (hp : ∀ n, R (p ++ [n])) :
    (fs.listdir p).isEmpty = (fs'.listdir p).isEmpty := by
  rw [Bool.eq_iff_iff, List.isEmpty_iff, List.isEmpty_iff, List.eq_nil_iff_forall_not_mem, List.eq_nil_iff_forall_not_mem]
  simp only [FS.mem_listdir]
  refine forall_congr' fun n => not_congr ?_
  show view fs _ ≠ _ ↔ view fs' _ ≠ _
  rw [h _ (hp n)]

theorem confined_unless {R : Path → Prop} {bad : FS → Bool} {e : PyErr} {k : Prog}
    (hb : ∀ fs fs', Agree R fs fs' → bad fs = bad fs') (hk : Confined R k) : Confined R (Prog.unless bad e k) := by
  refine .look (fun fs fs' _ _ ha => ?_) (fun fs _ => ?_)
  · rw [hb fs fs' ha]
  · split
    · exact .done _
    · exact hk

theorem confined (t : Templates) (c : Call) (hne : [] ∉ c.names) : Confined (Within c.names) (c.prog t) := by
  have ws : ∀ {w : Name}, w ∈ c.names → [w] <+: wsPath w := by
    intro w hw
    rw [wsPath, comp_plain (by rintro rfl; exact hne hw)]
  have cfg : ∀ {w : Name} (x : Name), w ∈ c.names → [w] <+: cfgPath w x := by
    intro w x hw
    rw [cfgPath, comp_plain (by rintro rfl; exact hne hw), List.append_assoc]
    exact List.prefix_append _ _
  have ex : ∀ {w : Name} {p : Path}, w ∈ c.names → [w] <+: p → ∀ fs fs', Agree (Within c.names) fs fs' →
      (!fs.exists? p) = !fs'.exists? p := by
    intro w p hw hp fs fs' ha
    rw [exists_agree ha ⟨w, hw, hp⟩]
  cases c with
  | createWs w =>
    have hw : w ∈ (Call.createWs w).names := by simp [Call.names]
    refine confined_unless (fun _ _ _ => rfl) (confined_unless (fun fs fs' ha => ?_) (.change (fine_ensureDir hw (ws hw)) (.done _)))
    rw [isDir_agree ha ⟨w, hw, ws hw⟩, empty_agree ha fun n => ⟨w, hw, (ws hw).trans (List.prefix_append _ _)⟩]
  | deleteWs w =>
    have hw : w ∈ (Call.deleteWs w).names := by simp [Call.names]
    exact confined_unless (ex hw (ws hw)) (.change (fine_rmtree hw (ws hw)) (.done _))
  | copyWs w new =>
    have hw : w ∈ (Call.copyWs w new).names := by simp [Call.names]
    have hn : new ∈ (Call.copyWs w new).names := by simp [Call.names]
    refine confined_unless (ex hw (ws hw)) (.look (fun fs fs' hg hg' _ => ?_) (fun fs hg => ?_))
    · have h1 : fs.exists? [] = true := by rw [FS.exists?_iff]; show view fs [] ≠ none; rw [hg.2]; simp
      have h2 : fs'.exists? [] = true := by rw [FS.exists?_iff]; show view fs' [] ≠ none; rw [hg'.2]; simp
      rw [h1, h2]
    · split
      · refine .change (fine_copytree hw hn (ws hw) (ws hn) fun fs hg _ _ => ?_) (.done _)
        have hn0 : new ≠ [] := by rintro rfl; exact hne hn
        rw [wsPath, comp_plain hn0]
        exact hg.2
      · exact .done _
  | createCfg w x =>
    have hw : w ∈ (Call.createCfg w x).names := by simp [Call.names]
    have hwr : ∀ (f s : Name), Fine (Within (Call.createCfg w x).names) fun fs => copyResource fs (cfgPath w x ++ [f]) s :=
      fun f s => fine_writeline hw (by simpa using cfg x hw) s
    refine confined_unless (ex hw (ws hw)) (confined_unless (fun fs fs' ha => ?_)
      (.change (fine_ensureDir hw (cfg x hw)) (.change (hwr _ _) (.change (hwr _ _) (.change (hwr _ _) (.done _))))))
    unfold configExists
    rw [isDir_agree ha ⟨w, hw, cfg x hw⟩, empty_agree ha fun n => ⟨w, hw, (cfg x hw).trans (List.prefix_append _ _)⟩]
  | deleteCfg w x =>
    have hw : w ∈ (Call.deleteCfg w x).names := by simp [Call.names]
    exact confined_unless (ex hw (ws hw)) (confined_unless (ex hw (cfg x hw)) (.change (fine_rmtree hw (cfg x hw)) (.done _)))
  | copyCfg w x new =>
    have hw : w ∈ (Call.copyCfg w x new).names := by simp [Call.names]
    refine confined_unless (ex hw (ws hw)) (confined_unless (ex hw (cfg x hw))
      (.change (fine_copytree hw hw (cfg x hw) (cfg new hw) fun fs hg h1 h2 => ?_) (.done _)))
    by_cases hx : x = [] <;> by_cases hn : new = []
    · subst hx; subst hn
      rw [h1] at h2; cases h2
    · subst hx
      simpa [cfgPath, comp, hn] using h1
    · subst hn
      exfalso
      have : view fs (cfgPath w []) = some .dir := by
        have h3 : view fs (comp w ++ [configsDir] ++ [x]) = some .dir := by simpa [cfgPath, comp, hx] using h1
        have := hg.1 (comp w ++ [configsDir]) x (by rw [h3]; simp)
        simpa [cfgPath, comp] using this
      rw [this] at h2; cases h2
    · have : view fs (comp w ++ [configsDir]) = some .dir := hg.1 _ x (by
        have : view fs (comp w ++ [configsDir] ++ [x]) = some .dir := by simpa [cfgPath, comp, hx] using h1
        rw [this]; simp)
      simpa [cfgPath, comp, hn] using this
  | setCfg w x =>
    have hw : w ∈ (Call.setCfg w x).names := by simp [Call.names]
    refine confined_unless (ex hw (ws hw)) (confined_unless (ex hw (cfg x hw)) (.change (fine_writeline hw ?_ x) (.done _)))
    have hw0 : w ≠ [] := by rintro rfl; exact hne hw
    simp [cfgMarker, comp_plain hw0]

/-- **C121, different workspaces.**  Two calls at the same time which name different workspaces have, in every order of their steps, the
results and the effect which they have one after the other. -/
theorem concurrent_apart (t : Templates) (a b : Call) (ha : [] ∉ a.names) (hb : [] ∉ b.names) (hab : ∀ w ∈ a.names, w ∉ b.names)
    (fs fs' : FS) (htree : IsTree (view fs)) (hroot : view fs [] = some .dir) (r s : Except PyErr Unit)
    (h : Both (a.prog t) (b.prog t) fs r s fs') :
    r = (a.whole t fs).1 ∧ s = (b.whole t (a.whole t fs).2).1 ∧ view fs' = view (b.whole t (a.whole t fs).2).2 := by
  have hg : Good fs := ⟨htree, hroot⟩
  have hd : ∀ x, Within a.names x → ¬ Within b.names x := by
    rintro x ⟨v, hv, h1⟩ ⟨w, hw, h2⟩
    obtain ⟨t1, rfl⟩ := h1
    rw [List.singleton_append, List.cons_prefix_cons] at h2
    exact hab v hv (h2.1 ▸ hw)
  have hs := both_serial (a.prog t) (b.prog t) fs
  obtain ⟨c1, c2, c3, c4, c5⟩ := both_apart hd h (confined t a ha) (confined t b hb) hg
  obtain ⟨d1, d2, d3, d4, d5⟩ := both_apart hd hs (confined t a ha) (confined t b hb) hg
  simp only [run_whole] at c1 c2 c3 c4 c5 d1 d2 d3 d4 d5
  refine ⟨c1, c2.trans d2.symm, funext fun x => ?_⟩
  by_cases h1 : Within a.names x
  · rw [c3 x h1, d3 x h1]
  · by_cases h2 : Within b.names x
    · rw [c4 x h2, d4 x h2]
    · rw [c5 x h1 h2, d5 x h1 h2]

/-! ## Orders of steps -/

/-- Follow an order of steps (`true`: the first call); afterwards the first call is finished, then the second. -/
def follow : List Bool → Prog → Prog → FS → Except PyErr Unit × Except PyErr Unit × FS
  | [], p, q, fs => ((p.run fs).1, (q.run (p.run fs).2).1, (q.run (p.run fs).2).2)
  | true :: o, p, q, fs =>
    match p.step fs with
    | none => follow o p q fs
    | some (p', fs1) => follow o p' q fs1
  | false :: o, p, q, fs =>
    match q.step fs with
    | none => follow o p q fs
    | some (q', fs1) => follow o p q' fs1

theorem follow_both (o : List Bool) : ∀ (p q : Prog) (fs : FS), Both p q fs (follow o p q fs).1 (follow o p q fs).2.1 (follow o p q fs).2.2 := by
  induction o with
  | nil => intro p q fs; exact both_serial p q fs
  | cons b o ih =>
    intro p q fs
    cases b with
    | true =>
      rw [follow]
      split
      · exact ih _ _ _
      · rename_i h; exact .left h (ih _ _ _)
    | false =>
      rw [follow]
      split
      · exact ih _ _ _
      · rename_i h; exact .right h (ih _ _ _)

/-- Two calls have one of the two results of running one after the other. -/
def Serial (p q : Prog) (fs : FS) (r s : Except PyErr Unit) (fs' : FS) : Prop :=
  (r = (p.run fs).1 ∧ s = (q.run (p.run fs).2).1 ∧ view fs' = view (q.run (p.run fs).2).2) ∨
  (s = (q.run fs).1 ∧ r = (p.run (q.run fs).2).1 ∧ view fs' = view (p.run (q.run fs).2).2)

/-- **C121 fails for one configuration.**  Two calls that create the same configuration may both report success; one after the other the
second one fails. -/
theorem concurrent_create_violated : ∃ (t : Templates) (fs fs' : FS) (r s : Except PyErr Unit),
    IsTree (view fs) ∧ view fs [] = some .dir ∧ Both ((Call.createCfg ['w'] ['c']).prog t) ((Call.createCfg ['w'] ['c']).prog t) fs r s fs' ∧
      r = .ok () ∧ s = .ok () ∧ ¬ Serial ((Call.createCfg ['w'] ['c']).prog t) ((Call.createCfg ['w'] ['c']).prog t) fs r s fs' := by
  refine ⟨⟨['1'], ['2'], ['3']⟩, [([], .dir), ([['w']], .dir)], _, _, _, ?_, rfl,
    follow_both [true, true, false, false] _ _ _, by decide +kernel, by decide +kernel, ?_⟩
  · intro p n h
    have hk : p ++ [n] = [['w']] := by
      by_contra hne
      apply h
      have h0 : p ++ [n] ≠ [] := by simp
      simp [view, Dict.get?, hne, Ne.symm hne]
    have : p = [] := by
      have := congrArg List.length hk
      simpa using this
    subst this; rfl
  · have h : ∀ g : Except PyErr Unit × FS, (((Call.createCfg ['w'] ['c']).prog ⟨['1'], ['2'], ['3']⟩).run [([], .dir), ([['w']], .dir)]) = g →
        (((Call.createCfg ['w'] ['c']).prog ⟨['1'], ['2'], ['3']⟩).run g.2).1 = .error (.workspaceError "already contains") := by
      rintro g rfl; decide +kernel
    have h1 := h _ rfl
    rintro (⟨-, h2, -⟩ | ⟨-, h2, -⟩)
    · rw [h1] at h2
      exact absurd h2 (by decide +kernel)
    · rw [h1] at h2
      exact absurd h2 (by decide +kernel)

theorem step_unless {bad : FS → Bool} {e : PyErr} {k : Prog} {fs : FS} (h : bad fs = false) :
    (Prog.unless bad e k).step fs = some (k, fs) := by
  simp [Prog.unless, Prog.step, h]

/-- **C121 fails for the current workspace.**  If a workspace is deleted through the web service while another call makes it the current
one, both may succeed, and the current workspace does not exist afterwards. -/
theorem concurrent_current_violated (fs : FS) (ht : Tidied (view fs)) (hroot : view fs [] = some .dir) (x : Name) (hx : Plain x)
    (hex : view fs [x] = some .dir) :
    ∃ fs', Both (webDeleteProg x) (setWsProg x) fs (.ok ()) (.ok ()) fs' ∧ getCurrent fs' = some x ∧ view fs' [x] = none := by
  have hxp : wsPath x = [x] := comp_plain hx.1
  have he : fs.exists? (wsPath x) = true := by rw [hxp, FS.exists?_iff]; show view fs [x] ≠ none; rw [hex]; simp
  have hdir : fs.isDir (wsPath x) = true := by rw [hxp, FS.isDir_iff]; exact hex
  set fs1 := fs.rmtree (wsPath x) with hfs1
  have hv1 : ∀ r, view fs1 r = if [x] <+: r then none else view fs r := by
    intro r
    have := FS.get?_rmtree fs (wsPath x) r
    rw [hxp] at this
    rw [hfs1, hxp]; exact this
  have hcur : ¬ [x] <+: [currentFile] := not_prefix_marker hx
  have ht1 : Tidied (view fs1) := tidied_remove (p := [x]) (by simp) hv1 ht
  have hroot1 : view fs1 [] = some .dir := by rw [hv1, if_neg (by simp)]; exact hroot
  set fb := fallback (workspaceNames fs1) with hfb
  have hfbe : fs1.exists? (wsPath fb) = true := by
    rw [FS.exists?_iff]
    rcases fallback_mem (workspaceNames fs1) with h | h
    · rw [← hfb] at h
      rw [h]
      show view fs1 [] ≠ none
      rw [hroot1]; simp
    · rw [← hfb] at h
      have h2 := (mem_workspaceNames ht1 fb).1 h
      have h3 : Plain fb := plain_of_dir ht1 (b := []) root_level h2
      rw [wsPath, comp_plain h3.1]
      show view fs1 [fb] ≠ none
      rw [h2]; simp
  have hm1 : view fs1 [currentFile] ≠ some .dir := marker_not_dir ht1 (b := []) root_level
  rcases writeline_cases fs1 [currentFile] fb with h1 | h1
  · set fs2 := (writeline fs1 [currentFile] fb).2 with hfs2
    have hv2 := h1.2.2.2
    rcases writeline_cases fs2 [currentFile] x with h2 | h2
    · set fs3 := (writeline fs2 [currentFile] x).2 with hfs3
      have hv3 := h2.2.2.2
      refine ⟨fs3, ?_, ?_, ?_⟩
      · have e1 : (writeline fs1 [currentFile] fb) = (.ok (), fs2) := Prod.ext h1.1 rfl
        have e2 : (writeline fs2 [currentFile] x) = (.ok (), fs3) := Prod.ext h2.1 rfl
        refine .right (step_unless (by simp [he])) ?_
        refine .left (p' := (Prog.change (fun fs => rmtreeChecked fs (wsPath x)) (.done (.ok ()))).andThen
          (.look fun fs => setWsProg (fallback (workspaceNames fs)))) (fs1 := fs) (by
            simp [webDeleteProg, deleteWsProg, Prog.unless, Prog.andThen, Prog.step, he]) ?_
        refine .left (p' := .look fun fs => setWsProg (fallback (workspaceNames fs))) (fs1 := fs1) (by
            simp [Prog.andThen, Prog.step, rmtreeChecked, hdir, hfs1]) ?_
        refine .left (p' := setWsProg fb) (fs1 := fs1) rfl ?_
        refine .left (step_unless (by simp [hfbe])) ?_
        refine .left (p' := .done (.ok ())) (fs1 := fs2) (by simp [Prog.step, e1]) ?_
        refine .right (q' := .done (.ok ())) (fs1 := fs3) (by simp [Prog.step, e2]) ?_
        exact .ended _ _ _
      · have : view fs3 [currentFile] = some (.file x) := by rw [hv3, if_pos rfl]
        unfold getCurrent readline
        simp only [view] at this
        rw [this]
        simp [firstLine_plain (Or.inr hx)]
      · have hne : ([x] : Path) ≠ [currentFile] := by
          intro h
          exact hcur (h ▸ List.prefix_refl _)
        rw [hv3, if_neg hne, hv2, if_neg hne, hv1, if_pos (List.prefix_refl _)]
    · exfalso
      apply h2.2.2
      refine ⟨?_, ?_⟩
      · show view fs2 [] = _
        rw [hv2, if_neg (by simp)]; exact hroot1
      · rw [hv2, if_pos rfl]; simp
  · exact absurd ⟨hroot1, hm1⟩ h1.2.2

/-- **C121 fails for copies.**  Two commands which copy a workspace to the same new name, one after the other, both succeed, the second one
under another name.  At the same time both may choose the same name, and one of them fails. -/
theorem concurrent_copy_violated (fs : FS) (hinv : Inv fs) (w new : Name) (hw : Plain w) (hn : Plain new) (hex : view fs [w] = some .dir) :
    (cliWs fs (.copy w new)).1 = .ok () ∧ (cliWs (cliWs fs (.copy w new)).2 (.copy w new)).1 = .ok () ∧
      ∃ e fs', Both (cliCopyProg w new) (cliCopyProg w new) fs (.ok ()) (.error e) fs' := by
  have copyOk : ∀ g : FS, Inv g → view g [w] = some .dir → (cliWs g (.copy w new)).1 = .ok () ∧
      (cliWs g (.copy w new)).2 = (copyWorkspace g w (cliUnique g new)).2 ∧ Plain (cliUnique g new) ∧
      view (cliWs g (.copy w new)).2 [cliUnique g new] = some .dir ∧ view (cliWs g (.copy w new)).2 [w] = some .dir ∧
      (copyWorkspace g w (cliUnique g new)).1 = .ok () := by
    intro g hg hgw
    have hc : cliWs g (.copy w new) = copyWorkspace g w (cliUnique g new) := by
      simp [cliWs, argOrCurrent, hw.1, hn.1]
    rw [hc]
    rcases cliUnique_spec hg.1 (Or.inr hn) with h1 | ⟨hu, hfree⟩
    · exact absurd h1.1 hn.1
    · have hok : copyWorkspace g w (cliUnique g new) = (.ok (), g.copytree [w] [cliUnique g new]) := by
        have hroot := view_root_of hg.1 hgw
        unfold copyWorkspace copytreeChecked
        rw [wsPath, wsPath, comp_plain hw.1, comp_plain hu.1]
        simp only [view] at hgw hfree hroot
        have h1 : g.exists? [w] = true := by rw [FS.exists?_iff, hgw]; simp
        have h2 : g.exists? [] = true := by rw [FS.exists?_iff, hroot]; simp
        have h3 : g.isDir [w] = true := by rw [FS.isDir_iff]; exact hgw
        have h4 : g.exists? [cliUnique g new] = false := by rw [Bool.eq_false_iff, ne_eq, FS.exists?_iff, hfree]; simp
        simp [h1, h2, h3, h4]
      have hview : ∀ r, view (g.copytree [w] [cliUnique g new]) r =
          if [cliUnique g new] <+: r then view g ([w] ++ r.drop 1) else view g r := by
        intro r
        exact FS.get?_copytree g [w] [cliUnique g new] r (tree_none_below hg.1.1 hfree)
      rw [hok]
      refine ⟨rfl, rfl, hu, ?_, ?_, rfl⟩
      · rw [hview, if_pos (List.prefix_refl _)]
        simpa using hgw
      · rw [hview, if_neg]
        · exact hgw
        · intro h
          rw [List.cons_prefix_cons] at h
          rw [h.1] at hfree
          rw [hfree] at hgw; cases hgw
  obtain ⟨a1, a2, a3, a4, a5, a6⟩ := copyOk fs hinv hex
  have hinv1 : Inv (cliWs fs (.copy w new)).2 := inv_cli_copy hinv (Or.inr hw) (Or.inr hn)
  refine ⟨a1, (copyOk _ hinv1 a5).1, ?_⟩
  set u := cliUnique fs new with hu
  set fs1 := (copyWorkspace fs w u).2 with hfs1
  rw [a2] at a4 a5
  have hrun := run_whole ⟨[], [], []⟩ (.copyWs w u) fs
  simp only [Call.prog, Call.whole] at hrun
  have hcopy : copyWorkspace fs1 w u = (.error (.workspaceError "exists"), fs1) := by
    have hroot := (hinv1.1.1 [] w (by rw [a2]; show view fs1 [w] ≠ none; rw [a5]; simp))
    rw [a2] at hroot
    change view fs1 [] = some .dir at hroot
    change view fs1 [w] = some .dir at a5
    change view fs1 [u] = some .dir at a4
    unfold copyWorkspace copytreeChecked
    rw [wsPath, wsPath, comp_plain hw.1, comp_plain a3.1]
    simp only [view] at a4 a5 hroot
    have h1 : fs1.exists? [w] = true := by rw [FS.exists?_iff, a5]; simp
    have h2 : fs1.exists? [] = true := by rw [FS.exists?_iff, hroot]; simp
    have h3 : fs1.isDir [w] = true := by rw [FS.isDir_iff]; exact a5
    have h4 : fs1.exists? [u] = true := by rw [FS.exists?_iff, a4]; simp
    simp [h1, h2, h3, h4]
  have hrun1 := run_whole ⟨[], [], []⟩ (.copyWs w u) fs1
  simp only [Call.prog, Call.whole] at hrun1
  refine ⟨.workspaceError "exists", fs1, .left (p' := copyWsProg w u) (fs1 := fs) rfl (.right (q' := copyWsProg w u) (fs1 := fs) rfl ?_)⟩
  have hb := both_serial (copyWsProg w u) (copyWsProg w u) fs
  rw [hrun] at hb
  change Both _ _ _ _ ((copyWsProg w u).run fs1).1 ((copyWsProg w u).run fs1).2 at hb
  rw [hrun1, hcopy, a6] at hb
  exact hb

/-! ## Non-vacuity -/

example : let fs : FS := [([], .dir), ([['v']], .dir), ([['w']], .dir)]
    let t : Templates := ⟨['1'], ['2'], ['3']⟩
    follow [true, false, false, true] ((Call.createCfg ['v'] ['c']).prog t) ((Call.copyWs ['w'] ['u']).prog t) fs =
      (.ok (), .ok (), (copyWorkspace (createConfig fs ['v'] ['c'] t).2 ['w'] ['u']).2) := by decide +kernel

end Dedop.Workspace
