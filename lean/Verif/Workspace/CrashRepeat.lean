import Verif.Workspace.CrashProps
import Verif.Workspace.Props
import Mathlib.Tactic.FinCases

/-!
# Repeating an interrupted command (C118)
-/
namespace Dedop.Workspace
open Dedop.Names

/-- Removing the rest of a half-removed directory gives the same as removing it at once. -/
theorem rmtree_rest {fs g : FS} {p : Path} (h : duringRmtree fs p g) : g.rmtree p = fs.rmtree p := by
  obtain ⟨D, h1, -, rfl⟩ := h
  unfold FS.rmtree
  rw [List.filter_filter]
  congr 1
  funext e
  cases hD : D e.1 with
  | false => simp
  | true => simp [h1 _ hD]

/-- **C118, `remove`.**  As long as a killed `workspace remove` has left the directory of the workspace, repeating it has the
same outcome and leaves the same files as if it had not been killed. -/
theorem repeat_remove (fs g : FS) (w : Name) (hw : Plain w) (h : duringWs fs (.remove w) g)
    (hd : view g [w] = some .dir) : cliWs g (.remove w) = cliWs fs (.remove w) := by
  have harg : ∀ f, argOrCurrent f w = w := fun f => by unfold argOrCurrent; rw [if_pos hw.1]
  have hpath : wsPath w = [w] := by rw [wsPath, comp_plain hw.1]
  simp only [duringWs, harg] at h
  rw [if_neg hw.1] at h
  have key : deleteWorkspace g w = deleteWorkspace fs w := by
    rcases h with h | h
    · unfold duringDeleteWorkspace at h
      split at h
      · subst h; rfl
      split at h
      · rename_i h1 h2
        unfold deleteWorkspace
        rw [if_neg h1, if_pos h2, hpath, if_neg, if_pos ((FS.isDir_iff _ _).2 hd)]
        · rw [hpath] at h; rw [rmtree_rest h]
        · rw [not_not, FS.exists?_iff]; show view g [w] ≠ none; rw [hd]; simp
      · subst h; rfl
    · exfalso
      rcases hcr : deleteWorkspace fs w with ⟨r, fs1⟩
      rw [hcr] at h
      cases r with
      | error e => exact h
      | ok u =>
        have h1 := (delete_exact fs fs1 w hw.1 hcr).1 []
        dsimp only at h
        have h2 : view g [w] = view fs1 [w] := by
          split at h
          · unfold duringSetCurrent at h
            split at h
            · subst h; rfl
            · refine only_duringWriteline h _ ?_
              intro h3
              exact not_current hw (by simpa using h3)
          · subst h; rfl
        rw [h2, h1] at hd
        cases hd
  simp only [cliWs, harg, key]
  rw [if_neg hw.1, if_neg hw.1]

/-- Where the files of `workspace add w` end. -/
def Added (f : View) (w : Name) (r : Path) : Option Entry :=
  if r = [currentFile] then some (.file w) else if r <+: [w] then some .dir else f r

/-- `workspace add` succeeds when the name is free or an empty directory. -/
theorem add_result (f : FS) (w : Name) (hw : Plain w) (h1 : view f [] = none ∨ view f [] = some .dir)
    (h2 : view f [w] = none ∨ view f [w] = some .dir) (h3 : ∀ n, view f [w, n] = none) (h4 : view f [currentFile] ≠ some .dir)
    (ht : view f [w] ≠ none → view f [] = some .dir) :
    (cliWs f (.add w)).1 = .ok () ∧ ∀ r, view (cliWs f (.add w)).2 r = Added (view f) w r := by
  have hpath : wsPath w = [w] := by rw [wsPath, comp_plain hw.1]
  have hcw := not_current hw
  have hempty : ¬ (f.isDir (wsPath w) = true ∧ f.listdir (wsPath w) ≠ []) := by
    rintro ⟨-, h5⟩
    apply h5
    rw [List.eq_nil_iff_forall_not_mem]
    intro n hn
    rw [FS.mem_listdir, hpath] at hn
    exact hn (h3 n)
  -- the directory
  have hcreate : ∃ f1, createWorkspace f w = (.ok (), f1) ∧ ∀ r, view f1 r = if r <+: [w] then some .dir else view f r := by
    unfold createWorkspace
    rw [if_neg hw.1, if_neg hempty, hpath]
    unfold ensureDir
    split
    · rename_i h5
      rw [FS.exists?_iff] at h5
      have hd : view f [w] = some .dir := h2.resolve_left h5
      refine ⟨f, rfl, ?_⟩
      intro r
      split
      · rename_i h6
        rcases List.prefix_cons_iff.1 h6 with rfl | ⟨t, rfl, h7⟩
        · exact ht h5
        · rw [List.prefix_nil] at h7; subst h7; exact hd
      · rfl
    · rename_i h5
      have h5' : Dict.get? f [w] = none := by
        by_contra h6; exact h5 ((FS.exists?_iff _ _).2 h6)
      have hm : ∃ f1, f.makedirs [w] = .ok f1 := by
        unfold FS.makedirs
        simp only [FS.makedirsFrom]
        have hroot : Dict.get? f [] = none ∨ Dict.get? f [] = some .dir := h1
        unfold FS.mkdirOk
        rcases hroot with h6 | h6
        · rw [h6]
          simp only [List.nil_append]
          rw [FS.get?_set, if_neg (by simp), h5']
          exact ⟨_, rfl⟩
        · rw [h6]
          simp only [List.nil_append]
          rw [h5']
          exact ⟨_, rfl⟩
      obtain ⟨f1, hf1⟩ := hm
      rw [hf1]
      exact ⟨f1, rfl, fun r => FS.makedirs_ok hf1 r⟩
  obtain ⟨f1, hc1, hv1⟩ := hcreate
  have hroot1 : view f1 [] = some .dir := by rw [hv1, if_pos (List.nil_prefix)]
  have hcur1 : view f1 [currentFile] = view f [currentFile] := by
    rw [hv1, if_neg]
    rw [List.cons_prefix_cons]
    rintro ⟨h5, -⟩
    exact hcw h5.symm
  have hset : ∃ f2, setCurrent f1 w = (.ok (), f2) ∧ ∀ r, view f2 r = if r = [currentFile] then some (.file w) else view f1 r := by
    unfold setCurrent
    rw [hpath, if_neg]
    · unfold writeline
      rw [FS.write_succeeds f1 [currentFile] w hroot1 (by show view f1 [currentFile] ≠ _; rw [hcur1]; exact h4)]
      exact ⟨_, rfl, fun r => FS.get?_set _ _ _ _⟩
    · rw [not_not, FS.exists?_iff]
      show view f1 [w] ≠ none
      rw [hv1, if_pos (List.prefix_refl _)]; simp
  obtain ⟨f2, hs2, hv2⟩ := hset
  have hres : cliWs f (.add w) = (.ok (), f2) := by
    simp only [cliWs, hc1, cliSetCurrent, hs2]
  rw [hres]
  refine ⟨rfl, ?_⟩
  intro r
  rw [hv2, Added]
  split
  · rfl
  · rw [hv1]

/-- A killed `workspace add w` has at most written the marker and made missing directories. -/
def Near (fs g : View) (w : Name) : Prop :=
  (g [currentFile] = fs [currentFile] ∨ ∃ s, g [currentFile] = some (.file s)) ∧
  (∀ r, r ≠ [currentFile] → g r = fs r ∨ (r <+: [w] ∧ g r = some .dir ∧ fs r = none)) ∧
  (g [w] ≠ none → g [] = some .dir)

theorem near_made {fs g : FS} (hi : Inv fs) {w : Name} (hw : Plain w) {k : Nat} (h : fs.makedirs ([w].take k) = .ok g) :
    Near (view fs) (view g) w := by
  have hv : ∀ r, view g r = if r <+: [w].take k then some .dir else view fs r := fun r => FS.makedirs_ok h r
  refine ⟨.inl ?_, ?_, ?_⟩
  · rw [hv, if_neg]
    intro h1
    have h2 := h1.trans (List.take_prefix k [w])
    rw [List.cons_prefix_cons] at h2
    exact not_current hw h2.1.symm
  · intro r _
    rw [hv]
    split
    · rename_i h1
      rcases makedirs_dirs h r h1 with h2 | h2
      · exact .inr ⟨h1.trans (List.take_prefix k [w]), rfl, h2⟩
      · exact .inl h2.symm
    · exact .inl rfl
  · intro _
    rw [hv, if_pos List.nil_prefix]

theorem near_self {fs : FS} (hi : Inv fs) (w : Name) : Near (view fs) (view fs) w :=
  ⟨.inl rfl, fun _ _ => .inl rfl, fun h => hi.1.1 [] w h⟩

theorem near_marked {fs f g : FS} {w : Name} (hw : Plain w) (h : Near (view fs) (view f) w) {s : Name}
    (hwr : f.write [currentFile] s = .ok g) : Near (view fs) (view g) w := by
  have hv : ∀ r, view g r = if r = [currentFile] then some (.file s) else view f r := fun r => FS.write_ok hwr r
  refine ⟨.inr ⟨s, by rw [hv, if_pos rfl]⟩, ?_, ?_⟩
  · intro r hr
    rw [hv, if_neg hr]
    exact h.2.1 r hr
  · intro h1
    rw [hv, if_neg (by simpa using not_current hw)] at h1
    rw [hv, if_neg (by simp)]
    exact h.2.2 h1

theorem near_during {fs g : FS} (hi : Inv fs) {w : Name} (hw : Plain w) (h : duringWs fs (.add w) g) :
    Near (view fs) (view g) w := by
  have hpath : wsPath w = [w] := by rw [wsPath, comp_plain hw.1]
  simp only [duringWs, thenDuring] at h
  rcases h with h | h
  · unfold duringCreateWorkspace at h
    rw [if_neg hw.1] at h
    split at h
    · subst h; exact near_self hi w
    · rw [hpath] at h
      rcases h with rfl | ⟨-, k, h⟩
      · exact near_self hi w
      · exact near_made hi hw h
  · rcases hc : createWorkspace fs w with ⟨r, f1⟩
    rw [hc] at h
    cases r with
    | error e => exact h.elim
    | ok u =>
      have hn : Near (view fs) (view f1) w := by
        unfold createWorkspace at hc
        rw [if_neg hw.1] at hc
        split at hc
        · cases hc
        · unfold ensureDir at hc
          rw [hpath] at hc
          split at hc
          · cases hc; exact near_self hi w
          · split at hc
            · rename_i h1
              cases hc
              exact near_made (k := 1) hi hw h1
            · cases hc
      dsimp only at h
      unfold duringSetCurrent at h
      split at h
      · subst h; exact hn
      · rcases h with rfl | h | h
        · exact hn
        · exact near_marked hw hn h
        · exact near_marked hw hn h

/-- **C118, `add`.**  Wherever a `workspace add` that would succeed was killed, repeating it succeeds and leaves the same files. -/
theorem repeat_add (fs g : FS) (hi : Inv fs) (w : Name) (hw : Plain w) (h : duringWs fs (.add w) g)
    (hok : (cliWs fs (.add w)).1 = .ok ()) :
    (cliWs g (.add w)).1 = .ok () ∧ ∀ r, view (cliWs g (.add w)).2 r = view (cliWs fs (.add w)).2 r := by
  have hpath : wsPath w = [w] := by rw [wsPath, comp_plain hw.1]
  have hcw := not_current hw
  -- what success says about the start
  have hstart : (view fs [] = none ∨ view fs [] = some .dir) ∧ (view fs [w] = none ∨ view fs [w] = some .dir) ∧
      (∀ n, view fs [w, n] = none) := by
    have hw2 : view fs [w] = none ∨ view fs [w] = some .dir := by
      by_cases h1 : view fs [w] = none
      · exact .inl h1
      · exact .inr (dir_of_exists hi.1 (.inl rfl) hw h1)
    have hcr : ∃ f1, createWorkspace fs w = (.ok (), f1) := by
      simp only [cliWs] at hok
      rcases hc : createWorkspace fs w with ⟨r, f1⟩
      rw [hc] at hok
      cases r with
      | error e => cases hok
      | ok u => exact ⟨f1, rfl⟩
    obtain ⟨f1, hcr⟩ := hcr
    unfold createWorkspace at hcr
    rw [if_neg hw.1] at hcr
    split at hcr
    · cases hcr
    rename_i hne
    refine ⟨?_, hw2, ?_⟩
    · unfold ensureDir at hcr
      rw [hpath] at hcr
      split at hcr
      · rename_i h1
        rw [FS.exists?_iff] at h1
        exact .inr (hi.1.1 [] w h1)
      · split at hcr
        · rename_i h2
          exact makedirs_dirs h2 [] List.nil_prefix
        · cases hcr
    · intro n
      by_contra hn
      apply hne
      have hd : view fs [w] = some .dir := hi.1.1 [w] n hn
      refine ⟨by rw [hpath]; exact (FS.isDir_iff _ _).2 hd, ?_⟩
      intro h1
      have := (FS.mem_listdir fs [w] n).2 hn
      rw [hpath] at h1
      rw [h1] at this
      cases this
  obtain ⟨s1, s2, s3⟩ := hstart
  have s4 : view fs [currentFile] ≠ some .dir := marker_not_dir hi.1 (.inl rfl)
  have hf := add_result fs w hw s1 s2 s3 s4 (fun h1 => hi.1.1 [] w h1)
  have hg := near_during hi hw h
  obtain ⟨g1, g2, g3⟩ := hg
  have hne : ([w] : Path) ≠ [currentFile] := by simpa using hcw
  have c2 : view g [w] = none ∨ view g [w] = some .dir := by
    rcases g2 [w] hne with h1 | h1
    · rw [h1]; exact s2
    · exact .inr h1.2.1
  have c1 : view g [] = none ∨ view g [] = some .dir := by
    rcases g2 [] (by simp) with h1 | h1
    · rw [h1]; exact s1
    · exact .inr h1.2.1
  have c3 : ∀ n, view g [w, n] = none := by
    intro n
    rcases g2 [w, n] (by simp) with h1 | h1
    · rw [h1]; exact s3 n
    · have := h1.1.length_le; simp at this
  have c4 : view g [currentFile] ≠ some .dir := by
    rcases g1 with h1 | ⟨s, h1⟩
    · rw [h1]; exact s4
    · rw [h1]; simp
  have hgr := add_result g w hw c1 c2 c3 c4 g3
  refine ⟨hgr.1, ?_⟩
  intro r
  rw [hgr.2, hf.2, Added, Added]
  split
  · rfl
  rename_i hr
  split
  · rfl
  rename_i hr2
  rcases g2 r hr with h1 | h1
  · exact h1
  · exact absurd h1.1 hr2

/-- **C118, `current`.**  Wherever a `workspace current` was killed, repeating it leaves the same files. -/
theorem repeat_current (fs g : FS) (hi : Inv fs) (w : Name) (hw : Plain w) (h : duringWs fs (.current w) g) :
    (cliWs g (.current w)).1 = (cliWs fs (.current w)).1 ∧
    ∀ r, view (cliWs g (.current w)).2 r = view (cliWs fs (.current w)).2 r := by
  have hpath : wsPath w = [w] := by rw [wsPath, comp_plain hw.1]
  have hcw : ([w] : Path) ≠ [currentFile] := by simpa using not_current hw
  simp only [duringWs] at h
  rw [if_neg hw.1] at h
  simp only [cliWs, cliSetCurrent]
  rw [if_neg hw.1, if_neg hw.1]
  unfold duringSetCurrent at h
  split at h
  · subst h; exact ⟨rfl, fun _ => rfl⟩
  rename_i hex
  rw [not_not] at hex
  have key : ∀ s, fs.write [currentFile] s = .ok g → (setCurrent g w).1 = (setCurrent fs w).1 ∧
      ∀ r, view (setCurrent g w).2 r = view (setCurrent fs w).2 r := by
    intro s hwr
    have hv : ∀ r, view g r = if r = [currentFile] then some (.file s) else view fs r := fun r => FS.write_ok hwr r
    have hroot : view fs [] = some .dir := by
      rw [hpath, FS.exists?_iff] at hex
      exact hi.1.1 [] w hex
    have hexg : g.exists? [w] = true := by
      rw [FS.exists?_iff]
      show view g [w] ≠ none
      rw [hv, if_neg hcw]
      rw [hpath, FS.exists?_iff] at hex
      exact hex
    unfold setCurrent
    rw [hpath] at hex ⊢
    rw [if_neg (by simpa using hexg), if_neg (by simpa using hex)]
    unfold writeline
    rw [FS.write_succeeds fs [currentFile] w hroot (marker_not_dir hi.1 (.inl rfl)),
      FS.write_succeeds g [currentFile] w (by show view g [] = _; rw [hv, if_neg (by simp)]; exact hroot)
        (by show view g _ ≠ _; rw [hv, if_pos rfl]; simp)]
    refine ⟨rfl, ?_⟩
    intro r
    show Dict.get? _ r = Dict.get? _ r
    rw [FS.get?_set, FS.get?_set]
    split
    · rfl
    · rename_i hr
      show view g r = view fs r
      rw [hv, if_neg hr]
  rcases h with rfl | h | h
  · exact ⟨rfl, fun _ => rfl⟩
  · exact key [] h
  · exact key w h

/-- **C118 is violated by `remove` of the current workspace**: killed after the directory is gone, the command cannot be completed by
repeating it, with or without the name; and the marker stays. -/
theorem repeat_remove_violated (fs : FS) (w : Name) (hw : Plain w) (hc : getCurrent fs = some w)
    (hd : view fs [w] = some .dir) :
    ∃ g, duringWs fs (.remove w) g ∧ (∃ e, cliWs g (.remove w) = (.error e, g)) ∧ (∃ e, cliWs g (.remove []) = (.error e, g)) ∧
      getCurrent g = some w := by
  have harg : ∀ f, argOrCurrent f w = w := fun f => by unfold argOrCurrent; rw [if_pos hw.1]
  have hpath : wsPath w = [w] := by rw [wsPath, comp_plain hw.1]
  have hcur : getCurrent (fs.rmtree [w]) = some w := by
    obtain ⟨s, h1, h2⟩ := getCurrent_eq.1 hc
    refine getCurrent_eq.2 ⟨s, ?_, h2⟩
    rw [← h1]
    refine only_rmtree fs [w] _ ?_
    dsimp only
    rw [List.cons_prefix_cons]
    rintro ⟨h5, -⟩
    exact not_current hw h5
  have hgone : Dict.get? (fs.rmtree [w]) [w] = none := by rw [FS.get?_rmtree, if_pos (List.prefix_refl _)]
  have hnone : deleteWorkspace (fs.rmtree [w]) w = (.error (.workspaceError "workspace does not exist"), fs.rmtree [w]) := by
    unfold deleteWorkspace
    rw [hpath, if_pos]
    rw [FS.exists?_iff, hgone]; simp
  refine ⟨fs.rmtree [w], ?_, ⟨.workspaceError "workspace does not exist", ?_⟩,
    ⟨.workspaceError "workspace does not exist", ?_⟩, hcur⟩
  · simp only [duringWs, harg]
    rw [if_neg hw.1]
    left
    unfold duringDeleteWorkspace
    rw [hpath, if_neg (by rw [not_not, FS.exists?_iff]; show view fs [w] ≠ none; rw [hd]; simp),
      if_pos ((FS.isDir_iff _ _).2 hd)]
    exact during_rmtree_ends
  · simp only [cliWs, harg]
    rw [if_neg hw.1, hnone]
  · have h0 : argOrCurrent (fs.rmtree [w]) [] = w := by
      unfold argOrCurrent
      rw [if_neg (by simp), hcur]; rfl
    simp only [cliWs, h0]
    rw [if_neg hw.1, hnone]

/-- **C118 is violated by `config add`**: whenever the command would succeed, it can be killed such that repeating it fails, while the
configuration has only one of its three files. -/
theorem repeat_config_add_violated (t : Templates) (fs f : FS) (ht : IsTree (view fs)) (w c : Name)
    (hok : createConfig fs w c t = (.ok (), f)) :
    ∃ g, duringConfigAdd t fs w c g ∧ (∃ e, cliCreateConfig t g w c = (.error e, g)) ∧
      view g (cfgPath w c ++ [chdFile]) = some (.file t.chd) ∧ view g (cfgPath w c ++ [cnfFile]) = none ∧
      view g (cfgPath w c ++ [cstFile]) = none := by
  have hfiles : ∀ n, configExists fs w c = false → view fs (cfgPath w c ++ [n]) = none := by
    intro n h2
    by_contra hf
    have : configExists fs w c = true := by
      unfold configExists
      rw [(FS.isDir_iff fs _).2 (ht _ n hf), Bool.true_and, Bool.not_eq_true', List.isEmpty_eq_false_iff]
      intro h3
      have := (FS.mem_listdir fs (cfgPath w c) n).2 hf
      rw [h3] at this
      cases this
    rw [this] at h2; cases h2
  unfold createConfig at hok
  split at hok
  · cases hok
  rename_i h1
  split at hok
  · cases hok
  rename_i h2
  have h2' : configExists fs w c = false := by simpa using h2
  rcases he : ensureDir fs (cfgPath w c) with ⟨r, fs1⟩
  have o1 := only_ensureDir fs (cfgPath w c)
  rw [he] at hok o1
  cases r with
  | error e => cases hok
  | ok u =>
    simp only at hok
    rcases he2 : copyResource fs1 (cfgPath w c ++ [chdFile]) t.chd with ⟨r2, fs2⟩
    rw [he2] at hok
    cases r2 with
    | error e => cases hok
    | ok u2 =>
      have hw2 := writeline_cases fs1 (cfgPath w c ++ [chdFile]) t.chd
      have he2' := he2
      unfold copyResource at he2'
      rw [he2'] at hw2
      rcases hw2 with ⟨-, hdir, -, hv⟩ | ⟨⟨e, he⟩, -⟩
      swap
      · cases he
      have hv' : ∀ r, view fs2 r = if r = cfgPath w c ++ [chdFile] then some (.file t.chd) else view fs1 r := hv
      rw [List.dropLast_concat] at hdir
      have hnew : ∀ n, n ≠ chdFile → view fs2 (cfgPath w c ++ [n]) = none := by
        intro n hn
        rw [hv', if_neg (by rw [snoc_inj]; exact fun h => hn h.2)]
        have := o1 (cfgPath w c ++ [n]) (by
          rintro ⟨h3, -⟩
          have := h3.length_le
          simp at this)
        rw [show view fs1 (cfgPath w c ++ [n]) = view fs (cfgPath w c ++ [n]) from this]
        exact hfiles n h2'
      have hchd : view fs2 (cfgPath w c ++ [chdFile]) = some (.file t.chd) := by rw [hv', if_pos rfl]
      have hdir2 : view fs2 (cfgPath w c) = some .dir := by
        rw [hv', if_neg (fun h => by have := congrArg List.length h; simp at this)]
        exact hdir
      have hex : configExists fs2 w c = true := by
        unfold configExists
        rw [(FS.isDir_iff fs2 _).2 hdir2, Bool.true_and, Bool.not_eq_true', List.isEmpty_eq_false_iff]
        intro h3
        have hm : Dict.get? fs2 (cfgPath w c ++ [chdFile]) ≠ none := by
          show view fs2 _ ≠ none
          rw [hchd]; simp
        have := (FS.mem_listdir fs2 (cfgPath w c) chdFile).2 hm
        rw [h3] at this
        cases this
      refine ⟨fs2, ?_, ?_, hchd, hnew _ (by decide), hnew _ (by decide)⟩
      · left
        unfold duringCreateConfig
        rw [if_neg h1, if_neg h2, he]
        right
        left
        have := during_resource_ends (fs := fs1) (p := cfgPath w c ++ [chdFile]) (s := t.chd)
        rw [he2] at this
        exact this
      · unfold cliCreateConfig createConfig
        by_cases h4 : fs2.exists? (wsPath w) = true
        · rw [if_neg (by simpa using h4), if_pos hex]
          exact ⟨_, rfl⟩
        · rw [if_pos h4]
          exact ⟨_, rfl⟩

/-- **C118 is violated by `copy`**: whenever a workspace with something in it is copied, the command can be killed such that an empty
workspace with the new name is listed, and repeating the command leaves that one as it is and makes another copy. -/
theorem repeat_copy_violated (fs : FS) (hi : Inv fs) (w new n : Name) (hw : Plain w) (hn : new = [] ∨ Plain new)
    (hd : view fs [w, n] ≠ none) :
    ∃ g x, duringWs fs (.copy w new) g ∧ x ∈ workspaceNames g ∧ x ∉ workspaceNames fs ∧ view g [x, n] = none ∧
      view (cliWs g (.copy w new)).2 [x, n] = none := by
  have harg : ∀ f, argOrCurrent f w = w := fun f => by unfold argOrCurrent; rw [if_pos hw.1]
  have hpath : wsPath w = [w] := by rw [wsPath, comp_plain hw.1]
  have hwd : view fs [w] = some .dir := hi.1.1 [w] n hd
  have hroot : view fs [] = some .dir := hi.1.1 [] w (by show view fs [w] ≠ none; rw [hwd]; simp)
  have hb : Plain (if new = [] then w ++ "_1".toList else new) := by
    split
    · exact plain_append hw (by decide) (by decide)
    · rename_i h1; exact hn.resolve_left h1
  generalize hbase : (if new = [] then w ++ "_1".toList else new) = base at hb
  rcases cliUnique_spec hi.1 (.inr hb) with h1 | ⟨hpx, hfree⟩
  · exact absurd h1.1 hb.1
  generalize hx : cliUnique fs base = x at hpx hfree
  have hxp : wsPath x = [x] := by rw [wsPath, comp_plain hpx.1]
  have hv : ∀ r, view (Dict.set fs [x] .dir) r = if r = [x] then some .dir else view fs r := fun r => FS.get?_set _ _ _ _
  have hbelow : ∀ r, [x] <+: r → view fs r = none := by
    rintro r ⟨s, rfl⟩
    exact tree_none_below hi.1.1 hfree s
  have htg : Tidied (view (Dict.set fs [x] .dir)) := by
    refine tidied_mkws hpx ?_ hi.1
    intro r
    rw [hv]
    by_cases h1 : r = [x]
    · rw [if_pos h1, if_pos (h1 ▸ List.prefix_refl _)]
    · rw [if_neg h1]
      split
      · rename_i h2
        rcases List.prefix_cons_iff.1 h2 with rfl | ⟨s, rfl, h3⟩
        · exact hroot
        · rw [List.prefix_nil] at h3; subst h3; exact absurd rfl h1
      · rfl
  have hxn : view (Dict.set fs [x] .dir) [x, n] = none := by
    rw [hv, if_neg (by simp)]
    exact hbelow _ ⟨[n], rfl⟩
  refine ⟨Dict.set fs [x] .dir, x, ?_, ?_, ?_, hxn, ?_⟩
  · simp only [duringWs, harg, hbase, hx]
    rw [if_neg hw.1]
    unfold duringCopyWorkspace
    rw [hpath, hxp, if_neg (by rw [not_not, FS.exists?_iff]; show view fs [w] ≠ none; rw [hwd]; simp),
      if_pos (by rw [FS.exists?_iff]; show view fs [] ≠ none; rw [hroot]; simp)]
    refine .inr ⟨(FS.isDir_iff _ _).2 hwd, ?_, ?_, ?_, ?_⟩
    · rw [Bool.eq_false_iff]
      intro h2
      rw [FS.exists?_iff] at h2
      exact h2 hfree
    · intro r hr
      rw [hv, if_neg (by rintro rfl; exact hr (List.prefix_refl _))]
    · intro s
      cases s with
      | nil =>
        rw [List.append_nil, List.append_nil, hwd, hv, if_pos rfl]
        exact .dir
      | cons a s =>
        rw [hv, if_neg (by simp), hbelow _ (List.prefix_append _ _)]
        exact .notYet _
    · intro s m h2
      exfalso
      apply h2
      rw [hv, if_neg (fun h => by have := congrArg List.length h; simp at this)]
      rw [List.append_assoc]
      exact hbelow _ (List.prefix_append _ _)
  · rw [mem_workspaceNames htg, hv, if_pos rfl]
  · rw [mem_workspaceNames hi.1, hfree]; simp
  · rcases cliUnique_spec htg (.inr hb) with h1 | ⟨hpy, hfreey⟩
    · exact absurd h1.1 hb.1
    have hne : cliUnique (Dict.set fs [x] .dir) base ≠ x := by
      intro h
      rw [h, hv, if_pos rfl] at hfreey
      cases hfreey
    simp only [cliWs, harg, hbase]
    rw [if_neg hw.1]
    rw [only_copyWorkspace (Dict.set fs [x] .dir) w _ [x, n] ?_]
    · exact hxn
    · dsimp only
      rw [wsPath, comp_plain hpy.1, List.cons_prefix_cons]
      rintro ⟨h2, -⟩
      exact hne h2

/-- The state after `workspace add a`, `workspace add b`, `config add c`. -/
def addedTwo : FS :=
  cliSession ⟨"x".toList, "y".toList, "z".toList⟩ []
    [.ws (.add "a".toList), .ws (.add "b".toList), .cfg (.add "b".toList "c".toList)]

/-- The hypotheses of C117 and C118 are met in the states which the command line makes: `b` is the current workspace, it contains
something, another workspace can be added, a configuration can be added. -/
example : Inv addedTwo ∧ Plain "b".toList ∧ getCurrent addedTwo = some "b".toList ∧ view addedTwo ["b".toList] = some .dir ∧
    view addedTwo ["b".toList, configsDir] ≠ none ∧ (cliWs addedTwo (.add "d".toList)).1 = .ok () ∧
    (createConfig addedTwo "b".toList "d".toList ⟨[], [], []⟩).1 = .ok () ∧
    getCurrent addedTwo ≠ some (argOrCurrent addedTwo "a".toList) := by
  refine ⟨inv_session _ _ empty_is_tidied _ ?_, by decide, by decide +kernel, by decide +kernel, by decide +kernel,
    by decide +kernel, by decide +kernel, by decide +kernel⟩
  intro c hc
  fin_cases hc
  · exact .inr (by decide)
  · exact .inr (by decide)
  · exact ⟨.inr (by decide), by decide⟩

end Dedop.Workspace
