import Verif.Workspace.CmdLemmas

/-! # Current workspace and configuration: properties C10, C61, C59 -/
namespace Dedop.Workspace
open Dedop.Names

theorem inv_session (t : Templates) (fs : FS) (h : Inv fs) (cmds : List Cmd)
    (hp : ∀ c ∈ cmds, c.PlainNames) : Inv (cliSession t fs cmds) := by
  induction cmds generalizing fs with
  | nil => exact h
  | cons c cs ih =>
    have hc := hp c List.mem_cons_self
    have hcs := fun d hd => hp d (List.mem_cons_of_mem _ hd)
    cases c with
    | ws c => exact ih _ (inv_cliWs h c hc) hcs
    | cfg c => exact ih _ (inv_cliCfg h t c hc) hcs

theorem inv_gives_workspace {fs : FS} (h : Inv fs) (w : Name) (hw : getCurrent fs = some w) :
    w = [] ∨ w ∈ workspaceNames fs := by
  rcases current_plain h hw with h1 | h1
  · exact Or.inl h1
  · exact Or.inr ((mem_workspaceNames h.1 w).2 h1.2)

theorem inv_gives_config {fs : FS} (h : Inv fs) (w c : Name) (hw : Plain w)
    (hc : getCurrentConfig fs w = .ok (some c)) :
    c = [] ∨ ∃ names, configNames fs w = .ok (some names) ∧ c ∈ names := by
  unfold getCurrentConfig at hc
  split at hc
  · cases hc
  · have hc' : readline fs (cfgMarker w) = some c := by simpa using hc
    obtain ⟨s, hs, hfl⟩ := readline_eq.1 hc'
    rw [cfgMarker_eq hw] at hs
    have hl : Level [w, configsDir] := Or.inr ⟨w, hw, rfl⟩
    rcases h.2 _ hl s hs with h1 | h1
    · exact Or.inl (by rw [← hfl, h1])
    · right
      obtain ⟨names, hn⟩ := configNames_some hw h.1.1 (h.1.1 _ _ (by rw [h1]; simp))
      refine ⟨names, hn, (configNames_mem h.1 hw hn c).2 ?_⟩
      rw [← hfl]; exact h1

/-- **C10.**  From any state in which the markers are fine, after any sequence of `dedop workspace`
and `dedop config` commands with plain (or omitted) names, whether or not they fail, the current
workspace is unset, empty, or one of the listed workspaces; and the state is again such a state. -/
theorem cli_current_workspace_exists_partial (t : Templates) (fs : FS) (htidy : Tidied (view fs))
    (hmark : ∀ b, Level b → NotDangling (view fs) b) (cmds : List Cmd)
    (hp : ∀ c ∈ cmds, c.PlainNames) :
    (∀ w, getCurrent (cliSession t fs cmds) = some w →
      w = [] ∨ w ∈ workspaceNames (cliSession t fs cmds)) ∧
    Tidied (view (cliSession t fs cmds)) ∧
    ∀ b, Level b → NotDangling (view (cliSession t fs cmds)) b :=
  have h := inv_session t fs ⟨htidy, hmark⟩ cmds hp
  ⟨inv_gives_workspace h, h.1, h.2⟩

/-- **C61.**  Under the same sequences, the current configuration of every workspace is unset, empty,
or one of the listed configurations of that workspace. -/
theorem cli_current_config_exists_partial (t : Templates) (fs : FS) (htidy : Tidied (view fs))
    (hmark : ∀ b, Level b → NotDangling (view fs) b) (cmds : List Cmd)
    (hp : ∀ c ∈ cmds, c.PlainNames) (w c : Name) (hw : Plain w)
    (hc : getCurrentConfig (cliSession t fs cmds) w = .ok (some c)) :
    c = [] ∨ ∃ names, configNames (cliSession t fs cmds) w = .ok (some names) ∧ c ∈ names :=
  inv_gives_config (inv_session t fs ⟨htidy, hmark⟩ cmds hp) w c hw hc

/-- The empty file system is a fine start state: a new user's. -/
theorem empty_is_tidied : Tidied (view []) ∧ ∀ b, Level b → NotDangling (view []) b :=
  ⟨⟨fun _ _ h => absurd rfl h, fun _ _ _ h => absurd rfl h⟩, fun _ _ _ h => by cases h⟩

/-- **C10 is violated for arbitrary names**: with the workspace name `.current` (accepted by every
command), the current workspace becomes `.current`, which is no workspace. -/
theorem cli_current_workspace_exists_violated :
    ∃ (t : Templates) (cmds : List Cmd) (w : Name), w ≠ [] ∧
      getCurrent (cliSession t [] cmds) = some w ∧ w ∉ workspaceNames (cliSession t [] cmds) := by
  refine ⟨⟨[], [], []⟩, [.ws (.add "a".toList), .ws (.add ".current".toList)],
    ".current".toList, ?_⟩
  decide +kernel

/-- **C61 is violated for arbitrary names**: a configuration whose name contains a line break is accepted and becomes the
current one, but what is recorded and read back is its first line, which is no configuration. -/
theorem cli_current_config_exists_violated :
    ∃ (t : Templates) (cmds : List Cmd) (w c : Name) (names : List Name), c ≠ [] ∧
      getCurrentConfig (cliSession t [] cmds) w = .ok (some c) ∧
      configNames (cliSession t [] cmds) w = .ok (some names) ∧ c ∉ names := by
  refine ⟨⟨"{}".toList, "{}".toList, "{}".toList⟩, [.ws (.add "a".toList), .cfg (.add [] "x\ny".toList)],
    "a".toList, "x\n".toList, ["x\ny".toList], ?_⟩
  decide +kernel

example :
    let t : Templates := ⟨"{}".toList, "{}".toList, "{}".toList⟩
    let cmds : List Cmd := [.ws (.add "a".toList), .cfg (.add [] "x".toList), .ws (.copy [] []),
      .ws (.rename [] "b".toList), .cfg (.copy [] [] []), .cfg (.rename [] "x".toList "y".toList),
      .cfg (.remove [] []), .ws (.remove "b".toList)]
    getCurrent (cliSession t [] cmds) = some "a_1".toList ∧
    workspaceNames (cliSession t [] cmds) = ["a_1".toList] ∧
    getCurrentConfig (cliSession t [] cmds) "a_1".toList = .ok (some "x".toList) := by
  decide +kernel

/-! ## C59 -/

theorem inv_webCall (t : Templates) {fs : FS} (h : Inv fs) :
    (∀ c, (WebCall.ws c).PlainNoRename → Inv (webWs fs c).2) ∧
    (∀ c, (WebCall.cfg c).PlainNoRename → Inv (webCfg t fs c).2) := by
  constructor
  · intro c hp
    cases c with
    | create w => exact inv_createWorkspace h (Or.inr hp)
    | delete w =>
      simp only [webWs]
      have hc := deleteWorkspace_cases fs w
      rcases hd : deleteWorkspace fs w with ⟨r, fs1⟩
      rw [hd] at hc
      rcases hc with ⟨⟨e, he⟩, h2, -⟩ | ⟨he, hdir, hg⟩
      · simp only at he h2
        subst he; subst h2
        exact h
      · simp only at he hg
        subst he
        simp only
        rcases hp with rfl | hp
        · have hg0 : ∀ r, view fs1 r = none := by
            intro r; rw [hg]; exact if_pos List.nil_prefix
          have hi : Inv fs1 := by
            refine ⟨⟨fun p n h => absurd (hg0 _) h, fun b _ n h => absurd (hg0 _) h⟩, ?_⟩
            intro b _ s hs
            rw [hg0] at hs; cases hs
          refine inv_setCurrent hi ?_
          rcases fallback_mem (workspaceNames fs1) with h1 | h1
          · exact Or.inl h1
          · have := (mem_workspaceNames hi.1 _).1 h1
            rw [hg0] at this; cases this
        · rw [wsPath, comp_plain hp.1] at hdir hg
          have hg' : ∀ r, view fs1 r = if ([] : Path) ++ [w] <+: r then none else view fs r := hg
          have ht1 : Tidied (view fs1) := tidied_remove (by simp) hg' h.1
          have hroot : view fs1 [] = some .dir := by
            rw [hg, if_neg (by simp)]; exact view_root_of h.1 hdir
          have hfp : fallback (workspaceNames fs1) = [] ∨
              view fs1 [fallback (workspaceNames fs1)] = some .dir := by
            rcases fallback_mem (workspaceNames fs1) with h1 | h1
            · exact Or.inl h1
            · exact Or.inr ((mem_workspaceNames ht1 _).1 h1)
          have hfn : fallback (workspaceNames fs1) = [] ∨ Plain (fallback (workspaceNames fs1)) := by
            rcases hfp with h1 | h1
            · exact Or.inl h1
            · exact Or.inr (plain_of_dir ht1 (b := []) root_level h1)
          rcases setCurrent_cases ht1 hfn with h1 | h1
          · refine inv_marked root_level ht1 ?_ hroot hfn hfp h1.2.2.2
            intro c hc hcb
            exact notDangling_remove (b := []) hp hg' (h.2 c hc) (fun he => absurd he hcb)
          · exact absurd ⟨hroot, hfp⟩ h1.2.2
    | copy w new => exact inv_copyWorkspace h hp.1 (Or.inr hp.2)
    | rename w new => exact absurd hp id
    | setCurrent w => exact inv_setCurrent h hp
  · intro c hp
    cases c with
    | add w c => exact inv_createConfig h hp.1 hp.2 t
    | delete w c =>
      simp only [webCfg]
      have hc := deleteConfig_cases fs w c
      rcases hdel : deleteConfig fs w c with ⟨r, fs1⟩
      rw [hdel] at hc
      rcases hc with ⟨⟨e, he⟩, h3⟩ | ⟨he, hdir, -, hg⟩
      · simp only at he h3
        subst he; subst h3
        exact h
      · simp only at he hg
        subst he
        obtain ⟨ht1, hoth, hinv, hdir1⟩ := inv_after_config_removed h hp.1 hp.2 hdir hg
        simp only
        obtain ⟨names, hnames⟩ := configNames_some hp.1 ht1.1 hdir1
        rw [hnames]
        exact inv_fallback_config hp.1 ht1 hoth hdir1 hnames
    | copy w c new => exact inv_copyConfig h hp.1 hp.2.1 hp.2.2
    | rename w c new => exact absurd hp id
    | setCurrent w c => exact inv_setCurrentConfig h hp.1 hp.2

/-- **C59 (`_partial`).**  Any sequence of Web API calls with plain names *other than renames* leaves no
dangling current workspace or configuration.  Missing: the rename calls, for which the claim is
false (`web_current_exists_violated`). -/
theorem web_current_exists_partial (t : Templates) (fs : FS) (htidy : Tidied (view fs))
    (hmark : ∀ b, Level b → NotDangling (view fs) b) (calls : List WebCall)
    (hp : ∀ c ∈ calls, c.PlainNoRename) :
    (∀ w, getCurrent (webSession t fs calls) = some w →
      w = [] ∨ w ∈ workspaceNames (webSession t fs calls)) ∧
    ∀ w c, Plain w → getCurrentConfig (webSession t fs calls) w = .ok (some c) →
      c = [] ∨ ∃ names, configNames (webSession t fs calls) w = .ok (some names) ∧ c ∈ names := by
  have key : ∀ (calls : List WebCall) (fs : FS), Inv fs → (∀ c ∈ calls, c.PlainNoRename) →
      Inv (webSession t fs calls) := by
    intro calls
    induction calls with
    | nil => intro fs h _; exact h
    | cons c cs ih =>
      intro fs h hp
      have hc := hp c List.mem_cons_self
      have hcs := fun d hd => hp d (List.mem_cons_of_mem _ hd)
      cases c with
      | ws c => exact ih _ ((inv_webCall t h).1 c hc) hcs
      | cfg c => exact ih _ ((inv_webCall t h).2 c hc) hcs
  have h := key calls fs ⟨htidy, hmark⟩ hp
  exact ⟨inv_gives_workspace h, fun w c hw hc => inv_gives_config h w c hw hc⟩

/-- **C59 is violated**: renaming the current workspace or configuration through the Web API leaves the
marker on the old name. -/
theorem web_current_exists_violated :
    (∃ (t : Templates) (calls : List WebCall) (w : Name), w ≠ [] ∧
      getCurrent (webSession t [] calls) = some w ∧ w ∉ workspaceNames (webSession t [] calls)) ∧
    (∃ (t : Templates) (calls : List WebCall) (w c : Name), c ≠ [] ∧
      getCurrentConfig (webSession t [] calls) w = .ok (some c) ∧
      configNames (webSession t [] calls) w = .ok (some ["d".toList]) ∧ c ≠ "d".toList) := by
  constructor
  · refine ⟨⟨[], [], []⟩, [.ws (.create "a".toList), .ws (.setCurrent "a".toList),
      .ws (.rename "a".toList "b".toList)], "a".toList, ?_⟩
    decide +kernel
  · refine ⟨⟨[], [], []⟩, [.ws (.create "a".toList), .cfg (.add "a".toList "c".toList),
      .cfg (.setCurrent "a".toList "c".toList), .cfg (.rename "a".toList "c".toList "d".toList)],
      "a".toList, "c".toList, ?_⟩
    decide +kernel

example :
    let calls : List WebCall := [.ws (.create "a".toList), .ws (.create "b".toList),
      .ws (.setCurrent "b".toList), .ws (.delete "b".toList)]
    getCurrent (webSession ⟨[], [], []⟩ [] calls) = some "a".toList := by
  decide +kernel

end Dedop.Workspace
