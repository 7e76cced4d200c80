import Verif.Report.Outcome
import Verif.Run.Lemmas
import Verif.Workspace.Props
/-! # How the commands end: property C105 -/
namespace Dedop.Report
open Dedop.Names Dedop.Workspace

/-! ## Specification -/

/-- The command succeeds, or fails with a message of the command line. -/
def Reported (e : Option PyErr) : Prop := ∀ x, e = some x → ∃ m, x = .other m

/-- The workspace a command works on: the argument or the recorded one. -/
def selectedWs (fs : FS) (w : Name) : Option Name :=
  if w ≠ [] then some w else Run.recorded fs [".current".toList]

/-- The configuration a command works on: the argument or the recorded one. -/
def selectedCfg (fs : FS) (w c : Name) : Option Name :=
  if c ≠ [] then some c else Run.recorded fs [w, "configs".toList, ".current".toList]

/-- The three files of a configuration directory are there and can be read. -/
def FilesFine (parse : Name → Option Int) (fs : FS) (dir : Path) : Prop :=
  ∀ key ∈ ["CHD".toList, "CNF".toList, "CST".toList],
    ∃ text v, view fs (dir ++ [key ++ ".json".toList]) = some (.file text) ∧ parse text = some v

/-- When a command ends with something else than a message. -/
def Escapes (parse : Name → Option Int) (fs : FS) : AnyCmd → Prop
  | .ws _ => False
  | .cfg (.add w c) | .cfg (.remove w c) | .cfg (.current w c) | .output w c =>
    c = [] ∧ ∃ s, selectedWs fs w = some s ∧ view fs [s] = none
  | .cfg (.copy w c _) | .cfg (.rename w c _) =>
    ∃ s, selectedWs fs w = some s ∧ (view fs [s] = none ∨ c ≠ [] ∧ view fs [s, "configs".toList] = none)
  | .cfgList w => ∃ s, selectedWs fs w = some s ∧ view fs [s] = none
  | .cfgInfo w c => ∃ s, selectedWs fs w = some s ∧
      (c = [] ∧ view fs [s] = none ∨ ∃ d, selectedCfg fs s c = some d ∧ view fs [s, "configs".toList, d] = none)
  | .cfgVersion w c => ∃ s, selectedWs fs w = some s ∧
      (c = [] ∧ view fs [s] = none ∨ c = [] ∧ (∀ text, view fs [s, "configs".toList, ".current".toList] ≠ some (.file text)) ∨
        (c ≠ [] ∨ ∃ text, view fs [s, "configs".toList, ".current".toList] = some (.file text)) ∧
          ¬ FilesFine parse fs ([s, "configs".toList] ++ (selectedCfg fs s c).toList))
  | .status => ∃ s, selectedWs fs [] = some s ∧ view fs [s] = none ∧ view fs [] ≠ none

/-! ## Lemmas -/

theorem argOrCurrent_selected (fs : FS) (w : Name) :
    selectedWs fs w = if argOrCurrent fs w = [] then none else some (argOrCurrent fs w) := by
  unfold selectedWs argOrCurrent
  by_cases hw : w = []
  · simp only [hw, ne_eq, not_true_eq_false, if_false]
    obtain ⟨h1, h2⟩ := Run.recorded_eq fs [currentFile]
    have e1 : (getCurrent fs).getD [] = (Run.recorded fs [currentFile]).getD [] := h1
    have e2 : (getCurrent fs).getD [] = [] ↔ Run.recorded fs [currentFile] = none := h2
    show Run.recorded fs [currentFile] = _
    by_cases h : (getCurrent fs).getD [] = []
    · rw [if_pos h]; exact e2.1 h
    · rw [if_neg h]
      cases hr : Run.recorded fs [currentFile] with
      | none => exact absurd (e2.2 hr) h
      | some x => rw [e1, hr]; rfl
  · simp [hw]

theorem selected_none {fs : FS} {w : Name} : selectedWs fs w = none ↔ argOrCurrent fs w = [] := by
  rw [argOrCurrent_selected]; by_cases h : argOrCurrent fs w = [] <;> simp [h]

theorem selected_some {fs : FS} {w s : Name} : selectedWs fs w = some s ↔ argOrCurrent fs w = s ∧ s ≠ [] := by
  rw [argOrCurrent_selected]
  by_cases h : argOrCurrent fs w = []
  · simp only [h, if_true, reduceCtorEq, false_iff]
    rintro ⟨rfl, h2⟩; exact h2 rfl
  · simp only [h, if_false, Option.some.injEq]
    constructor
    · rintro rfl; exact ⟨rfl, h⟩
    · exact fun h => h.1

theorem exists?_false {fs : FS} {p : Path} : (¬ fs.exists? p = true) ↔ view fs p = none := by
  rw [FS.exists?_iff, not_not]; rfl

theorem wsPath_view {fs : FS} {s : Name} (hs : s ≠ []) : (¬ fs.exists? (wsPath s) = true) ↔ view fs [s] = none := by
  rw [wsPath, comp_plain hs]; exact exists?_false

/-- Raises workspace errors or messages only. -/
def OnlyWs (r : Except PyErr Unit) : Prop := ∀ e, r = .error e → (∃ m, e = .workspaceError m) ∨ ∃ m, e = .other m

theorem onlyWs_ok : OnlyWs (.ok ()) := fun _ h => by cases h
theorem onlyWs_ws (m : String) : OnlyWs (.error (.workspaceError m)) := fun _ h => by cases h; exact Or.inl ⟨m, rfl⟩
theorem onlyWs_cmd (m : String) : OnlyWs (.error (cmdErr m)) := fun _ h => by cases h; exact Or.inr ⟨m, rfl⟩

theorem reported_tryCmd {r : Res Unit} (h : OnlyWs r.1) : Reported (failure (tryCmd r).1) := by
  intro x hx
  unfold tryCmd at hx
  cases hr : r.1 with
  | ok u => rw [hr] at hx; cases hx
  | error e =>
    rw [hr] at hx
    rcases h e hr with ⟨m, rfl⟩ | ⟨m, rfl⟩
    · exact ⟨m, by injection hx with h; exact h.symm⟩
    · exact ⟨m, by injection hx with h; exact h.symm⟩

theorem onlyWs_writeline (fs : FS) (p : Path) (s : Name) : OnlyWs (writeline fs p s).1 := by
  unfold writeline; split <;> first | exact onlyWs_ok | exact onlyWs_ws _

theorem onlyWs_setCurrent (fs : FS) (w : Name) : OnlyWs (setCurrent fs w).1 := by
  unfold setCurrent; split <;> first | exact onlyWs_ws _ | exact onlyWs_writeline _ _ _

theorem onlyWs_ensureDir (fs : FS) (p : Path) : OnlyWs (ensureDir fs p).1 := by
  unfold ensureDir; split
  · exact onlyWs_ok
  · split <;> first | exact onlyWs_ok | exact onlyWs_ws _

theorem onlyWs_createWorkspace (fs : FS) (w : Name) : OnlyWs (createWorkspace fs w).1 := by
  unfold createWorkspace; split
  · exact onlyWs_ws _
  · split <;> first | exact onlyWs_ensureDir _ _ | exact onlyWs_ws _

theorem onlyWs_deleteWorkspace (fs : FS) (w : Name) : OnlyWs (deleteWorkspace fs w).1 := by
  unfold deleteWorkspace; split
  · exact onlyWs_ws _
  · split <;> first | exact onlyWs_ok | exact onlyWs_ws _

theorem onlyWs_copytree (fs : FS) (p q : Path) : OnlyWs (copytreeChecked fs p q).1 := by
  unfold copytreeChecked; split
  · exact onlyWs_ws _
  · split <;> first | exact onlyWs_ok | exact onlyWs_ws _

theorem onlyWs_copyWorkspace (fs : FS) (w new : Name) : OnlyWs (copyWorkspace fs w new).1 := by
  unfold copyWorkspace; split
  · exact onlyWs_ws _
  · split <;> first | exact onlyWs_ok | exact onlyWs_copytree _ _ _

theorem onlyWs_renameWorkspace (fs : FS) (w new : Name) : OnlyWs (renameWorkspace fs w new).1 := by
  unfold renameWorkspace; split
  · exact onlyWs_ws _
  · split
    · exact onlyWs_ws _
    · split
      · split <;> first | exact onlyWs_ok | exact onlyWs_ws _
      · exact onlyWs_ok

theorem onlyWs_setCurrentConfig (fs : FS) (w c : Name) : OnlyWs (setCurrentConfig fs w c).1 := by
  unfold setCurrentConfig; split
  · exact onlyWs_ws _
  · split <;> first | exact onlyWs_ws _ | exact onlyWs_writeline _ _ _

theorem onlyWs_copyResource (fs : FS) (p : Path) (s : Name) : OnlyWs (copyResource fs p s).1 := onlyWs_writeline _ _ _

theorem onlyWs_createConfig (fs : FS) (w c : Name) (t : Templates) : OnlyWs (createConfig fs w c t).1 := by
  unfold createConfig
  have h0 := onlyWs_ensureDir fs (cfgPath w c)
  split
  · exact onlyWs_ws _
  · split
    · exact onlyWs_ws _
    · split
      · rename_i h; rw [h] at h0; exact h0
      · rename_i fs1 h
        have h1 := onlyWs_copyResource fs1 (cfgPath w c ++ [chdFile]) t.chd
        split
        · rename_i h; rw [h] at h1; exact h1
        · rename_i fs2 h
          have h2 := onlyWs_copyResource fs2 (cfgPath w c ++ [cnfFile]) t.cnf
          split
          · rename_i h; rw [h] at h2; exact h2
          · exact onlyWs_copyResource _ _ _

theorem onlyWs_cliCreateConfig (t : Templates) (fs : FS) (w c : Name) : OnlyWs (cliCreateConfig t fs w c).1 := by
  unfold cliCreateConfig
  have h0 := onlyWs_createConfig fs w c t
  split
  · rename_i h; rw [h] at h0; exact h0
  · exact onlyWs_setCurrentConfig _ _ _

theorem onlyWs_cliCreateDefault (fs : FS) : OnlyWs (cliCreateDefaultWorkspace fs).1 := by
  unfold cliCreateDefaultWorkspace
  have h0 := onlyWs_createWorkspace fs defaultName
  split
  · exact onlyWs_ok
  · split
    · rename_i h; rw [h] at h0; exact h0
    · exact onlyWs_setCurrent _ _

theorem onlyWs_deleteConfig (fs : FS) (w c : Name) : OnlyWs (deleteConfig fs w c).1 := by
  unfold deleteConfig; split
  · exact onlyWs_ws _
  · split
    · exact onlyWs_ws _
    · split <;> first | exact onlyWs_ok | exact onlyWs_ws _

theorem onlyWs_copyConfig (fs : FS) (w c new : Name) : OnlyWs (copyConfig fs w c new).1 := by
  unfold copyConfig; split
  · exact onlyWs_ws _
  · split <;> first | exact onlyWs_ws _ | exact onlyWs_copytree _ _ _

theorem onlyWs_renameConfig (fs : FS) (w c new : Name) : OnlyWs (renameConfig fs w c new).1 := by
  unfold renameConfig; split
  · exact onlyWs_ws _
  · split
    · exact onlyWs_ws _
    · split <;> first | exact onlyWs_ok | exact onlyWs_ws _

theorem getCurrentConfig_error {fs : FS} {w : Name} {e : PyErr} (h : getCurrentConfig fs w = .error e) :
    ∃ m, e = .workspaceError m := by
  unfold getCurrentConfig at h
  split at h
  · cases h; exact ⟨_, rfl⟩
  · cases h

theorem configNames_error {fs : FS} {w : Name} {e : PyErr} (h : configNames fs w = .error e) :
    ∃ m, e = .workspaceError m := by
  unfold configNames at h
  split at h
  · cases h; exact ⟨_, rfl⟩
  · split at h <;> cases h

theorem onlyWs_cliWs (fs : FS) (c : WsCmd) : OnlyWs (cliWs fs c).1 := by
  cases c with
  | add w =>
    have h0 := onlyWs_createWorkspace fs w
    unfold cliWs
    dsimp only
    split
    · rename_i h; rw [h] at h0; exact h0
    · exact onlyWs_setCurrent _ _
  | remove w =>
    have h0 := onlyWs_deleteWorkspace fs (argOrCurrent fs w)
    unfold cliWs
    dsimp only
    split
    · exact onlyWs_cmd _
    · split
      · rename_i h; rw [h] at h0; exact h0
      · split
        · exact onlyWs_setCurrent _ _
        · exact onlyWs_ok
  | copy w new =>
    unfold cliWs
    dsimp only
    split
    · exact onlyWs_cmd _
    · exact onlyWs_copyWorkspace _ _ _
  | rename w new =>
    have h0 := onlyWs_renameWorkspace fs (argOrCurrent fs w) (cliUnique fs new)
    unfold cliWs
    dsimp only
    split
    · exact onlyWs_cmd _
    · split
      · rename_i h; rw [h] at h0; exact h0
      · split
        · exact onlyWs_setCurrent _ _
        · exact onlyWs_ok
  | current w =>
    unfold cliWs
    dsimp only
    split
    · exact onlyWs_ok
    · exact onlyWs_setCurrent _ _

theorem reported_cmd (m : String) : Reported (failure (.error (cmdErr m) : Except PyErr Unit)) := by
  intro x hx; cases hx; exact ⟨m, rfl⟩

theorem reported_ok {α : Type} (a : α) : Reported (failure (.ok a : Except PyErr α)) := by
  intro x hx; cases hx

/-- The outcome of looking up workspace and configuration. -/
theorem args_cases (fs : FS) (w c : Name) :
    (c = [] ∧ argOrCurrent fs w ≠ [] ∧ view fs [argOrCurrent fs w] = none ∧ ∃ m, argsOrCurrent fs w c = .error (.workspaceError m)) ∨
    (argOrCurrent fs w = [] ∧ argsOrCurrent fs w c = .ok ([], c)) ∨
    (argOrCurrent fs w ≠ [] ∧ (c = [] → view fs [argOrCurrent fs w] ≠ none) ∧
      argsOrCurrent fs w c = .ok (argOrCurrent fs w, (selectedCfg fs (argOrCurrent fs w) c).getD [])) := by
  unfold argsOrCurrent
  by_cases hw : argOrCurrent fs w = []
  · right; left; simp [hw]
  · by_cases hc : c = []
    · by_cases hv : view fs [argOrCurrent fs w] = none
      · left
        refine ⟨hc, hw, hv, "workspace does not exist", ?_⟩
        dsimp only
        rw [if_pos ⟨hw, hc⟩, getCurrentConfig, if_pos ((wsPath_view hw).2 hv)]
      · right; right
        refine ⟨hw, fun _ => hv, ?_⟩
        dsimp only
        rw [if_pos ⟨hw, hc⟩, getCurrentConfig, if_neg (fun h => hv ((wsPath_view hw).1 h))]
        dsimp only
        rw [selectedCfg, if_neg (fun h => h hc), (Run.recorded_eq fs (cfgMarker _)).1]
        rw [cfgMarker, comp_plain hw]; rfl
    · right; right
      refine ⟨hw, fun h => absurd h hc, ?_⟩
      dsimp only
      rw [if_neg (fun h => hc h.2), selectedCfg, if_pos hc]; rfl

theorem selectedCfg_ne {fs : FS} {w c d : Name} (h : selectedCfg fs w c = some d) : d ≠ [] := by
  unfold selectedCfg at h
  split at h
  · rename_i hc; cases h; exact hc
  · exact Run.recorded_some h

/-- A recorded configuration means that the `configs` directory is there. -/
theorem recorded_configs {fs : FS} (ht : IsTree (view fs)) {s d : Name}
    (h : Run.recorded fs [s, "configs".toList, ".current".toList] = some d) : view fs [s, "configs".toList] = some .dir := by
  apply ht [s, "configs".toList] ".current".toList
  intro hn
  have hn' : view fs [s, "configs".toList, ".current".toList] = none := hn
  unfold Run.recorded at h
  rw [hn'] at h
  cases h

theorem not_reported_ws (m : String) {e : Option PyErr} (h : e = some (.workspaceError m)) : ¬ Reported e := by
  intro hr; obtain ⟨k, hk⟩ := hr _ h; cases hk
theorem not_reported_type {e : Option PyErr} (h : e = some .typeError) : ¬ Reported e := by
  intro hr; obtain ⟨k, hk⟩ := hr _ h; cases hk
theorem not_reported_io {e : Option PyErr} (h : e = some .ioError) : ¬ Reported e := by
  intro hr; obtain ⟨k, hk⟩ := hr _ h; cases hk
theorem not_reported_value {e : Option PyErr} (h : e = some .valueError) : ¬ Reported e := by
  intro hr; obtain ⟨k, hk⟩ := hr _ h; cases hk

theorem unique_cases (fs : FS) (ht : IsTree (view fs)) {s : Name} (hs : s ≠ []) (new : Name) :
    (view fs [s] = none ∧ ∃ m, cliUniqueConfig fs s new = .error (.workspaceError m)) ∨
    (view fs [s] ≠ none ∧ view fs [s, "configs".toList] = none ∧ cliUniqueConfig fs s new = .error .typeError) ∨
    (view fs [s] ≠ none ∧ view fs [s, "configs".toList] ≠ none ∧ ∃ r, cliUniqueConfig fs s new = .ok r) := by
  by_cases hv : view fs [s] = none
  · left
    refine ⟨hv, "workspace does not exist", ?_⟩
    rw [cliUniqueConfig, configNames, if_pos ((wsPath_view hs).2 hv)]
  · have h1 : ¬ ¬ fs.exists? (wsPath s) = true := fun h => hv ((wsPath_view hs).1 h)
    have h2 : comp s ++ [configsDir] = [s, "configs".toList] := by rw [comp_plain hs]; rfl
    by_cases hc : view fs [s, "configs".toList] = none
    · right; left
      refine ⟨hv, hc, ?_⟩
      rw [cliUniqueConfig, configNames, if_neg h1, h2, if_neg (exists?_false.2 hc)]
    · right; right
      refine ⟨hv, hc, ?_⟩
      have h3 : fs.exists? [s, "configs".toList] = true := by
        by_contra h; exact hc (exists?_false.1 h)
      rw [cliUniqueConfig, configNames, if_neg h1, h2, if_pos h3]
      exact ⟨_, rfl⟩

/-- After a configuration was removed the list of configurations can still be read. -/
theorem remove_body (fs : FS) (ht : IsTree (view fs)) {w c : Name} (hw : w ≠ []) (hc : c ≠ []) :
    OnlyWs (match deleteConfig fs w c with
        | (.error e, fs1) => ((.error e, fs1) : Res Unit)
        | (.ok (), fs1) =>
          match getCurrentConfig fs1 w with
          | .error e => (.error e, fs1)
          | .ok cur =>
            if cur = some c then
              match configNames fs1 w with
              | .error e => (.error e, fs1)
              | .ok none => (.error .typeError, fs1)
              | .ok (some names) => setCurrentConfig fs1 w (fallback names)
            else (.ok (), fs1)).1 := by
  have h0 := onlyWs_deleteConfig fs w c
  rcases hd : deleteConfig fs w c with ⟨r, fs1⟩
  rw [hd] at h0
  cases r with
  | error e => exact h0
  | ok u =>
    dsimp only
    cases hg : getCurrentConfig fs1 w with
    | error e => intro x hx; cases hx; exact Or.inl (getCurrentConfig_error hg)
    | ok cur =>
      dsimp only
      split
      · cases hn : configNames fs1 w with
        | error e => intro x hx; cases hx; exact Or.inl (configNames_error hn)
        | ok names =>
          cases names with
          | some l => exact onlyWs_setCurrentConfig _ _ _
          | none =>
            exfalso
            unfold deleteConfig at hd
            split at hd
            · cases hd
            · split at hd
              · cases hd
              · split at hd
                · rename_i h1 h2 h3
                  cases hd
                  have e1 : cfgPath w c = [w, "configs".toList] ++ [c] := by
                    rw [cfgPath_plain hw hc]; rfl
                  have e2 : view fs [w, "configs".toList] = some .dir := by
                    apply ht [w, "configs".toList] c
                    intro hn
                    rw [← e1] at hn
                    exact h2 (exists?_false.2 hn)
                  unfold configNames at hn
                  split at hn
                  · cases hn
                  · split at hn
                    · cases hn
                    · rename_i h4
                      apply h4
                      rw [FS.exists?_iff, FS.get?_rmtree, if_neg]
                      · rw [comp_plain hw]; show view fs [w, "configs".toList] ≠ none; rw [e2]; simp
                      · rw [e1, comp_plain hw]
                        intro hp
                        have := hp.length_le
                        simp at this
                · cases hd
      · exact onlyWs_ok

theorem rename_body (fs : FS) (w c new : Name) :
    OnlyWs (match renameConfig fs w c new with
          | (.error e, fs1) => ((.error e, fs1) : Res Unit)
          | (.ok (), fs1) =>
            match getCurrentConfig fs1 w with
            | .error e => (.error e, fs1)
            | .ok cur => if cur = some c then setCurrentConfig fs1 w new else (.ok (), fs1)).1 := by
  have h0 := onlyWs_renameConfig fs w c new
  rcases hd : renameConfig fs w c new with ⟨r, fs1⟩
  rw [hd] at h0
  cases r with
  | error e => exact h0
  | ok u =>
    dsimp only
    cases hg : getCurrentConfig fs1 w with
    | error e => intro x hx; cases hx; exact Or.inl (getCurrentConfig_error hg)
    | ok cur => dsimp only; split <;> first | exact onlyWs_setCurrentConfig _ _ _ | exact onlyWs_ok

theorem current_body (fs : FS) (w c : Name) :
    OnlyWs ((if c ≠ [] then setCurrentConfig fs w c
        else match getCurrentConfig fs w with
          | .error e => (.error e, fs)
          | .ok _ => (.ok (), fs) : Res Unit)).1 := by
  split
  · exact onlyWs_setCurrentConfig _ _ _
  · cases hg : getCurrentConfig fs w with
    | error e => intro x hx; cases hx; exact Or.inl (getCurrentConfig_error hg)
    | ok cur => exact onlyWs_ok

theorem add_body (t : Templates) (fs : FS) (w c : Name) :
    OnlyWs ((if w = [] then
        match cliCreateDefaultWorkspace fs with
        | (.error e, fs1) => (.error e, fs1)
        | (.ok (), fs1) => cliCreateConfig t fs1 defaultName c
      else cliCreateConfig t fs w c : Res Unit)).1 := by
  have h0 := onlyWs_cliCreateDefault fs
  split
  · rcases hd : cliCreateDefaultWorkspace fs with ⟨r, fs1⟩
    rw [hd] at h0
    cases r with
    | error e => exact h0
    | ok u => exact onlyWs_cliCreateConfig _ _ _ _
  · exact onlyWs_cliCreateConfig _ _ _ _

theorem readVersions_iff (parse : Name → Option Int) (fs : FS) (w c : Name) (keys : List Name) :
    Reported (failure (readVersions parse fs w c keys)) ↔
      ∀ key ∈ keys, ∃ text v, view fs (cfgFile w c key) = some (.file text) ∧ parse text = some v := by
  induction keys with
  | nil => exact ⟨fun _ _ h => (by cases h), fun _ => reported_ok _⟩
  | cons key rest ih =>
    rw [List.forall_mem_cons]
    unfold readVersions
    cases hg : Dict.get? fs (cfgFile w c key) with
    | none =>
      refine ⟨fun h => absurd h (not_reported_io rfl), ?_⟩
      rintro ⟨⟨text, v, h, _⟩, _⟩
      unfold view at h; rw [hg] at h; cases h
    | some e =>
      cases e with
      | dir =>
        refine ⟨fun h => absurd h (not_reported_io rfl), ?_⟩
        rintro ⟨⟨text, v, h, _⟩, _⟩
        unfold view at h; rw [hg] at h; cases h
      | file s =>
        dsimp only
        cases hp : parse s with
        | none =>
          dsimp only
          refine ⟨fun h => absurd h (not_reported_value rfl), ?_⟩
          rintro ⟨⟨text, v, h, hv⟩, _⟩
          unfold view at h; rw [hg] at h; cases h
          rw [hp] at hv; cases hv
        | some v =>
          dsimp only
          have h1 : ∃ text v, view fs (cfgFile w c key) = some (.file text) ∧ parse text = some v := ⟨s, v, hg, hp⟩
          rw [and_iff_right h1, ← ih]
          cases readVersions parse fs w c rest with
          | error e => exact Iff.rfl
          | ok vs => exact ⟨fun _ => reported_ok _, fun _ => reported_ok _⟩

/-! ## The property -/

/-- **C105.**  Which commands end with something else than success or a message: exactly those described by `Escapes`. -/
theorem command_reported_iff (parse : Name → Option Int) (t : Templates) (fs : FS) (ht : IsTree (view fs)) (cmd : AnyCmd) :
    Reported (endsWith parse t fs cmd) ↔ ¬ Escapes parse fs cmd := by
  cases cmd with
  | ws c => exact ⟨fun _ h => h, fun _ => reported_tryCmd (onlyWs_cliWs fs c)⟩
  | cfg c =>
    cases c with
    | add w c =>
      show Reported (failure (cfgCommand t fs (.add w c)).1) ↔ ¬ (c = [] ∧ _)
      rcases args_cases fs w c with ⟨h1, h2, h3, m, h4⟩ | ⟨h1, h2⟩ | ⟨h1, h2, h3⟩
      · refine ⟨fun h => absurd h (not_reported_ws m ?_), fun h => absurd ⟨h1, _, selected_some.2 ⟨rfl, h2⟩, h3⟩ h⟩
        rw [cfgCommand, h4]; rfl
      · refine ⟨?_, fun _ => ?_⟩
        · rintro _ ⟨_, s, hs, _⟩; rw [selected_none.2 h1] at hs; cases hs
        · rw [cfgCommand, h2]; exact reported_tryCmd (add_body t fs [] c)
      · refine ⟨?_, fun _ => ?_⟩
        · rintro _ ⟨hc, s, hs, hv⟩
          obtain ⟨rfl, _⟩ := selected_some.1 hs
          exact h2 hc hv
        · rw [cfgCommand, h3]; exact reported_tryCmd (add_body t fs _ _)
    | remove w c =>
      show Reported (failure (cfgCommand t fs (.remove w c)).1) ↔ ¬ (c = [] ∧ _)
      rcases args_cases fs w c with ⟨h1, h2, h3, m, h4⟩ | ⟨h1, h2⟩ | ⟨h1, h2, h3⟩
      · refine ⟨fun h => absurd h (not_reported_ws m ?_), fun h => absurd ⟨h1, _, selected_some.2 ⟨rfl, h2⟩, h3⟩ h⟩
        rw [cfgCommand, h4]; rfl
      · refine ⟨?_, fun _ => ?_⟩
        · rintro _ ⟨_, s, hs, _⟩; rw [selected_none.2 h1] at hs; cases hs
        · rw [cfgCommand, h2]; exact reported_cmd _
      · refine ⟨?_, fun _ => ?_⟩
        · rintro _ ⟨hc, s, hs, hv⟩
          obtain ⟨rfl, _⟩ := selected_some.1 hs
          exact h2 hc hv
        · rw [cfgCommand, h3]
          dsimp only
          rw [if_neg h1]
          split
          · exact reported_cmd _
          · rename_i hd
            exact reported_tryCmd (remove_body fs ht h1 hd)
    | copy w c new =>
      show Reported (failure (cfgCommand t fs (.copy w c new)).1) ↔ ¬ ∃ s, _
      rcases args_cases fs w c with ⟨h1, h2, h3, m, h4⟩ | ⟨h1, h2⟩ | ⟨h1, h2, h3⟩
      · refine ⟨fun h => absurd h (not_reported_ws m ?_), fun h => absurd ⟨_, selected_some.2 ⟨rfl, h2⟩, Or.inl h3⟩ h⟩
        rw [cfgCommand, h4]; rfl
      · refine ⟨?_, fun _ => ?_⟩
        · rintro _ ⟨s, hs, _⟩; rw [selected_none.2 h1] at hs; cases hs
        · rw [cfgCommand, h2]; exact reported_cmd _
      · have hsel := selected_some.2 ⟨rfl, h1⟩
        cases hd : selectedCfg fs (argOrCurrent fs w) c with
        | none =>
          have hc : c = [] := by
            by_contra hc; rw [selectedCfg, if_pos hc] at hd; cases hd
          refine ⟨?_, fun _ => ?_⟩
          · rintro _ ⟨s, hs, hv | hv⟩
            · obtain ⟨rfl, _⟩ := selected_some.1 hs; exact h2 hc hv
            · exact hv.1 hc
          · rw [cfgCommand, h3, hd]
            dsimp only [Option.getD_none]
            rw [if_neg h1, if_pos rfl]; exact reported_cmd _
        | some d =>
          have hne := selectedCfg_ne hd
          have hcfg : cfgCommand t fs (.copy w c new) =
              match cliUniqueConfig fs (argOrCurrent fs w) (if new = [] then d ++ "_copy".toList else new) with
              | .error e => (.error e, fs)
              | .ok new => tryCmd (copyConfig fs (argOrCurrent fs w) d new) := by
            rw [cfgCommand, h3, hd]
            dsimp only [Option.getD_some]
            rw [if_neg h1, if_neg hne]
            rfl
          rw [hcfg]
          rcases unique_cases fs ht h1 (if new = [] then d ++ "_copy".toList else new) with ⟨g1, m, g2⟩ | ⟨g1, g2, g3⟩ | ⟨g1, g2, r, g3⟩
          · rw [g2]
            exact ⟨fun h => absurd h (not_reported_ws m rfl), fun h => absurd ⟨_, hsel, Or.inl g1⟩ h⟩
          · rw [g3]
            refine ⟨fun h => absurd h (not_reported_type rfl), fun h => absurd ⟨_, hsel, Or.inr ⟨?_, g2⟩⟩ h⟩
            intro hc
            rw [selectedCfg, if_neg (fun h => h hc)] at hd
            rw [recorded_configs ht hd] at g2; cases g2
          · rw [g3]
            refine ⟨?_, fun _ => reported_tryCmd (onlyWs_copyConfig _ _ _ _)⟩
            rintro _ ⟨s, hs, hv | hv⟩
            · obtain ⟨rfl, _⟩ := selected_some.1 hs; exact g1 hv
            · obtain ⟨rfl, _⟩ := selected_some.1 hs; exact g2 hv.2
    | rename w c new =>
      show Reported (failure (cfgCommand t fs (.rename w c new)).1) ↔ ¬ ∃ s, _
      rcases args_cases fs w c with ⟨h1, h2, h3, m, h4⟩ | ⟨h1, h2⟩ | ⟨h1, h2, h3⟩
      · refine ⟨fun h => absurd h (not_reported_ws m ?_), fun h => absurd ⟨_, selected_some.2 ⟨rfl, h2⟩, Or.inl h3⟩ h⟩
        rw [cfgCommand, h4]; rfl
      · refine ⟨?_, fun _ => ?_⟩
        · rintro _ ⟨s, hs, _⟩; rw [selected_none.2 h1] at hs; cases hs
        · rw [cfgCommand, h2]; exact reported_cmd _
      · have hsel := selected_some.2 ⟨rfl, h1⟩
        cases hd : selectedCfg fs (argOrCurrent fs w) c with
        | none =>
          have hc : c = [] := by
            by_contra hc; rw [selectedCfg, if_pos hc] at hd; cases hd
          refine ⟨?_, fun _ => ?_⟩
          · rintro _ ⟨s, hs, hv | hv⟩
            · obtain ⟨rfl, _⟩ := selected_some.1 hs; exact h2 hc hv
            · exact hv.1 hc
          · rw [cfgCommand, h3, hd]
            dsimp only [Option.getD_none]
            rw [if_neg h1, if_pos rfl]; exact reported_cmd _
        | some d =>
          have hne := selectedCfg_ne hd
          rcases unique_cases fs ht h1 new with ⟨g1, m, g2⟩ | ⟨g1, g2, g3⟩ | ⟨g1, g2, r, g3⟩
          · refine ⟨fun h => absurd h (not_reported_ws m ?_), fun h => absurd ⟨_, hsel, Or.inl g1⟩ h⟩
            rw [cfgCommand, h3, hd]
            dsimp only [Option.getD_some]
            rw [if_neg h1, if_neg hne, g2]; rfl
          · refine ⟨fun h => absurd h (not_reported_type ?_), fun h => absurd ⟨_, hsel, Or.inr ⟨?_, g2⟩⟩ h⟩
            · rw [cfgCommand, h3, hd]
              dsimp only [Option.getD_some]
              rw [if_neg h1, if_neg hne, g3]; rfl
            · intro hc
              rw [selectedCfg, if_neg (fun h => h hc)] at hd
              rw [recorded_configs ht hd] at g2; cases g2
          · refine ⟨?_, fun _ => ?_⟩
            · rintro _ ⟨s, hs, hv | hv⟩
              · obtain ⟨rfl, _⟩ := selected_some.1 hs; exact g1 hv
              · obtain ⟨rfl, _⟩ := selected_some.1 hs; exact g2 hv.2
            · rw [cfgCommand, h3, hd]
              dsimp only [Option.getD_some]
              rw [if_neg h1, if_neg hne, g3]
              exact reported_tryCmd (rename_body fs _ _ _)
    | current w c =>
      show Reported (failure (cfgCommand t fs (.current w c)).1) ↔ ¬ (c = [] ∧ _)
      rcases args_cases fs w c with ⟨h1, h2, h3, m, h4⟩ | ⟨h1, h2⟩ | ⟨h1, h2, h3⟩
      · refine ⟨fun h => absurd h (not_reported_ws m ?_), fun h => absurd ⟨h1, _, selected_some.2 ⟨rfl, h2⟩, h3⟩ h⟩
        rw [cfgCommand, h4]; rfl
      · refine ⟨?_, fun _ => ?_⟩
        · rintro _ ⟨_, s, hs, _⟩; rw [selected_none.2 h1] at hs; cases hs
        · rw [cfgCommand, h2]; exact reported_tryCmd (current_body fs _ _)
      · refine ⟨?_, fun _ => ?_⟩
        · rintro _ ⟨hc, s, hs, hv⟩
          obtain ⟨rfl, _⟩ := selected_some.1 hs
          exact h2 hc hv
        · rw [cfgCommand, h3]; exact reported_tryCmd (current_body fs _ _)
  | cfgList w =>
    show Reported (failure (cfgList fs w)) ↔ ¬ ∃ s, _
    unfold cfgList
    dsimp only
    by_cases h1 : argOrCurrent fs w = []
    · rw [if_pos h1]
      refine ⟨?_, fun _ => ?_⟩
      · rintro _ ⟨s, hs, _⟩; rw [selected_none.2 h1] at hs; cases hs
      · intro x hx; cases hx; exact ⟨_, rfl⟩
    · rw [if_neg h1]
      by_cases hv : view fs [argOrCurrent fs w] = none
      · have hn : configNames fs (argOrCurrent fs w) = .error (.workspaceError "workspace does not exist") := by
          rw [configNames, if_pos ((wsPath_view h1).2 hv)]
        rw [hn]
        exact ⟨fun h => absurd h (not_reported_ws _ rfl), fun h => absurd ⟨_, selected_some.2 ⟨rfl, h1⟩, hv⟩ h⟩
      · refine ⟨?_, fun _ => ?_⟩
        · rintro _ ⟨s, hs, h⟩; obtain ⟨rfl, _⟩ := selected_some.1 hs; exact hv h
        · cases hn : configNames fs (argOrCurrent fs w) with
          | ok l => exact reported_ok _
          | error e =>
            exfalso
            rw [configNames, if_neg (fun h => hv ((wsPath_view h1).1 h))] at hn
            split at hn <;> cases hn
  | cfgInfo w c =>
    show Reported (failure (cfgInfo fs w c)) ↔ ¬ ∃ s, _
    unfold cfgInfo both
    rcases args_cases fs w c with ⟨h1, h2, h3, m, h4⟩ | ⟨h1, h2⟩ | ⟨h1, h2, h3⟩
    · rw [h4]
      exact ⟨fun h => absurd h (not_reported_ws m rfl), fun h => absurd ⟨_, selected_some.2 ⟨rfl, h2⟩, Or.inl ⟨h1, h3⟩⟩ h⟩
    · rw [h2]
      refine ⟨?_, fun _ => reported_cmd _⟩
      rintro _ ⟨s, hs, _⟩; rw [selected_none.2 h1] at hs; cases hs
    · rw [h3]
      dsimp only
      rw [if_neg h1]
      cases hd : selectedCfg fs (argOrCurrent fs w) c with
      | none =>
        rw [Option.getD_none, if_pos rfl]
        refine ⟨?_, fun _ => reported_cmd _⟩
        rintro _ ⟨s, hs, ⟨hc, hv⟩ | ⟨d, hd', _⟩⟩
        · obtain ⟨rfl, _⟩ := selected_some.1 hs; exact h2 hc hv
        · obtain ⟨rfl, _⟩ := selected_some.1 hs; rw [hd] at hd'; cases hd'
      | some d =>
        rw [Option.getD_some, if_neg (selectedCfg_ne hd)]
        dsimp only
        have e1 : cfgPath (argOrCurrent fs w) d = [argOrCurrent fs w, "configs".toList, d] := by
          rw [cfgPath_plain h1 (selectedCfg_ne hd)]; rfl
        rw [e1]
        by_cases hv : view fs [argOrCurrent fs w, "configs".toList, d] = none
        · rw [if_neg (exists?_false.2 hv)]
          exact ⟨fun h => absurd h (not_reported_io rfl),
            fun h => absurd ⟨_, selected_some.2 ⟨rfl, h1⟩, Or.inr ⟨d, hd, hv⟩⟩ h⟩
        · rw [if_pos (by by_contra h; exact hv (exists?_false.1 h))]
          refine ⟨?_, fun _ => reported_ok _⟩
          rintro _ ⟨s, hs, ⟨hc, hv'⟩ | ⟨d', hd', hv'⟩⟩
          · obtain ⟨rfl, _⟩ := selected_some.1 hs; exact h2 hc hv'
          · obtain ⟨rfl, _⟩ := selected_some.1 hs
            rw [hd] at hd'; cases hd'; exact hv hv'
  | cfgVersion w c =>
    show Reported (failure (cfgVersion parse fs w c)) ↔ ¬ ∃ s, _
    unfold cfgVersion
    rcases args_cases fs w c with ⟨h1, h2, h3, m, h4⟩ | ⟨h1, h2⟩ | ⟨h1, h2, h3⟩
    · rw [h4]
      exact ⟨fun h => absurd h (not_reported_ws m rfl), fun h => absurd ⟨_, selected_some.2 ⟨rfl, h2⟩, Or.inl ⟨h1, h3⟩⟩ h⟩
    · rw [h2]
      refine ⟨?_, fun _ => ?_⟩
      · rintro _ ⟨s, hs, _⟩; rw [selected_none.2 h1] at hs; cases hs
      · intro x hx; cases hx; exact ⟨_, rfl⟩
    · rw [h3]
      dsimp only
      rw [if_neg h1]
      have hmk : cfgMarker (argOrCurrent fs w) = [argOrCurrent fs w, "configs".toList, ".current".toList] := by
        rw [cfgMarker, comp_plain h1]; rfl
      have hr : readline fs (cfgMarker (argOrCurrent fs w)) = none ↔
          ∀ text, view fs [argOrCurrent fs w, "configs".toList, ".current".toList] ≠ some (.file text) := by
        rw [hmk]
        unfold readline view
        cases Dict.get? fs [argOrCurrent fs w, "configs".toList, ".current".toList] with
        | none => simp
        | some e => cases e <;> simp
      by_cases hn : c = [] ∧ readline fs (cfgMarker (argOrCurrent fs w)) = none
      · rw [if_pos hn]
        exact ⟨fun h => absurd h (not_reported_type rfl),
          fun h => absurd ⟨_, selected_some.2 ⟨rfl, h1⟩, Or.inr (Or.inl ⟨hn.1, hr.1 hn.2⟩)⟩ h⟩
      · rw [if_neg hn, readVersions_iff]
        have hff : (∀ key ∈ cfgKeys, ∃ text v, view fs (cfgFile (argOrCurrent fs w)
            ((selectedCfg fs (argOrCurrent fs w) c).getD []) key) = some (.file text) ∧ parse text = some v) ↔
            FilesFine parse fs ([argOrCurrent fs w, "configs".toList] ++ (selectedCfg fs (argOrCurrent fs w) c).toList) := by
          have hp : ∀ key, cfgFile (argOrCurrent fs w) ((selectedCfg fs (argOrCurrent fs w) c).getD []) key =
              [argOrCurrent fs w, "configs".toList] ++ (selectedCfg fs (argOrCurrent fs w) c).toList ++ [key ++ ".json".toList] := by
            intro key
            unfold cfgFile cfgPath
            rw [comp_plain h1]
            cases hd : selectedCfg fs (argOrCurrent fs w) c with
            | none => rfl
            | some d => rw [Option.getD_some, comp_plain (selectedCfg_ne hd)]; rfl
          unfold FilesFine
          simp only [hp]
          rfl
        rw [hff]
        constructor
        · rintro hf ⟨s, hs, ⟨hc, hv⟩ | ⟨hc, hv⟩ | ⟨_, hv⟩⟩
          · obtain ⟨rfl, _⟩ := selected_some.1 hs; exact h2 hc hv
          · obtain ⟨rfl, _⟩ := selected_some.1 hs; exact hn ⟨hc, hr.2 hv⟩
          · obtain ⟨rfl, _⟩ := selected_some.1 hs; exact hv hf
        · intro h
          by_contra hf
          apply h
          refine ⟨_, selected_some.2 ⟨rfl, h1⟩, Or.inr (Or.inr ⟨?_, hf⟩)⟩
          by_cases hc : c = []
          · right
            have : ¬ readline fs (cfgMarker (argOrCurrent fs w)) = none := fun h => hn ⟨hc, h⟩
            rw [hr] at this
            push Not at this
            exact this
          · exact Or.inl hc
  | output w c =>
    show Reported (failure (both fs w c)) ↔ ¬ (c = [] ∧ _)
    unfold both
    rcases args_cases fs w c with ⟨h1, h2, h3, m, h4⟩ | ⟨h1, h2⟩ | ⟨h1, h2, h3⟩
    · rw [h4]
      exact ⟨fun h => absurd h (not_reported_ws m rfl), fun h => absurd ⟨h1, _, selected_some.2 ⟨rfl, h2⟩, h3⟩ h⟩
    · rw [h2]
      refine ⟨?_, fun _ => ?_⟩
      · rintro _ ⟨_, s, hs, _⟩; rw [selected_none.2 h1] at hs; cases hs
      · intro x hx; cases hx; exact ⟨_, rfl⟩
    · rw [h3]
      dsimp only
      rw [if_neg h1]
      refine ⟨?_, fun _ => ?_⟩
      · rintro _ ⟨hc, s, hs, hv⟩
        obtain ⟨rfl, _⟩ := selected_some.1 hs
        exact h2 hc hv
      · split
        · intro x hx; cases hx; exact ⟨_, rfl⟩
        · exact reported_ok _
  | status =>
    show Reported (failure (status fs)) ↔ ¬ ∃ s, _
    have harg : argOrCurrent fs [] = (getCurrent fs).getD [] := by unfold argOrCurrent; simp
    unfold status
    by_cases h0 : view fs [] = none
    · rw [if_neg (exists?_false.2 h0)]
      exact ⟨by rintro _ ⟨s, _, _, h⟩; exact h h0, fun _ => reported_ok _⟩
    · rw [if_pos (by by_contra h; exact h0 (exists?_false.1 h))]
      dsimp only
      rw [← harg]
      by_cases h1 : argOrCurrent fs [] = []
      · rw [if_neg (fun h => h h1)]
        refine ⟨?_, fun _ => reported_ok _⟩
        rintro _ ⟨s, hs, _⟩; rw [selected_none.2 h1] at hs; cases hs
      · rw [if_pos h1]
        by_cases hv : view fs [argOrCurrent fs []] = none
        · have hg : getCurrentConfig fs (argOrCurrent fs []) = .error (.workspaceError "workspace does not exist") := by
            rw [getCurrentConfig, if_pos ((wsPath_view h1).2 hv)]
          rw [hg]
          exact ⟨fun h => absurd h (not_reported_ws _ rfl), fun h => absurd ⟨_, selected_some.2 ⟨rfl, h1⟩, hv, h0⟩ h⟩
        · rw [getCurrentConfig, if_neg (fun h => hv ((wsPath_view h1).1 h))]
          refine ⟨?_, fun _ => reported_ok _⟩
          rintro _ ⟨s, hs, h, _⟩; obtain ⟨rfl, _⟩ := selected_some.1 hs; exact hv h

/-- The place of `try` changes which exception is raised and nothing else: the commands have the effects studied in C10 and C61. -/
theorem cfgCommand_effect (t : Templates) (fs : FS) (c : CfgCmd) :
    (cfgCommand t fs c).2 = (cliCfg t fs c).2 ∧ ((∃ w, c = .current w []) ∨ ((cfgCommand t fs c).1 = .ok () ↔ (cliCfg t fs c).1 = .ok ())) := by
  have hconv : ∀ r : Except PyErr Unit, converted r = .ok () ↔ r = .ok () := by
    intro r
    unfold converted
    split <;> simp
  cases c with
  | add w c =>
    unfold cfgCommand cliCfg
    dsimp only
    cases argsOrCurrent fs w c with
    | error e => exact ⟨rfl, Or.inr Iff.rfl⟩
    | ok p => exact ⟨rfl, Or.inr (hconv _)⟩
  | remove w c =>
    unfold cfgCommand cliCfg
    dsimp only
    cases argsOrCurrent fs w c with
    | error e => exact ⟨rfl, Or.inr Iff.rfl⟩
    | ok p =>
      dsimp only
      split
      · exact ⟨rfl, Or.inr Iff.rfl⟩
      · split
        · exact ⟨rfl, Or.inr Iff.rfl⟩
        · exact ⟨rfl, Or.inr (hconv _)⟩
  | copy w c new =>
    unfold cfgCommand cliCfg
    dsimp only
    cases argsOrCurrent fs w c with
    | error e => exact ⟨rfl, Or.inr Iff.rfl⟩
    | ok p =>
      dsimp only
      split
      · exact ⟨rfl, Or.inr Iff.rfl⟩
      · split
        · exact ⟨rfl, Or.inr Iff.rfl⟩
        · cases cliUniqueConfig fs p.1 (if new = [] then p.2 ++ "_copy".toList else new) with
          | error e => exact ⟨rfl, Or.inr Iff.rfl⟩
          | ok r => exact ⟨rfl, Or.inr (hconv _)⟩
  | rename w c new =>
    unfold cfgCommand cliCfg
    dsimp only
    cases argsOrCurrent fs w c with
    | error e => exact ⟨rfl, Or.inr Iff.rfl⟩
    | ok p =>
      dsimp only
      split
      · exact ⟨rfl, Or.inr Iff.rfl⟩
      · split
        · exact ⟨rfl, Or.inr Iff.rfl⟩
        · cases cliUniqueConfig fs p.1 new with
          | error e => exact ⟨rfl, Or.inr Iff.rfl⟩
          | ok r => exact ⟨rfl, Or.inr (hconv _)⟩
  | current w c =>
    by_cases hc : c = []
    · subst hc
      refine ⟨?_, Or.inl ⟨w, rfl⟩⟩
      unfold cfgCommand cliCfg
      dsimp only
      cases argsOrCurrent fs w [] with
      | error e => rfl
      | ok p =>
        dsimp only [tryCmd]
        split
        · rfl
        · split <;> rfl
    · unfold cfgCommand cliCfg
      dsimp only
      have : argsOrCurrent fs w c = .ok (argOrCurrent fs w, c) := by
        unfold argsOrCurrent; dsimp only; rw [if_neg (fun h => hc h.2)]
      rw [this]
      dsimp only [tryCmd]
      rw [if_pos hc, if_pos hc]
      exact ⟨rfl, Or.inr (hconv _)⟩

/-- Commands without a workspace argument; `copy`, `rename` and `info` also without the name of a configuration. -/
def NoArgs : AnyCmd → Prop
  | .ws _ => True
  | .cfg (.add w _) | .cfg (.remove w _) | .cfg (.current w _) | .cfgList w | .output w _ => w = []
  | .cfg (.copy w c _) | .cfg (.rename w c _) | .cfgInfo w c => w = [] ∧ c = []
  | .cfgVersion _ _ => False
  | .status => True

/-- **C105** for the current workspace: after any commands with plain names, starting as a new user, every command that works on the
current workspace and configuration succeeds or fails with a message. -/
theorem current_commands_reported_partial (parse : Name → Option Int) (t : Templates) (cmds : List Cmd) (hp : ∀ c ∈ cmds, c.PlainNames)
    (cmd : AnyCmd) (hc : NoArgs cmd) : Reported (endsWith parse t (cliSession t [] cmds) cmd) := by
  have hinv : Inv (cliSession t [] cmds) := inv_session t [] ⟨empty_is_tidied.1, empty_is_tidied.2⟩ cmds hp
  generalize cliSession t [] cmds = fs at hinv
  rw [command_reported_iff parse t fs hinv.1.1]
  have hcur : ∀ s, selectedWs fs [] = some s → Plain s ∧ view fs [s] = some .dir := by
    intro s hs
    obtain ⟨h1, h2⟩ := selected_some.1 hs
    rcases argOrCurrent_plain hinv (w := []) (Or.inl rfl) with h | h
    · rw [h] at h1; exact absurd h1.symm h2
    · rw [h1] at h
      refine ⟨h, ?_⟩
      have : getCurrent fs = some s := by
        unfold argOrCurrent at h1
        simp only [ne_eq, not_true_eq_false, if_false] at h1
        cases hg : getCurrent fs with
        | none => rw [hg] at h1; exact absurd h1.symm h2
        | some x => rw [hg] at h1; rw [← h1]; rfl
      rcases current_plain hinv this with h3 | h3
      · exact absurd h3 h2
      · exact h3.2
  have key : ∀ s, selectedWs fs [] = some s → view fs [s] = none → False := by
    intro s hs hv; rw [(hcur s hs).2] at hv; cases hv
  cases cmd with
  | ws c => exact id
  | cfg c =>
    cases c with
    | add w c => obtain rfl : w = [] := hc; rintro ⟨_, s, hs, hv⟩; exact key s hs hv
    | remove w c => obtain rfl : w = [] := hc; rintro ⟨_, s, hs, hv⟩; exact key s hs hv
    | current w c => obtain rfl : w = [] := hc; rintro ⟨_, s, hs, hv⟩; exact key s hs hv
    | copy w c new =>
      obtain ⟨rfl, rfl⟩ : w = [] ∧ c = [] := hc
      rintro ⟨s, hs, hv | hv⟩
      · exact key s hs hv
      · exact hv.1 rfl
    | rename w c new =>
      obtain ⟨rfl, rfl⟩ : w = [] ∧ c = [] := hc
      rintro ⟨s, hs, hv | hv⟩
      · exact key s hs hv
      · exact hv.1 rfl
  | cfgList w => obtain rfl : w = [] := hc; rintro ⟨s, hs, hv⟩; exact key s hs hv
  | cfgInfo w c =>
    obtain ⟨rfl, rfl⟩ : w = [] ∧ c = [] := hc
    rintro ⟨s, hs, ⟨_, hv⟩ | ⟨d, hd, hv⟩⟩
    · exact key s hs hv
    · have hpl := (hcur s hs).1
      have hd' : Run.recorded fs [s, "configs".toList, ".current".toList] = some d := by
        rw [selectedCfg, if_neg (by simp)] at hd; exact hd
      unfold Run.recorded at hd'
      split at hd'
      · rename_i text htext
        split at hd'
        · cases hd'
        · rename_i hne
          cases hd'
          rcases hinv.2 [s, "configs".toList] (Or.inr ⟨s, hpl, rfl⟩) text htext with h | h
          · exact hne h
          · rw [show [s, "configs".toList] ++ [firstLine text] = [s, "configs".toList, firstLine text] from rfl, hv] at h
            cases h
      · cases hd'
  | cfgVersion w c => exact hc.elim
  | output w c => obtain rfl : w = [] := hc; rintro ⟨_, s, hs, hv⟩; exact key s hs hv
  | status => rintro ⟨s, hs, hv, _⟩; exact key s hs hv

/-- **C105 is violated.**  A new user who adds a workspace `a` and then asks to copy a configuration `x`, or asks for the versions of the
current configuration, gets a `TypeError`; asking for the configurations or outputs of a workspace that does not exist ends with the
internal `WorkspaceError`. -/
theorem command_reported_violated (parse : Name → Option Int) (t : Templates) :
    let fs := cliSession t [] [.ws (.add "a".toList)]
    endsWith parse t fs (.cfg (.copy [] "x".toList [])) = some .typeError ∧
    endsWith parse t fs (.cfg (.rename [] "x".toList "y".toList)) = some .typeError ∧
    endsWith parse t fs (.cfgVersion [] []) = some .typeError ∧
    endsWith parse t fs (.cfgList "b".toList) = some (.workspaceError "workspace does not exist") ∧
    endsWith parse t fs (.output "b".toList []) = some (.workspaceError "workspace does not exist") ∧
    endsWith parse t fs (.cfg (.remove "b".toList [])) = some (.workspaceError "workspace does not exist") := by
  have h : cliSession t [] [.ws (.add "a".toList)] =
      [([], .dir), (["a".toList], .dir), ([".current".toList], .file "a".toList)] := by
    have : ∀ t', cliSession t' [] [.ws (.add "a".toList)] = cliSession ⟨[], [], []⟩ [] [.ws (.add "a".toList)] := fun _ => rfl
    rw [this]; decide +kernel
  rw [h]
  refine ⟨?_, ?_, ?_, ?_, ?_, ?_⟩ <;> rfl

/-- The hypotheses of `current_commands_reported_partial` are met by an ordinary session, with a command that succeeds and one that fails. -/
example : let t : Templates := ⟨[], [], []⟩
    let cmds : List Cmd := [.ws (.add "a".toList), .cfg (.add [] "x".toList), .cfg (.copy [] [] "y".toList), .cfg (.remove [] [])]
    (∀ c ∈ cmds, c.PlainNames) ∧
    endsWith (fun _ => none) t (cliSession t [] cmds) (.cfgInfo [] []) = none ∧
    endsWith (fun _ => none) t (cliSession t [] cmds) (.cfg (.add [] "y".toList)) = some (.other "already contains") ∧
    endsWith (fun _ => none) t (cliSession t [] cmds) .status = none := by
  refine ⟨?_, ?_⟩
  · simp only [List.mem_cons, List.not_mem_nil, or_false, forall_eq_or_imp, forall_eq, Cmd.PlainNames, WsCmd.PlainNames,
      CfgCmd.PlainNames]
    decide +kernel
  · decide +kernel

end Dedop.Report
