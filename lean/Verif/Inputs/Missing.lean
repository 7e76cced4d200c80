import Verif.Inputs.Props
import Verif.Report.Listing

/-!
# Commands which name something that does not exist

C120.
-/
namespace Dedop.Inputs

open Dedop.Names Dedop.Workspace Dedop.Report

/-- The workspace and the configuration which a command takes as existing, if they are given. -/
def uses : Cmd → List Path
  | .ws (.add _) => []
  | .ws (.remove w) | .ws (.copy w _) | .ws (.rename w _) | .ws (.current w) => if w = [] then [] else [[w]]
  | .cfg (.add w _) => if w = [] then [] else [[w]]
  | .cfg (.remove w c) | .cfg (.copy w c _) | .cfg (.rename w c _) | .cfg (.current w c) =>
    if w = [] then [] else if c = [] then [[w]] else [[w], [w, "configs".toList, c]]

/-- The effect of a command. -/
def exec (t : Templates) (fs : FS) : Cmd → Res Unit
  | .ws c => cliWs fs c
  | .cfg c => cliCfg t fs c

theorem args_missing (fs : FS) (w c : Name) (hw : w ≠ []) (h : view fs [w] = none) :
    argsOrCurrent fs w c = .ok (w, c) ∨ ∃ e, argsOrCurrent fs w c = .error e := by
  unfold argsOrCurrent argOrCurrent
  simp only [if_pos hw]
  split
  · refine .inr ⟨.workspaceError "workspace does not exist", ?_⟩
    have : fs.exists? (wsPath w) = false := by
      rw [Bool.eq_false_iff, ne_eq, FS.exists?_iff]
      simpa [wsPath, comp, hw, view] using h
    simp [getCurrentConfig, this]
  · exact .inl rfl

theorem args_given (fs : FS) (w c : Name) (hw : w ≠ []) (hc : c ≠ []) : argsOrCurrent fs w c = .ok (w, c) := by
  unfold argsOrCurrent argOrCurrent
  simp [hw, hc]

/-- **C120.**  A command on workspaces or configurations which names one that does not exist fails and changes nothing.  -/
theorem missing_name_fails_partial (t : Templates) (fs : FS) (c : Cmd) (p : Path) (hp : p ∈ uses c) (hmiss : view fs p = none) :
    (∃ e, (exec t fs c).1 = .error e) ∧ (exec t fs c).2 = fs := by
  have ex : ∀ w : Name, w ≠ [] → view fs [w] = none → fs.exists? (wsPath w) = false := by
    intro w hw h
    rw [Bool.eq_false_iff, ne_eq, FS.exists?_iff]
    simpa [wsPath, comp, hw, view] using h
  have exc : ∀ w x : Name, w ≠ [] → x ≠ [] → view fs [w, "configs".toList, x] = none → fs.exists? (cfgPath w x) = false := by
    intro w x hw hx h
    rw [Bool.eq_false_iff, ne_eq, FS.exists?_iff]
    simpa [cfgPath, comp, hw, hx, view, configsDir] using h
  cases c with
  | ws c =>
    cases c with
    | add w => simp [uses] at hp
    | remove w =>
      simp only [uses] at hp
      split at hp
      · simp at hp
      next hw =>
        rw [List.mem_singleton] at hp; subst hp
        have h := ex w hw hmiss
        simp [exec, cliWs, argOrCurrent, hw, deleteWorkspace, h]
    | copy w new =>
      simp only [uses] at hp
      split at hp
      · simp at hp
      next hw =>
        rw [List.mem_singleton] at hp; subst hp
        have h := ex w hw hmiss
        simp [exec, cliWs, argOrCurrent, hw, copyWorkspace, h]
    | rename w new =>
      simp only [uses] at hp
      split at hp
      · simp at hp
      next hw =>
        rw [List.mem_singleton] at hp; subst hp
        have h := ex w hw hmiss
        simp [exec, cliWs, argOrCurrent, hw, renameWorkspace, h]
    | current w =>
      simp only [uses] at hp
      split at hp
      · simp at hp
      next hw =>
        rw [List.mem_singleton] at hp; subst hp
        have h := ex w hw hmiss
        simp [exec, cliWs, hw, cliSetCurrent, setCurrent, h]
  | cfg c =>
    cases c with
    | add w x =>
      simp only [uses] at hp
      split at hp
      · simp at hp
      next hw =>
        rw [List.mem_singleton] at hp; subst hp
        have h := ex w hw hmiss
        rcases args_missing fs w x hw hmiss with ha | ⟨e, ha⟩
        · simp [exec, cliCfg, ha, hw, cliCreateConfig, createConfig, h]
        · simp [exec, cliCfg, ha]
    | remove w x =>
      simp only [uses] at hp
      split at hp
      · simp at hp
      next hw =>
        have hws : view fs [w] = none → _ := fun h0 => (show (∃ e, (exec t fs (.cfg (.remove w x))).1 = .error e) ∧
            (exec t fs (.cfg (.remove w x))).2 = fs by
          have h := ex w hw h0
          rcases args_missing fs w x hw h0 with ha | ⟨e, ha⟩
          · by_cases hx : x = []
            · subst hx; simp [exec, cliCfg, ha, hw]
            · simp [exec, cliCfg, ha, hw, hx, deleteConfig, h]
          · simp [exec, cliCfg, ha])
        split at hp
        · rw [List.mem_singleton] at hp; subst hp; exact hws hmiss
        next hx =>
          rcases List.mem_cons.1 hp with rfl | hp
          · exact hws hmiss
          · rw [List.mem_singleton] at hp; subst hp
            have h := exc w x hw hx hmiss
            by_cases he : fs.exists? (wsPath w) = true
            · simp [exec, cliCfg, args_given fs w x hw hx, hw, hx, deleteConfig, he, h]
            · simp [exec, cliCfg, args_given fs w x hw hx, hw, hx, deleteConfig, he]
    | copy w x new =>
      simp only [uses] at hp
      split at hp
      · simp at hp
      next hw =>
        have hws : view fs [w] = none → _ := fun h0 => (show (∃ e, (exec t fs (.cfg (.copy w x new))).1 = .error e) ∧
            (exec t fs (.cfg (.copy w x new))).2 = fs by
          have h := ex w hw h0
          rcases args_missing fs w x hw h0 with ha | ⟨e, ha⟩
          · by_cases hx : x = []
            · subst hx; simp [exec, cliCfg, ha, hw]
            · simp [exec, cliCfg, ha, hw, hx, cliUniqueConfig, configNames, h]
          · simp [exec, cliCfg, ha])
        split at hp
        · rw [List.mem_singleton] at hp; subst hp; exact hws hmiss
        next hx =>
          rcases List.mem_cons.1 hp with rfl | hp
          · exact hws hmiss
          · rw [List.mem_singleton] at hp; subst hp
            have h := exc w x hw hx hmiss
            simp only [exec, cliCfg, args_given fs w x hw hx, if_neg hw, if_neg hx]
            split
            · simp
            · by_cases he : fs.exists? (wsPath w) = true
              · simp [copyConfig, he, h]
              · simp [copyConfig, he]
    | rename w x new =>
      simp only [uses] at hp
      split at hp
      · simp at hp
      next hw =>
        have hws : view fs [w] = none → _ := fun h0 => (show (∃ e, (exec t fs (.cfg (.rename w x new))).1 = .error e) ∧
            (exec t fs (.cfg (.rename w x new))).2 = fs by
          have h := ex w hw h0
          rcases args_missing fs w x hw h0 with ha | ⟨e, ha⟩
          · by_cases hx : x = []
            · subst hx; simp [exec, cliCfg, ha, hw]
            · simp [exec, cliCfg, ha, hw, hx, cliUniqueConfig, configNames, h]
          · simp [exec, cliCfg, ha])
        split at hp
        · rw [List.mem_singleton] at hp; subst hp; exact hws hmiss
        next hx =>
          rcases List.mem_cons.1 hp with rfl | hp
          · exact hws hmiss
          · rw [List.mem_singleton] at hp; subst hp
            have h := exc w x hw hx hmiss
            simp only [exec, cliCfg, args_given fs w x hw hx, if_neg hw, if_neg hx]
            split
            · simp
            · by_cases he : fs.exists? (wsPath w) = true
              · simp [renameConfig, he, h]
              · simp [renameConfig, he]
    | current w x =>
      simp only [uses] at hp
      split at hp
      · simp at hp
      next hw =>
        split at hp
        next hx =>
          rw [List.mem_singleton] at hp; subst hp
          have h := ex w hw hmiss
          have ha : ∃ e, argsOrCurrent fs w x = .error e := by
            unfold argsOrCurrent argOrCurrent
            simp [hw, hx, getCurrentConfig, h]
          obtain ⟨e, ha⟩ := ha
          simp [exec, cliCfg, ha]
        next hx =>
          rcases List.mem_cons.1 hp with rfl | hp
          · have h := ex w hw hmiss
            simp [exec, cliCfg, args_given fs w x hw hx, hw, hx, setCurrentConfig, h]
          · rw [List.mem_singleton] at hp; subst hp
            have h := exc w x hw hx hmiss
            by_cases he : fs.exists? (wsPath w) = true
            · simp [exec, cliCfg, args_given fs w x hw hx, hw, hx, setCurrentConfig, he, h]
            · simp [exec, cliCfg, args_given fs w x hw hx, hw, hx, setCurrentConfig, he]

/-- **C120 fails for `input add`.**  A workspace that does not exist is created, whether or not the files can be copied. -/
theorem input_add_creates_violated (fs : FS) (htree : IsTree (view fs)) (hroot : view fs [] = some .dir) (w : Name) (hw : w ≠ [])
    (paths : List Source) (hne : paths ≠ []) (hmiss : view fs [w] = none) : view (inputAdd fs w paths).2 [w] = some .dir := by
  have hin : view fs [w, inputsDir] = none := by
    by_contra h
    have := htree [w] inputsDir h
    rw [hmiss] at this
    cases this
  have hcomp : comp w ++ [inputsDir] = [w, inputsDir] := by simp [comp, hw]
  simp only [view] at hroot hmiss hin
  have hmk : fs.makedirs [w, inputsDir] = .ok (Dict.set (Dict.set fs [w] .dir) [w, inputsDir] .dir) := by
    simp [FS.makedirs, FS.makedirsFrom, FS.mkdirOk, hroot, hmiss, FS.get?_set, hin]
  have hens : ensureDir fs (comp w ++ [inputsDir]) = (.ok (), Dict.set (Dict.set fs [w] .dir) [w, inputsDir] .dir) := by
    unfold ensureDir
    rw [hcomp, if_neg (by rw [FS.exists?_iff, hin]; simp), hmk]
  have hloop : ∀ (l : List Source) (g : FS) (k : Nat), view g [w] = some .dir →
      view (addLoop g [w, inputsDir] k l).2.1 [w] = some .dir := by
    intro l
    induction l with
    | nil => intro g k h; exact h
    | cons s l ih =>
      intro g k h
      rw [addLoop]
      cases hc : copyInto g [w, inputsDir] s with
      | error e => exact h
      | ok g1 =>
        refine ih g1 (k + 1) ?_
        unfold copyInto at hc
        have hwr : ∀ (r : Path) (c : Name), r.length ≠ 1 → g.write r c = .ok g1 → view g1 [w] = some .dir := by
          intro r c hr hwr
          have := FS.write_ok hwr [w]
          simp only [view] at h ⊢
          rw [this, if_neg (by rintro rfl; exact hr rfl)]
          exact h
        split at hc
        · cases hc
        · split at hc
          · cases hc
          · split at hc
            · exact hwr _ _ (by simp) hc
            · exact hwr _ _ (by simp) hc
  have hadd : view (addInputs fs w paths).2.1 [w] = some .dir := by
    unfold addInputs
    rw [hens, hcomp]
    exact hloop paths _ 0 (by simp [view, FS.get?_set])
  unfold inputAdd
  rw [if_neg hne]
  rcases hr : addInputs fs w paths with ⟨res, fs1, k⟩
  rw [hr] at hadd
  cases res <;> exact hadd

/-- **C120 fails for `input list`.**  A missing workspace is described as one without inputs. -/
theorem input_list_missing_violated {P : Type} (fm : Name → P → Bool) (fs : FS) (htree : IsTree (view fs)) (w : Name) (hw : w ≠ [])
    (pattern : Option P) (hmiss : view fs [w] = none) :
    listInputs fm fs w pattern = .ok ["no inputs".toList ++ inWs w] := by
  have hi : fs.exists? (inputs w) = false := by
    rw [Bool.eq_false_iff, ne_eq, FS.exists?_iff]
    intro h
    have := htree [w] inputsDir (by simpa [view, inputs, comp, hw] using h)
    rw [hmiss] at this
    cases this
  simp [listInputs, argOrCurrent, hw, inputNames, hi, printed, headLine, entryLines]

/-! ## Non-vacuity -/

example : (exec ⟨[], [], []⟩ hereExample (.cfg (.copy "d".toList "none".toList []))).1 = .error .typeError ∧
    [("d".toList : Name), "configs".toList, "none".toList] ∈ uses (.cfg (.copy "d".toList "none".toList [])) := by decide +kernel

example : (inputAdd [([], .dir)] "typo".toList [⟨"a.nc".toList, some []⟩]).1 = .ok 1 ∧
    (inputAdd [([], .dir)] "typo".toList [⟨"a.nc".toList, none⟩]).1 = .error (cmdErr "cannot copy") := by decide +kernel

end Dedop.Inputs
