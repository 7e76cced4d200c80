import Verif.Run.Lemmas
import Verif.Upgrade.Model
import Verif.Basic.Tactics

/-!
# What `dedop run` does (C57)

Full statement of C57: `dedop run` processes exactly the selected inputs in order with the selected
or current configuration, refuses outdated configurations, and stops at the first failing input.

* calls made, and stopping at the first failure: `run_executes_plan`, `run_stops_at_failure`;
* which workspace, configurations and inputs: `selection_partial`, `selection_inputs`;
* the current configuration is not always used: `current_config_violated`;
* outdated configurations are not refused: `outdated_config_violated`.
-/
namespace Dedop.Run

open Dedop.Names Dedop.Workspace

variable {Ω σ : Type}

/-- No path has an empty component (true of every file system). -/
def NoEmpty (fs : FS) : Prop := ∀ p, [] ∈ p → view fs p = none

/-! ## Selection -/

/-- What `selectWs` does, case by case. -/
theorem selectWs_cases {fs : FS} {a : Args} {w c : Name} {fs1 : FS}
    (h : selectWs fs a = (.ok (w, c), fs1)) :
    w = wantedWs fs a ∧ w ≠ [] ∧
    ((fs1 = fs ∧ (a.ws ≠ [] ∨ recorded fs [currentFile] ≠ none) ∧
        c = (if a.cfg ≠ [] then a.cfg
          else (recorded fs [w, configsDir, currentFile]).getD [])) ∨
     (fs1 = (cliCreateDefaultWorkspace fs).2 ∧ a.ws = [] ∧ recorded fs [currentFile] = none ∧
        c = a.cfg)) := by
  unfold selectWs argsOrCurrent at h
  have hcur := recorded_eq fs [currentFile]
  have hw : argOrCurrent fs a.ws = if a.ws ≠ [] then a.ws else (recorded fs [currentFile]).getD [] := by
    unfold argOrCurrent getCurrent
    split <;> simp [hcur.1, *]
  have hwant : argOrCurrent fs a.ws ≠ [] → argOrCurrent fs a.ws = wantedWs fs a ∧
      (a.ws ≠ [] ∨ recorded fs [currentFile] ≠ none) := by
    intro hne
    rw [hw] at hne ⊢
    unfold wantedWs
    show _ = (if a.ws ≠ [] then a.ws else (recorded fs [currentFile]).getD "default".toList) ∧ _
    by_cases ha : a.ws = []
    · simp only [ha, ne_eq, not_true, if_false, false_or] at hne ⊢
      cases hr : recorded fs [currentFile] with
      | none => rw [hr] at hne; simp at hne
      | some n => simp
    · simp [ha]
  have hdef : argOrCurrent fs a.ws = [] → a.ws = [] ∧ recorded fs [currentFile] = none := by
    intro he
    rw [hw] at he
    by_cases ha : a.ws = []
    · refine ⟨ha, ?_⟩
      simp only [ha, ne_eq, not_true, if_false] at he
      exact hcur.2.1 (by rw [hcur.1]; exact he)
    · simp [ha] at he
  simp only at h
  by_cases he : argOrCurrent fs a.ws = []
  · rw [if_neg (by simp [he])] at h
    simp only [he, if_true] at h
    obtain ⟨h1, h2⟩ := hdef he
    rcases hd : cliCreateDefaultWorkspace fs with ⟨e | u, fs2⟩
    · rw [hd] at h; simp at h
    · rw [hd] at h
      simp only [Prod.mk.injEq, Except.ok.injEq] at h
      obtain ⟨⟨rfl, rfl⟩, rfl⟩ := h
      refine ⟨?_, by simp [defaultName], Or.inr ⟨rfl, h1, h2, rfl⟩⟩
      unfold wantedWs
      rw [if_neg (by simp [h1])]
      show _ = (recorded fs [currentFile]).getD _
      rw [h2]; rfl
  · obtain ⟨h1, h2⟩ := hwant he
    by_cases hc : a.cfg = []
    · rw [if_pos ⟨he, hc⟩] at h
      unfold getCurrentConfig at h
      split at h
      · rename_i e hee; simp at h
      · rename_i w' c' hee
        split at hee
        · cases hee
        · rename_i hex
          split at hex
          · cases hex
          · cases hex
            cases hee
            rw [if_neg he] at h
            simp only [Prod.mk.injEq, Except.ok.injEq] at h
            obtain ⟨⟨rfl, rfl⟩, rfl⟩ := h
            refine ⟨h1, he, Or.inl ⟨rfl, h2, ?_⟩⟩
            rw [if_neg (by simp [hc])]
            have := recorded_eq fs (cfgMarker (argOrCurrent fs a.ws))
            rw [this.1]
            simp only [cfgMarker, comp, if_neg he, List.cons_append, List.nil_append]
    · rw [if_neg (by simp [hc])] at h
      simp only [if_neg he, Prod.mk.injEq, Except.ok.injEq] at h
      obtain ⟨⟨rfl, rfl⟩, rfl⟩ := h
      exact ⟨h1, he, Or.inl ⟨rfl, h2, by simp [hc]⟩⟩

/-- What the selection keeps: only directories at the top of the workspace, things below `configs`
and the marker of the current workspace can change. -/
theorem selection_frame (t : Templates) (fs : FS) (a : Args) (s : Selection) (fs2 : FS)
    (h : select t fs a = (.ok s, fs2)) :
    ∃ c fs1, selectWs fs a = (.ok (s.ws, c), fs1) ∧
      selectCfgs t fs1 a s.ws c = (.ok s.cfgs, fs2) ∧
      s.inputs = (if a.inputs ≠ [] then a.inputs.map .given else inputPaths fs2 s.ws) ∧
      s.inputs ≠ [] ∧ ¬ (a.all = true ∧ a.cfg ≠ []) := by
  unfold select at h
  split at h
  · cases h
  · rename_i hall
    split at h
    · cases h
    · rename_i w c fs1 h1
      split at h
      · cases h
      · rename_i cfgs fs3 h2
        simp only at h
        generalize hi : (if a.inputs ≠ [] then a.inputs.map Place.given else inputPaths fs3 w) = is at h
        by_cases hne : is = []
        · rw [if_pos hne] at h; cases h
        · rw [if_neg hne] at h
          simp only [Prod.mk.injEq, Except.ok.injEq] at h
          obtain ⟨rfl, rfl⟩ := h
          exact ⟨c, fs1, h1, h2, hi.symm, hne, hall⟩

/-- **C57, selection (`_partial`: workspaces that are selected or recorded as current, or a default
workspace without a current configuration).**  Whenever a run gets as far as processing, it uses the
workspace given with `-w`, else the current one, else `default`; with `-a` all configurations of that
workspace, in order; otherwise the one given with `-c`, else the current one, else `default`.  Missing:
see `current_config_violated`. -/
theorem selection_partial (t : Templates) (fs : FS) (a : Args) (s : Selection)
    (h : (select t fs a).1 = .ok s)
    (hq : a.ws ≠ [] ∨ recorded fs [".current".toList] ≠ none ∨
      recorded fs ["default".toList, "configs".toList, ".current".toList] = none) :
    s.ws = wantedWs fs a ∧
    (a.all = false → s.cfgs = [wantedCfg fs a]) ∧
    (a.all = true → s.cfgs ≠ [] ∧ s.cfgs.Pairwise (· ≤ ·) ∧
      ∀ c, c ∈ s.cfgs ↔ view fs [s.ws, "configs".toList, c] = some .dir) := by
  rcases hs : select t fs a with ⟨r, fs2⟩
  rw [hs] at h
  simp only at h
  subst h
  obtain ⟨c, fs1, h1, h2, -, -, hall⟩ := selection_frame t fs a s fs2 hs
  obtain ⟨w1, w2, w3⟩ := selectWs_cases h1
  refine ⟨w1, ?_, ?_⟩
  · intro hna
    have hcfg : s.cfgs = [if c = [] then defaultName else c] := by
      unfold selectCfgs at h2
      rw [if_neg (by simp [hna])] at h2
      split at h2
      · rename_i hc
        split at h2
        · cases h2
        · simp only [Prod.mk.injEq, Except.ok.injEq] at h2
          rw [← h2.1, if_pos hc]
      · rename_i hc
        simp only [Prod.mk.injEq, Except.ok.injEq] at h2
        rw [← h2.1, if_neg hc]
    rw [hcfg]
    unfold wantedCfg
    rw [← w1]
    show [if c = [] then defaultName else c] = [if a.cfg ≠ [] then a.cfg else
      (recorded fs [s.ws, configsDir, currentFile]).getD defaultName]
    rcases w3 with ⟨-, -, hc⟩ | ⟨-, ha, hr, hc⟩
    · rw [hc]
      by_cases hcf : a.cfg = []
      · simp only [hcf, ne_eq, not_true, if_false]
        cases hm : recorded fs [s.ws, configsDir, currentFile] with
        | none => simp
        | some n => simp [recorded_some hm]
      · simp [hcf]
    · rw [hc]
      have hq' : recorded fs [s.ws, configsDir, currentFile] = none := by
        rcases hq with hq | hq | hq
        · exact absurd ha hq
        · exact absurd hr hq
        · rw [w1]
          unfold wantedWs
          rw [if_neg (by simp [ha])]
          show recorded fs [(recorded fs [currentFile]).getD _, _, _] = none
          rw [hr]
          exact hq
      rw [hq']
      by_cases hcf : a.cfg = []
      · simp [hcf]
      · simp [hcf]
  · intro ha
    have hcfg : a.cfg = [] := by
      by_contra hne; exact hall ⟨ha, hne⟩
    have hview : ∀ c, view fs1 [s.ws, configsDir, c] = view fs [s.ws, configsDir, c] := by
      intro c
      rcases w3 with ⟨e, -, -⟩ | ⟨e, -, -, -⟩
      · rw [e]
      · rw [e]
        refine only_createDefaultWs fs _ ?_
        rintro (hp | hp)
        · have := hp.length_le; simp at this
        · simp at hp
    unfold selectCfgs at h2
    rw [if_pos ha] at h2
    unfold configNames at h2
    by_cases e1 : fs1.exists? (wsPath s.ws) = true
    · simp only [e1, not_true, if_false] at h2
      by_cases e2 : fs1.exists? (comp s.ws ++ [configsDir]) = true
      · simp only [e2, if_true] at h2
        split at h2
        · cases h2
        · cases h2
        · cases h2
        · rename_i names hnm hnn
          simp only [Except.ok.injEq, Option.some.injEq] at hnn
          simp only [Prod.mk.injEq, Except.ok.injEq] at h2
          obtain ⟨rfl, rfl⟩ := h2
          refine ⟨?_, ?_, ?_⟩
          · intro hc
            exact hnm (by rw [hc])
          · rw [← hnn]; exact sortNames_sorted _
          · intro c
            rw [← hnn, (sortNames_perm _).mem_iff, List.mem_filter, FS.mem_listdir, FS.isDir_iff]
            have hcomp : comp s.ws ++ [configsDir] ++ [c] = [s.ws, configsDir, c] := by
              simp [comp, w2]
            rw [hcomp]
            have := hview c
            unfold view at this
            rw [this]
            constructor
            · exact fun x => x.2
            · intro x
              have hx : Dict.get? fs [s.ws, configsDir, c] = some .dir := x
              exact ⟨by rw [hx]; simp, hx⟩
      · simp [e2] at h2
    · simp [e1] at h2

/-- **C57, inputs.**  Whenever a run gets as far as processing there is something to process: the
files given with `-i`, in that order; without `-i` all regular `.nc` files directly in the `inputs`
directory of the workspace, each once, in alphabetical order. -/
theorem selection_inputs (t : Templates) (fs : FS) (a : Args) (s : Selection) (ho : Once fs)
    (h : (select t fs a).1 = .ok s) :
    s.inputs ≠ [] ∧ (a.inputs ≠ [] → s.inputs = a.inputs.map .given) ∧
    (a.inputs = [] → ∃ names : List Name,
      s.inputs = names.map (fun n => .stored [s.ws, "inputs".toList, n]) ∧
      names.Nodup ∧ names.Pairwise (· ≤ ·) ∧
      ∀ n, n ∈ names ↔ (∃ b, n = b ++ ".nc".toList) ∧
        ∃ text, view fs [s.ws, "inputs".toList, n] = some (.file text)) := by
  rcases hs : select t fs a with ⟨r, fs2⟩
  rw [hs] at h
  simp only at h
  subst h
  obtain ⟨c, fs1, h1, h2, hin, hne, -⟩ := selection_frame t fs a s fs2 hs
  obtain ⟨-, w2, w3⟩ := selectWs_cases h1
  refine ⟨hne, fun ha => by rw [hin, if_pos ha], ?_⟩
  intro ha
  have hin' : s.inputs = inputPaths fs2 s.ws := by rw [hin, if_neg (by simp [ha])]
  have f1 : (∀ n, view fs1 [s.ws, inputsDir, n] = view fs [s.ws, inputsDir, n]) ∧ Once fs1 := by
    rcases w3 with ⟨e, -, -⟩ | ⟨e, -, -, -⟩
    · rw [e]; exact ⟨fun _ => rfl, ho⟩
    · rw [e]
      refine ⟨fun n => only_createDefaultWs fs _ ?_, once_createDefaultWs fs ho⟩
      rintro (hp | hp)
      · have := hp.length_le; simp at this
      · simp at hp
  have f2 : (∀ n, view fs2 [s.ws, inputsDir, n] = view fs1 [s.ws, inputsDir, n]) ∧ Once fs2 := by
    unfold selectCfgs at h2
    split at h2
    · split at h2
      · cases h2
      · cases h2
      · cases h2
      · cases h2; exact ⟨fun _ => rfl, f1.2⟩
    · split at h2
      · split at h2
        · cases h2
        · rename_i fs3 hd
          simp only [Prod.mk.injEq, Except.ok.injEq] at h2
          obtain ⟨-, rfl⟩ := h2
          have e : fs3 = (createDefaultConfig t fs1 s.ws).2 := by rw [hd]
          rw [e]
          refine ⟨fun n => only_createDefaultConfig t fs1 s.ws w2 _ ?_, once_createDefaultConfig t fs1 s.ws f1.2⟩
          rintro (hp | hp)
          · have := hp.length_le; simp at this
          · obtain ⟨t, ht⟩ := hp
            simp [configsDir, inputsDir] at ht
      · simp only [Prod.mk.injEq, Except.ok.injEq] at h2
        obtain ⟨-, rfl⟩ := h2
        exact ⟨fun _ => rfl, f1.2⟩
  have hcomp : comp s.ws = [s.ws] := by simp [comp, w2]
  refine ⟨inputNames fs2 s.ws, ?_, ?_⟩
  · rw [hin']
    unfold inputPaths
    rw [hcomp]
    rfl
  · unfold inputPaths inputNames at hin'
    unfold inputNames
    rw [hcomp] at hin' ⊢
    simp only at hin' ⊢
    split
    · obtain ⟨l1, l2⟩ := listing_exact_and_sorted (fun _ (_ : Unit) => true)
        ((fs2.listdir ([s.ws] ++ [inputsDir])).map
          (fun n => (n, !fs2.isDir ([s.ws] ++ [inputsDir] ++ [n])))) .absent
      have hnd : ((List.map (fun n => (n, !fs2.isDir ([s.ws] ++ [inputsDir] ++ [n])))
          (fs2.listdir ([s.ws] ++ [inputsDir]))).map (·.1)).Nodup := by
        rw [List.map_map]
        have : ((fun x : Name × Bool => x.1) ∘ fun n => (n, !fs2.isDir ([s.ws] ++ [inputsDir] ++ [n]))) = id := rfl
        rw [this, List.map_id]
        exact listdir_nodup fs2 _ f2.2
      refine ⟨?_, l1, ?_⟩
      · unfold ncList
        rw [(sortNames_perm _).nodup_iff]
        exact hnd.sublist ((List.filter_sublist).map _)
      · intro n
        rw [l2 n]
        simp only [Selected, and_true, IsProduct, List.mem_map, Prod.mk.injEq, Bool.not_eq_true']
        constructor
        · rintro ⟨⟨m, hm, rfl, hd⟩, hb⟩
          refine ⟨hb, ?_⟩
          rw [FS.mem_listdir] at hm
          have e : view fs2 ([s.ws] ++ [inputsDir] ++ [m]) = view fs [s.ws, inputsDir, m] :=
            (f2.1 m).trans (f1.1 m)
          have hm' : view fs [s.ws, inputsDir, m] ≠ none := by rw [← e]; exact hm
          have hd' : view fs [s.ws, inputsDir, m] ≠ some .dir := by
            rw [← e]
            intro hx
            have := (FS.isDir_iff _ _).2 hx
            rw [this] at hd; cases hd
          show ∃ text, view fs [s.ws, inputsDir, m] = some (.file text)
          cases hv : view fs [s.ws, inputsDir, m] with
          | none => exact absurd hv hm'
          | some x =>
            cases x with
            | dir => exact absurd hv hd'
            | file text => exact ⟨text, rfl⟩
        · rintro ⟨hb, text, ht⟩
          have e : view fs2 ([s.ws] ++ [inputsDir] ++ [n]) = some (.file text) :=
            ((f2.1 n).trans (f1.1 n)).trans ht
          refine ⟨⟨n, ?_, rfl, ?_⟩, hb⟩
          · rw [FS.mem_listdir]
            intro hx
            have hx' : view fs2 ([s.ws] ++ [inputsDir] ++ [n]) = none := hx
            rw [e] at hx'; cases hx'
          · by_contra hx
            rw [Bool.not_eq_false, FS.isDir_iff] at hx
            have hx' : view fs2 ([s.ws] ++ [inputsDir] ++ [n]) = some .dir := hx
            rw [e] at hx'; cases hx'
    · rename_i hex
      exfalso
      apply hne
      rw [hin', if_neg hex]
      rfl

/-! ## Execution -/

/-- The plan in terms of the model's own argument builder. -/
theorem plan_eq (a : Args) (s : Selection) (hw : s.ws ≠ []) (hc : ∀ c ∈ s.cfgs, c ≠ []) :
    plan a s = s.cfgs.flatMap (cfgCalls a s.ws s.inputs) := by
  unfold plan
  apply List.flatMap_congr
  intro c hcm
  have hne := hc c hcm
  unfold cfgCalls setup
  congr 2
  simp only [cfgFile, cfgPath, comp, if_neg hw, if_neg hne, configsDir, outputsDir,
    List.cons_append, List.nil_append]
  congr 1
  by_cases ho : a.out = [] <;> simp [ho]

/-- The selected workspace and configurations have names. -/
theorem selected_named (t : Templates) (fs : FS) (a : Args) (s : Selection) (hn : NoEmpty fs)
    (h : (select t fs a).1 = .ok s) : s.ws ≠ [] ∧ ∀ c ∈ s.cfgs, c ≠ [] := by
  rcases hs : select t fs a with ⟨r, fs2⟩
  rw [hs] at h
  simp only at h
  subst h
  obtain ⟨c, fs1, h1, h2, -, -, hall⟩ := selection_frame t fs a s fs2 hs
  obtain ⟨w1, w2, w3⟩ := selectWs_cases h1
  refine ⟨w2, ?_⟩
  intro c' hc'
  unfold selectCfgs at h2
  split at h2
  · unfold configNames at h2
    by_cases e1 : fs1.exists? (wsPath s.ws) = true
    · simp only [e1, not_true, if_false] at h2
      by_cases e2 : fs1.exists? (comp s.ws ++ [configsDir]) = true
      · simp only [e2, if_true] at h2
        split at h2
        · cases h2
        · cases h2
        · cases h2
        · rename_i names hnm hnn
          simp only [Except.ok.injEq, Option.some.injEq] at hnn
          simp only [Prod.mk.injEq, Except.ok.injEq] at h2
          obtain ⟨rfl, rfl⟩ := h2
          rw [← hnn, (sortNames_perm _).mem_iff, List.mem_filter, FS.mem_listdir, FS.isDir_iff] at hc'
          rintro rfl
          have hv : view fs1 (comp s.ws ++ [configsDir] ++ [[]]) = none := by
            have h0 := hn (comp s.ws ++ [configsDir] ++ [[]]) (by simp)
            rcases w3 with ⟨e, -, -⟩ | ⟨e, -, -, -⟩
            · rw [e]; exact h0
            · rw [e, only_createDefaultWs fs _ _]
              · exact h0
              · rintro (hp | hp)
                · have := hp.length_le; simp [comp, w2] at this
                · simp [comp, w2] at hp
          exact hc'.1 hv
      · simp [e2] at h2
    · simp [e1] at h2
  · split at h2
    · split at h2
      · cases h2
      · simp only [Prod.mk.injEq, Except.ok.injEq] at h2
        rw [← h2.1, List.mem_singleton] at hc'
        rw [hc']; simp [defaultName]
    · rename_i hne
      simp only [Prod.mk.injEq, Except.ok.injEq] at h2
      rw [← h2.1, List.mem_singleton] at hc'
      rw [hc']; exact hne

/-- **C57, execution.**  For every processor and every state of the outside world: once the workspace,
configurations and inputs are selected, the command carries out exactly the planned calls — for each
configuration one processor made from the three files of that configuration, then every input in
order, each going to that processor in the state the previous inputs left it in. -/
theorem run_executes_plan (P : Processor Ω σ) (t : Templates) (fs : FS) (ω : Ω) (a : Args)
    (s : Selection) (hn : NoEmpty fs) (h : (select t fs a).1 = .ok s) :
    (run P t fs ω a).1.calls = (exec P ω none (plan a s)).1 ∧
    (run P t fs ω a).1.world = (exec P ω none (plan a s)).2 := by
  obtain ⟨hw, hc⟩ := selected_named t fs a s hn h
  rw [plan_eq a s hw hc]
  obtain ⟨h1, h2, h3⟩ := runConfigs_exec P a s.ws s.inputs s.cfgs [] ω none (by simp)
  rcases hs : select t fs a with ⟨r, fs2⟩
  rw [hs] at h
  simp only at h
  subst h
  unfold run
  simp only [hs]
  rcases hR : runConfigs P a s.ws s.inputs [] ω s.cfgs with ⟨res, cs, w2⟩
  rw [hR] at h1 h2
  simp only [List.nil_append] at h1 h2
  cases res <;> exact ⟨h1, h2⟩

/-- Specification: how an error of a call is reported to the user.  Errors of the workspace and of the
processor as errors of the command, with their message; any other error as it is. -/
inductive Reports : RunErr → RunErr → Prop where
  | workspace (m : String) : Reports (.python (.workspaceError m)) (.command (.workspaceError m))
  | processor (m : String) : Reports (.processor m) (.command (.other m))
  | other (e : RunErr) : (∀ m, e ≠ .python (.workspaceError m)) → (∀ m, e ≠ .processor m) → Reports e e

theorem reports_reported (e : RunErr) : Reports e (reported e) := by
  cases e with
  | command e => exact .other _ (by simp) (by simp)
  | processor m => exact .processor m
  | python e =>
    cases e with
    | workspaceError m => exact .workspace m
    | _ => exact .other _ (by simp) (by simp)

/-- **C57, stopping.**  The calls made are a beginning of the plan and all but the last succeeded.
The command succeeds exactly when the last call did, and then the whole plan was carried out; when a
call fails nothing is called after it, and the command ends with that error (workspace and processor
errors are reported as command errors). -/
theorem run_stops_at_failure (P : Processor Ω σ) (t : Templates) (fs : FS) (ω : Ω) (a : Args)
    (s : Selection) (hn : NoEmpty fs) (h : (select t fs a).1 = .ok s) :
    let calls := (run P t fs ω a).1.calls
    calls.map (·.1) <+: plan a s ∧
    (∀ x ∈ calls.dropLast, x.2 = none) ∧
    ((run P t fs ω a).1.res = .ok () ∧ calls.map (·.1) = plan a s ∧ (∀ x ∈ calls, x.2 = none) ∨
     ∃ c e e', calls.getLast? = some (c, some e) ∧ (run P t fs ω a).1.res = .error e' ∧ Reports e e') := by
  intro calls
  have hcalls := (run_executes_plan P t fs ω a s hn h).1
  obtain ⟨hw, hc⟩ := selected_named t fs a s hn h
  have hplan : ∀ c rest, plan a s = c :: rest → ∃ s', c = .make s' := by
    intro c rest hp
    unfold plan at hp
    cases hcf : s.cfgs with
    | nil => rw [hcf, List.flatMap_nil] at hp; cases hp
    | cons x l =>
      rw [hcf, List.flatMap_cons, List.cons_append] at hp
      exact ⟨_, (List.cons.inj hp).1.symm⟩
  obtain ⟨p1, p2, p3⟩ := exec_prefix P (plan a s) ω none (fun _ => hplan)
  rw [← hcalls] at p1 p2 p3
  obtain ⟨-, -, h3⟩ := runConfigs_exec P a s.ws s.inputs s.cfgs [] ω none (by simp)
  have hres : (run P t fs ω a).1.res = (match ended calls with
      | .ok () => .ok ()
      | .error e => .error (reported e)) := by
    show _ = (match ended (run P t fs ω a).1.calls with
      | .ok () => Except.ok ()
      | .error e => Except.error (reported e))
    rcases hs : select t fs a with ⟨r, fs2⟩
    rw [hs] at h
    simp only at h
    subst h
    unfold run
    simp only [hs]
    rcases hR : runConfigs P a s.ws s.inputs [] ω s.cfgs with ⟨res, cs, w2⟩
    rw [hR] at h3
    simp only at h3
    subst h3
    cases hE : ended cs <;> simp [hE]
  refine ⟨p1, p2, ?_⟩
  cases hE : ended calls with
  | ok u =>
    left
    rw [hres, hE]
    refine ⟨rfl, p3 hE, ?_⟩
    intro x hx
    by_cases hne : calls = []
    · rw [hne] at hx; cases hx
    · rw [← List.dropLast_append_getLast hne] at hx
      rcases List.mem_append.1 hx with hx | hx
      · exact p2 x hx
      · rw [List.mem_singleton] at hx
        unfold ended at hE
        rw [List.getLast?_eq_some_getLast hne, ← hx] at hE
        obtain ⟨c, e⟩ := x
        cases e with
        | none => rfl
        | some e => simp at hE
  | error e =>
    right
    rw [hres, hE]
    unfold ended at hE
    split at hE
    · rename_i c e' hl
      cases hE
      exact ⟨c, e, _, hl, rfl, reports_reported e⟩
    · cases hE

/-- A run that does not get past the selection calls nothing; `-a` with `-c` changes nothing
either. -/
theorem run_refused (P : Processor Ω σ) (t : Templates) (fs : FS) (ω : Ω) (a : Args) :
    ((∃ e, (select t fs a).1 = .error e) →
      (run P t fs ω a).1.calls = [] ∧ (run P t fs ω a).1.world = ω ∧
      ∃ e, (run P t fs ω a).1.res = .error e) ∧
    (a.all = true → a.cfg ≠ [] →
      (run P t fs ω a).1.calls = [] ∧ (run P t fs ω a).2 = fs ∧
      ∃ m, (run P t fs ω a).1.res = .error (.command m)) := by
  constructor
  · rintro ⟨e, he⟩
    rcases hs : select t fs a with ⟨r, fs2⟩
    rw [hs] at he
    simp only at he
    subst he
    have hr : run P t fs ω a = (⟨.error (selectErr e), [], ω⟩, fs2) := by
      unfold run
      simp only [hs]
    rw [hr]
    exact ⟨rfl, rfl, _, rfl⟩
  · intro h1 h2
    have hs : select t fs a = (.error (cmdErr "option -a cannot be used with option -c"), fs) := by
      unfold select
      rw [if_pos ⟨h1, h2⟩]
    have hr : run P t fs ω a =
        (⟨.error (selectErr (cmdErr "option -a cannot be used with option -c")), [], ω⟩, fs) := by
      unfold run
      simp only [hs]
    rw [hr]
    exact ⟨rfl, rfl, _, rfl⟩

/-! ## Examples and violations -/

/-- Two workspaces; `w` has two configurations (current: `b`) and two inputs. -/
def demoFS : FS :=
  [([], .dir), ([".current".toList], .file "w".toList), (["w".toList], .dir),
   (["w".toList, "configs".toList], .dir),
   (["w".toList, "configs".toList, ".current".toList], .file "b".toList),
   (["w".toList, "configs".toList, "a".toList], .dir),
   (["w".toList, "configs".toList, "b".toList], .dir),
   (["w".toList, "configs".toList, "b".toList, "CHD.json".toList], .file "old".toList),
   (["w".toList, "configs".toList, "b".toList, "CNF.json".toList], .file "old".toList),
   (["w".toList, "configs".toList, "b".toList, "CST.json".toList], .file "old".toList),
   (["w".toList, "inputs".toList], .dir),
   (["w".toList, "inputs".toList, "y.nc".toList], .file []),
   (["w".toList, "inputs".toList, "x.nc".toList], .file []),
   (["w".toList, "inputs".toList, "x.txt".toList], .file [])]

/-- Templates for the examples. -/
def demoT : Templates := ⟨"1".toList, "2".toList, "3".toList⟩

/-- A processor that counts; the input `bad.nc` fails. -/
def demoP : Processor Nat Nat where
  make ω _ := (.ok 0, ω)
  process ω p i _ :=
    if i = .given "bad.nc".toList then (.error (.processor "bad"), p, ω) else (.ok 0, p + 1, ω + 1)

/-- Non-vacuity: both inputs, in order, with the current configuration. -/
example : (select demoT demoFS {}).1 = .ok ⟨"w".toList, ["b".toList],
    [.stored ["w".toList, "inputs".toList, "x.nc".toList],
     .stored ["w".toList, "inputs".toList, "y.nc".toList]]⟩ := by decide +kernel

/-- Non-vacuity: all configurations. -/
example : ((select demoT demoFS { all := true }).1.toOption.map (·.cfgs)) =
    some ["a".toList, "b".toList] := by decide +kernel

/-- Non-vacuity: the hypotheses on the file system. -/
example : Once demoFS := by unfold Once; decide +kernel

/-- Non-vacuity: a run that fails in the middle. -/
example : ((run demoP demoT demoFS 0 { inputs := ["x".toList, "bad.nc".toList, "y".toList] }).1.calls.map
      (fun c => c.2.isSome)) = [false, false, true] ∧
    (run demoP demoT demoFS 0 { inputs := ["x".toList, "bad.nc".toList, "y".toList] }).1.world = 1 := by
  decide +kernel

theorem demo_noEmpty : NoEmpty demoFS := by
  intro p hp
  unfold view
  cases h : Dict.get? demoFS p with
  | none => rfl
  | some e =>
    exfalso
    have := FS.mem_of_get? h
    have hall : ∀ x ∈ demoFS, [] ∉ x.1 := by decide +kernel
    exact hall _ this hp

/-- **C57 violated: outdated configurations are not refused.**  `_require_upgrade`
(`cli/main.py:114-123`) is only called by `dedop config upgrade`; the run command looks at the paths
of the configuration files, not at their contents.  Whatever the three files contain, in particular
if each of them is outdated, the run is the same. -/
theorem outdated_config_violated :
    (∃ (parse : Name → Upgrade.Config Unit) (dflt : Upgrade.Config Unit),
      (∀ key ∈ cfgKeys, ∃ text,
        view demoFS ["w".toList, "configs".toList, "b".toList, key ++ ".json".toList] = some (.file text) ∧
        Upgrade.requireUpgrade (parse text) dflt = .ok true)) ∧
    (run demoP demoT demoFS 0 {}).1.res = .ok () ∧
    (run demoP demoT demoFS 0 {}).1.calls.length = 3 := by
  refine ⟨⟨fun _ => ⟨some ⟨some 1, none⟩, []⟩, ⟨some ⟨some 2, none⟩, []⟩, ?_⟩, ?_, ?_⟩
  · intro key hk
    refine ⟨"old".toList, ?_, rfl⟩
    revert key
    decide +kernel
  · decide +kernel
  · decide +kernel

/-- A `default` workspace with a current configuration, but no current workspace (as after the Web API
created them). -/
def orphanFS : FS :=
  [([], .dir), (["default".toList], .dir),
   (["default".toList, "configs".toList], .dir),
   (["default".toList, "configs".toList, ".current".toList], .file "mine".toList),
   (["default".toList, "configs".toList, "mine".toList], .dir),
   (["default".toList, "configs".toList, "mine".toList, "CHD.json".toList], .file []),
   (["default".toList, "inputs".toList], .dir),
   (["default".toList, "inputs".toList, "x.nc".toList], .file [])]

/-- **C57 violated: the current configuration is not used.**  Without a current workspace the command
falls back to the workspace `default`, but does not look up the current configuration of it: it
creates a configuration `default`, makes that one current, and runs with it. -/
theorem current_config_violated :
    wantedWs orphanFS {} = "default".toList ∧ wantedCfg orphanFS {} = "mine".toList ∧
    (select demoT orphanFS {}).1.toOption.map (fun s => (s.ws, s.cfgs)) =
      some ("default".toList, ["default".toList]) ∧
    recorded (select demoT orphanFS {}).2
      ["default".toList, "configs".toList, ".current".toList] = some "default".toList := by
  decide +kernel

end Dedop.Run
