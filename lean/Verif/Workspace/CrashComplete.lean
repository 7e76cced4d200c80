import Verif.Workspace.CrashConfigs
import Verif.Workspace.CrashInputsProps
import Verif.Workspace.CrashLemmas
import Verif.Workspace.RaceProps

/-!
# The interrupted states are complete (C116–C118, C129–C131)

`during…` lists the states a killed command may leave.  Here it is compared with the two other models
of the same commands: the whole command (C09–C15) and the command as a sequence of single calls of the
operating system (`Workspace/Race`).

* `command_begins`, `command_ends`, `config_command_begins`, `config_command_ends`: the states before
  and after the whole command are among them;
* `add_inputs_ends`, `remove_inputs_ends`, `remove_outputs_ends`: also for inputs and outputs;
* `killed_during`: every state between two steps of a call is among them.
-/
namespace Dedop.Workspace
open Dedop.Names

/-! ## Lemmas -/

theorem thenDuring_first {g : FS} {first : FS → Prop} {res : Res Unit} {second : FS → FS → Prop} (h : first g) :
    thenDuring g first res second := .inl h

theorem thenDuring_ends {first : FS → Prop} {res : Res Unit} {second : FS → FS → Prop} {rest : FS → Res Unit}
    (h1 : first res.2) (h2 : ∀ fs1, res = (.ok (), fs1) → second fs1 (rest fs1).2) :
    thenDuring (match (generalizing := false) res with
      | (.error e, fs1) => (.error e, fs1)
      | (.ok (), fs1) => rest fs1 : Res Unit).2 first res second := by
  obtain ⟨r, fs1⟩ := res
  cases r with
  | error e => exact .inl h1
  | ok u => exact .inr (h2 fs1 rfl)

theorem setCurrent_begins (fs : FS) (w : Name) : duringSetCurrent fs w fs := by
  unfold duringSetCurrent
  split
  · first | rfl | trivial
  · exact .inl rfl

theorem setCurrent_ends (fs : FS) (w : Name) : duringSetCurrent fs w (setCurrent fs w).2 := by
  unfold duringSetCurrent setCurrent
  split
  · first | rfl | trivial
  · exact during_write_ends

theorem cliSetCurrent_ends (fs : FS) (w : Name) : duringSetCurrent fs w (cliSetCurrent fs w).2 := by
  unfold cliSetCurrent
  exact setCurrent_ends fs w

/-- The state before a workspace command is among the interrupted states. -/
theorem command_begins (fs : FS) (c : WsCmd) : duringWs fs c fs := by
  cases c with
  | add w => exact .inl (during_begins ⟨[], [], []⟩ fs (.createWs w))
  | remove w =>
    simp only [duringWs]
    split
    · first | rfl | trivial
    · exact .inl (during_begins ⟨[], [], []⟩ fs (.deleteWs _))
  | copy w new =>
    simp only [duringWs]
    split
    · first | rfl | trivial
    · exact during_begins ⟨[], [], []⟩ fs (.copyWs _ _)
  | rename w new =>
    simp only [duringWs]
    split
    · first | rfl | trivial
    · exact .inl (.inl rfl)
  | current w =>
    simp only [duringWs]
    split
    · first | rfl | trivial
    · exact setCurrent_begins fs w

/-- So is the state after the whole command. -/
theorem command_ends (fs : FS) (ht : IsTree (view fs)) (c : WsCmd) : duringWs fs c (cliWs fs c).2 := by
  cases c with
  | add w =>
    exact thenDuring_ends (during_ends ⟨[], [], []⟩ fs ht (.createWs w)) (fun fs1 _ => cliSetCurrent_ends fs1 w)
  | remove w =>
    simp only [duringWs, cliWs]
    by_cases hw : argOrCurrent fs w = []
    · rw [if_pos hw, if_pos hw]
    · rw [if_neg hw, if_neg hw]
      refine thenDuring_ends (rest := fun fs1 => if getCurrent fs1 = some (argOrCurrent fs w)
        then cliSetCurrent fs1 (fallback (workspaceNames fs1)) else (.ok (), fs1))
        (during_ends ⟨[], [], []⟩ fs ht (.deleteWs _)) (fun fs1 _ => ?_)
      split
      · exact cliSetCurrent_ends _ _
      · first | rfl | trivial
  | copy w new =>
    simp only [duringWs, cliWs]
    split
    · first | rfl | trivial
    · exact during_ends ⟨[], [], []⟩ fs ht (.copyWs _ _)
  | rename w new =>
    simp only [duringWs, cliWs]
    by_cases hw : argOrCurrent fs w = []
    · rw [if_pos hw, if_pos hw]
    · rw [if_neg hw, if_neg hw]
      refine thenDuring_ends (rest := fun fs1 => if getCurrent fs1 = some (argOrCurrent fs w)
        then cliSetCurrent fs1 (cliUnique fs new) else (.ok (), fs1))
        (during_ends ⟨[], [], []⟩ fs ht (.renameWs _ _)) (fun fs1 _ => ?_)
      split
      · exact cliSetCurrent_ends _ _
      · first | rfl | trivial
  | current w =>
    simp only [duringWs, cliWs]
    split
    · first | rfl | trivial
    · exact cliSetCurrent_ends fs w

theorem setCurrentConfig_ends (fs : FS) (w c : Name) : duringSetCurrentConfig fs w c (setCurrentConfig fs w c).2 := by
  unfold duringSetCurrentConfig setCurrentConfig
  split
  · first | rfl | trivial
  split
  · first | rfl | trivial
  · exact during_write_ends

theorem configAdd_ends (t : Templates) (fs : FS) (ht : IsTree (view fs)) (w c : Name) :
    duringConfigAdd t fs w c (cliCreateConfig t fs w c).2 :=
  thenDuring_ends (during_ends t fs ht (.createCfg w c)) (fun fs1 _ => setCurrentConfig_ends fs1 w c)

theorem defaultWorkspace_ends (fs : FS) (ht : IsTree (view fs)) : duringDefaultWorkspace fs (cliCreateDefaultWorkspace fs).2 := by
  unfold duringDefaultWorkspace cliCreateDefaultWorkspace
  split
  · first | rfl | trivial
  · exact thenDuring_ends (during_ends ⟨[], [], []⟩ fs ht (.createWs _)) (fun fs1 _ => cliSetCurrent_ends fs1 _)

/-- The state before a configuration command is among the interrupted states. -/
theorem config_command_begins (t : Templates) (fs : FS) (c : CfgCmd) : duringCfg t fs c fs := by
  have hset : ∀ w c, duringSetCurrentConfig fs w c fs := fun w c => during_begins t fs (.setCfg w c)
  cases c with
  | add w c =>
    simp only [duringCfg]
    split
    · first | rfl | trivial
    · split
      · refine .inl ?_
        unfold duringDefaultWorkspace
        split
        · first | rfl | trivial
        · exact .inl (during_begins t fs (.createWs _))
      · exact .inl (during_begins t fs (.createCfg _ _))
  | remove w c =>
    simp only [duringCfg]
    split
    · first | rfl | trivial
    split
    · first | rfl | trivial
    split
    · first | rfl | trivial
    · exact .inl (during_begins t fs (.deleteCfg _ _))
  | copy w c new =>
    simp only [duringCfg]
    split
    · first | rfl | trivial
    split
    · first | rfl | trivial
    split
    · first | rfl | trivial
    split
    · first | rfl | trivial
    · exact during_begins t fs (.copyCfg _ _ _)
  | rename w c new =>
    simp only [duringCfg]
    split
    · first | rfl | trivial
    split
    · first | rfl | trivial
    split
    · first | rfl | trivial
    split
    · first | rfl | trivial
    · exact .inl (.inl rfl)
  | current w c =>
    simp only [duringCfg]
    split
    · first | rfl | trivial
    split
    · exact hset _ _
    · first | rfl | trivial

/-- So is the state after the whole configuration command, in every state which the command line makes. -/
theorem config_command_ends (t : Templates) (fs : FS) (hi : Inv fs) (c : CfgCmd) : duringCfg t fs c (cliCfg t fs c).2 := by
  have ht : IsTree (view fs) := hi.1.1
  have hd : IsTree (view (cliCreateDefaultWorkspace fs).2) := (inv_cliCreateDefaultWorkspace hi).1.1
  cases c with
  | add w c =>
    simp only [duringCfg, cliCfg]
    cases argsOrCurrent fs w c with
    | error e => first | rfl | trivial
    | ok p =>
      obtain ⟨w, c⟩ := p
      dsimp only
      by_cases hw : w = []
      · rw [if_pos hw, if_pos hw]
        refine thenDuring_ends (rest := fun fs1 => cliCreateConfig t fs1 defaultName c) (defaultWorkspace_ends fs ht) (fun fs1 h => ?_)
        rw [h] at hd
        exact configAdd_ends t fs1 hd _ _
      · rw [if_neg hw, if_neg hw]
        exact configAdd_ends t fs ht w c
  | remove w c =>
    simp only [duringCfg, cliCfg]
    cases argsOrCurrent fs w c with
    | error e => first | rfl | trivial
    | ok p =>
      obtain ⟨w, c⟩ := p
      dsimp only
      by_cases hw : w = []
      · rw [if_pos hw, if_pos hw]
      rw [if_neg hw, if_neg hw]
      by_cases hc : c = []
      · rw [if_pos hc, if_pos hc]
      rw [if_neg hc, if_neg hc]
      refine thenDuring_ends (rest := fun fs1 => match getCurrentConfig fs1 w with
          | .error e => (.error e, fs1)
          | .ok cur =>
            if cur = some c then
              match configNames fs1 w with
              | .error e => (.error e, fs1)
              | .ok none => (.error .typeError, fs1)
              | .ok (some names) => setCurrentConfig fs1 w (fallback names)
            else (.ok (), fs1)) (during_ends t fs ht (.deleteCfg w c)) (fun fs1 _ => ?_)
      cases getCurrentConfig fs1 w with
      | error e => first | rfl | trivial
      | ok cur =>
        dsimp only
        split
        · rcases configNames fs1 w with e | (_ | names)
          · first | rfl | trivial
          · first | rfl | trivial
          · exact setCurrentConfig_ends _ _ _
        · first | rfl | trivial
  | copy w c new =>
    simp only [duringCfg, cliCfg]
    cases argsOrCurrent fs w c with
    | error e => first | rfl | trivial
    | ok p =>
      obtain ⟨w, c⟩ := p
      dsimp only
      by_cases hw : w = []
      · rw [if_pos hw, if_pos hw]
      rw [if_neg hw, if_neg hw]
      by_cases hc : c = []
      · rw [if_pos hc, if_pos hc]
      rw [if_neg hc, if_neg hc]
      cases cliUniqueConfig fs w (if new = [] then c ++ "_copy".toList else new) with
      | error e => first | rfl | trivial
      | ok new => exact during_ends t fs ht (.copyCfg _ _ _)
  | rename w c new =>
    simp only [duringCfg, cliCfg]
    cases argsOrCurrent fs w c with
    | error e => first | rfl | trivial
    | ok p =>
      obtain ⟨w, c⟩ := p
      dsimp only
      by_cases hw : w = []
      · rw [if_pos hw, if_pos hw]
      rw [if_neg hw, if_neg hw]
      by_cases hc : c = []
      · rw [if_pos hc, if_pos hc]
      rw [if_neg hc, if_neg hc]
      cases cliUniqueConfig fs w new with
      | error e => first | rfl | trivial
      | ok new =>
        dsimp only
        refine thenDuring_ends (rest := fun fs1 => match getCurrentConfig fs1 w with
            | .error e => (.error e, fs1)
            | .ok cur => if cur = some c then setCurrentConfig fs1 w new else (.ok (), fs1))
          (during_ends t fs ht (.renameCfg w c new)) (fun fs1 _ => ?_)
        cases getCurrentConfig fs1 w with
        | error e => first | rfl | trivial
        | ok cur =>
          dsimp only
          split
          · exact setCurrentConfig_ends _ _ _
          · first | rfl | trivial
  | current w c =>
    simp only [duringCfg, cliCfg]
    cases argsOrCurrent fs w c with
    | error e => first | rfl | trivial
    | ok p =>
      obtain ⟨w, c⟩ := p
      dsimp only
      split
      · exact setCurrentConfig_ends _ _ _
      · first | rfl | trivial

/-! ## Inputs and outputs -/

theorem addLoop_ends (dir : Path) : ∀ (paths : List Source) (fs : FS) (n : Nat),
    duringAddLoop fs dir paths (addLoop fs dir n paths).2.1 := by
  intro paths
  induction paths with
  | nil => intro fs n; rfl
  | cons s rest ih =>
    intro fs n
    simp only [duringAddLoop, addLoop]
    cases h : copyInto fs dir s with
    | error e => exact .inl (.inl rfl)
    | ok fs1 => exact .inr (ih fs1 (n + 1))

/-- The state after `add_inputs` is among the interrupted states. -/
theorem add_inputs_ends (fs : FS) (w : Name) (paths : List Source) : duringAddInputs fs w paths (addInputs fs w paths).2.1 := by
  unfold duringAddInputs addInputs
  have h0 := during_ensure_ends (fs := fs) (p := comp w ++ [inputsDir])
  rcases he : ensureDir fs (comp w ++ [inputsDir]) with ⟨r, fs1⟩
  rw [he] at h0
  cases r with
  | error e => exact .inl h0
  | ok u => exact .inr (addLoop_ends _ paths fs1 0)

theorem removeLoop_ends : ∀ (ps : List Path) (fs : FS) (n : Nat), duringRemoveLoop fs ps (removeLoop fs n ps).2.1 := by
  intro ps
  induction ps with
  | nil => intro fs n; rfl
  | cons p rest ih =>
    intro fs n
    simp only [duringRemoveLoop, removeLoop]
    cases h : Dict.get? fs p with
    | none => exact .inr (ih fs (n + 1))
    | some e =>
      cases e with
      | dir => exact .inl rfl
      | file s => exact .inr (ih _ (n + 1))

/-- The state after `remove_inputs` is among the interrupted states. -/
theorem remove_inputs_ends (fs : FS) (w : Name) (names : List Name) : duringRemoveInputs fs w names (removeInputs fs w names).2.1 :=
  removeLoop_ends _ fs 0

theorem removeOut_ends : ∀ (names : List Name) (d : Dict Name Kind), duringRemoveOutLoop d names (removeOutLoop d names).2 := by
  intro names
  induction names with
  | nil => intro d; rfl
  | cons n rest ih =>
    intro d
    simp only [duringRemoveOutLoop, removeOutLoop]
    cases h : Dict.get? d n with
    | none => exact .inr (ih d)
    | some k =>
      cases k with
      | dir => exact .inl rfl
      | brokenLink => exact .inr (ih d)
      | file => exact .inr (ih _)
      | link => exact .inr (ih _)

/-- The state after `remove_outputs` is among the interrupted states. -/
theorem remove_outputs_ends (d : Dict Name Kind) : ∃ g, (removeOutputs (some d)).2 = some g ∧ duringRemoveOutputs d g :=
  ⟨_, rfl, removeOut_ends _ d⟩

/-! ## Step by step -/

/-- A call that is killed after some of its steps leaves `g`. -/
inductive Killed : Prog → FS → FS → Prop
  | now (p : Prog) (fs : FS) : Killed p fs fs
  | later {p p' : Prog} {fs fs1 g : FS} : p.step fs = some (p', fs1) → Killed p' fs1 g → Killed p fs g

theorem killed_done {r : Except PyErr Unit} {fs g : FS} (h : Killed (.done r) fs g) : g = fs := by
  cases h with
  | now => rfl
  | later h _ => simp [Prog.step] at h

theorem killed_look {k : FS → Prog} {fs g : FS} (h : Killed (.look k) fs g) : g = fs ∨ Killed (k fs) fs g := by
  cases h with
  | now => exact .inl rfl
  | later h h2 =>
    simp only [Prog.step, Option.some.injEq, Prod.mk.injEq] at h
    obtain ⟨rfl, rfl⟩ := h
    exact .inr h2

theorem killed_unless {bad : FS → Bool} {e : PyErr} {k : Prog} {fs g : FS} (h : Killed (.unless bad e k) fs g) :
    g = fs ∨ bad fs = false ∧ Killed k fs g := by
  rcases killed_look h with h | h
  · exact .inl h
  · cases hb : bad fs with
    | true => simp only [hb, if_true] at h; exact .inl (killed_done h)
    | false => simp only [hb] at h; exact .inr ⟨rfl, h⟩

theorem killed_change {f : FS → Res Unit} {k : Prog} {fs g : FS} (h : Killed (.change f k) fs g) :
    g = fs ∨ g = (f fs).2 ∨ ∃ fs1, f fs = (.ok (), fs1) ∧ Killed k fs1 g := by
  cases h with
  | now => exact .inl rfl
  | later h h2 =>
    simp only [Prog.step] at h
    rcases hf : f fs with ⟨r, fs1⟩
    rw [hf] at h
    cases r with
    | error e =>
      simp only [Option.some.injEq, Prod.mk.injEq] at h
      obtain ⟨rfl, rfl⟩ := h
      exact .inr (.inl (killed_done h2))
    | ok u =>
      simp only [Option.some.injEq, Prod.mk.injEq] at h
      obtain ⟨rfl, rfl⟩ := h
      exact .inr (.inr ⟨_, rfl, h2⟩)

theorem killed_last {f : FS → Res Unit} {fs g : FS} (h : Killed (.change f (.done (.ok ()))) fs g) :
    g = fs ∨ g = (f fs).2 := by
  rcases killed_change h with h | h | ⟨fs1, e, h⟩
  · exact .inl h
  · exact .inr h
  · rw [e]; exact .inr (killed_done h)

/-- The call as a method of the manager. -/
def Call.op : Call → MgrOp
  | .createWs w => .createWs w
  | .deleteWs w => .deleteWs w
  | .copyWs w new => .copyWs w new
  | .createCfg w c => .createCfg w c
  | .deleteCfg w c => .deleteCfg w c
  | .copyCfg w c new => .copyCfg w c new
  | .setCfg w c => .setCfg w c

/-- **Every state between two steps of a call is among the interrupted states** (which contain more:
files and trees that are incomplete). -/
theorem killed_during (t : Templates) (fs g : FS) (ht : IsTree (view fs)) (c : Call) (h : Killed (c.prog t) fs g) :
    duringMgr t fs c.op g := by
  have hb := during_begins t fs c.op
  have he := during_ends t fs ht c.op
  cases c with
  | createCfg w c =>
    rcases killed_unless h with rfl | ⟨h1, h⟩
    · exact hb
    rcases killed_unless h with rfl | ⟨h2, h⟩
    · exact hb
    simp only [Call.op, duringMgr, duringCreateConfig]
    rw [if_neg (by simpa using h1), if_neg (by simpa using h2)]
    have h0 := during_ensure_ends (fs := fs) (p := cfgPath w c)
    rcases killed_change h with rfl | rfl | ⟨fs1, e1, h⟩
    · exact .inl (.inl rfl)
    · exact .inl h0
    right
    rw [e1]
    dsimp only
    have r1 := during_resource_ends (fs := fs1) (p := cfgPath w c ++ [chdFile]) (s := t.chd)
    rcases killed_change h with rfl | rfl | ⟨fs2, e2, h⟩
    · exact .inl (.inl rfl)
    · exact .inl r1
    right
    rw [e2]
    dsimp only
    have r2 := during_resource_ends (fs := fs2) (p := cfgPath w c ++ [cnfFile]) (s := t.cnf)
    rcases killed_change h with rfl | rfl | ⟨fs3, e3, h⟩
    · exact .inl (.inl rfl)
    · exact .inl r2
    right
    rw [e3]
    dsimp only
    rcases killed_last h with rfl | rfl
    · exact .inl rfl
    · exact during_resource_ends
  | createWs w =>
    rcases killed_unless h with rfl | ⟨h1, h⟩
    · exact hb
    rcases killed_unless h with rfl | ⟨h2, h⟩
    · exact hb
    simp only [Call.op, duringMgr, duringCreateWorkspace]
    rw [if_neg (by simpa using h1), if_neg (by
      rintro ⟨a, b⟩
      simp only [a, Bool.true_and, Bool.not_eq_false', List.isEmpty_iff] at h2
      exact b h2)]
    rcases killed_last h with rfl | rfl
    · exact .inl rfl
    · exact during_ensure_ends
  | deleteWs w =>
    rcases killed_unless h with rfl | ⟨h1, h⟩
    · exact hb
    rcases killed_last h with rfl | rfl
    · exact hb
    simp only [Call.op, duringMgr, duringDeleteWorkspace, rmtreeChecked]
    rw [if_neg (by simpa using h1)]
    split
    · exact during_rmtree_ends
    · rfl
  | copyWs w new =>
    rcases killed_unless h with rfl | ⟨h1, h⟩
    · exact hb
    rcases killed_look h with rfl | h
    · exact hb
    simp only [Call.op, duringMgr, duringCopyWorkspace]
    rw [if_neg (by simpa using h1)]
    split
    · rename_i hx
      rw [if_pos hx] at h
      rcases killed_last h with rfl | rfl
      · exact .inl rfl
      · exact during_copytree_ends ht
    · rename_i hx
      rw [if_neg hx] at h
      exact killed_done h
  | deleteCfg w c =>
    rcases killed_unless h with rfl | ⟨h1, h⟩
    · exact hb
    rcases killed_unless h with rfl | ⟨h2, h⟩
    · exact hb
    rcases killed_last h with rfl | rfl
    · exact hb
    simp only [Call.op, duringMgr, duringDeleteConfig, rmtreeChecked]
    rw [if_neg (by simpa using h1), if_neg (by simpa using h2)]
    split
    · exact during_rmtree_ends
    · rfl
  | copyCfg w c new =>
    rcases killed_unless h with rfl | ⟨h1, h⟩
    · exact hb
    rcases killed_unless h with rfl | ⟨h2, h⟩
    · exact hb
    rcases killed_last h with rfl | rfl
    · exact hb
    simp only [Call.op, duringMgr, duringCopyConfig]
    rw [if_neg (by simpa using h1), if_neg (by simpa using h2)]
    exact during_copytree_ends ht
  | setCfg w c =>
    rcases killed_unless h with rfl | ⟨h1, h⟩
    · exact hb
    rcases killed_unless h with rfl | ⟨h2, h⟩
    · exact hb
    rcases killed_last h with rfl | rfl
    · exact hb
    simp only [Call.op, duringMgr, duringSetCurrentConfig]
    rw [if_neg (by simpa using h1), if_neg (by simpa using h2)]
    exact during_write_ends

/-- Non-vacuity: `config add` killed after its first step leaves the empty directory of the configuration. -/
example : Killed ((Call.createCfg "w".toList "a".toList).prog ⟨[], [], []⟩)
    [([], .dir), (["w".toList], .dir)]
    (ensureDir [([], .dir), (["w".toList], .dir)] (cfgPath "w".toList "a".toList)).2 := by
  exact .later rfl (.later rfl (.later rfl (.now _ _)))

end Dedop.Workspace
