import Verif.Run.Spec
import Verif.Workspace.FrameLemmas
import Verif.Names.Props

/-! # Lemmas about the `run` command -/
namespace Dedop.Run

open Dedop.Names Dedop.Workspace

variable {Ω σ : Type}

/-- How a list of recorded calls ended. -/
def ended (l : List (Call × Option RunErr)) : Except RunErr Unit :=
  match l.getLast? with
  | some (_, some e) => .error e
  | _ => .ok ()

theorem ended_cons_none (c : Call) (l : List (Call × Option RunErr)) :
    ended ((c, none) :: l) = ended l := by
  unfold ended
  cases l with
  | nil => rfl
  | cons x l => rw [List.getLast?_cons_cons]

theorem ended_append_none (l l' : List (Call × Option RunErr)) (h : ∀ x ∈ l, x.2 = none) :
    ended (l ++ l') = ended l' := by
  induction l with
  | nil => rfl
  | cons x l ih =>
    obtain ⟨c, e⟩ := x
    have : e = none := h _ List.mem_cons_self
    subst this
    rw [List.cons_append, ended_cons_none]
    exact ih (fun y hy => h y (List.mem_cons_of_mem _ hy))

theorem runInputs_exec (P : Processor Ω σ) (q : Bool) (c : Name) (is : List Place) :
    ∀ (calls : List (Call × Option RunErr)) (ω : Ω) (p : σ) (k : List Call),
      ∃ X, (runInputs P q c calls ω p is).calls = calls ++ X ∧
        ((∃ e, (runInputs P q c calls ω p is).res = .error e ∧ ended X = .error e ∧
            exec P ω (some p) (is.map (fun i => .process c i q) ++ k) =
              (X, (runInputs P q c calls ω p is).world)) ∨
         ((runInputs P q c calls ω p is).res = .ok () ∧ (∀ x ∈ X, x.2 = none) ∧
            ∃ p', exec P ω (some p) (is.map (fun i => .process c i q) ++ k) =
              (X ++ (exec P (runInputs P q c calls ω p is).world (some p') k).1,
               (exec P (runInputs P q c calls ω p is).world (some p') k).2))) := by
  induction is with
  | nil =>
    intro calls ω p k
    refine ⟨[], by simp [runInputs], Or.inr ⟨rfl, by simp, p, by simp [runInputs]⟩⟩
  | cons i is ih =>
    intro calls ω p k
    rcases h : P.process ω p i q with ⟨e | st, p', ω'⟩
    · refine ⟨[(.process c i q, some e)], by simp [runInputs, h], Or.inl ⟨e, ?_, rfl, ?_⟩⟩
      · simp [runInputs, h]
      · simp [runInputs, h, exec]
    · obtain ⟨X, hX, hr⟩ := ih (calls ++ [(.process c i q, none)]) ω' p' k
      have hrun : runInputs P q c calls ω p (i :: is) =
          runInputs P q c (calls ++ [(.process c i q, none)]) ω' p' is := by
        simp [runInputs, h]
      rw [hrun]
      refine ⟨(.process c i q, none) :: X, by rw [hX]; simp, ?_⟩
      rcases hr with ⟨e, h1, h2, h3⟩ | ⟨h1, h2, p'', h3⟩
      · refine Or.inl ⟨e, h1, by rw [ended_cons_none]; exact h2, ?_⟩
        simp only [List.map_cons, List.cons_append, exec, h, h3]
      · refine Or.inr ⟨h1, ?_, p'', ?_⟩
        · intro x hx
          rcases List.mem_cons.1 hx with rfl | hx
          · rfl
          · exact h2 x hx
        · simp only [List.map_cons, List.cons_append, exec, h, h3]

/-- The calls for one configuration. -/
def cfgCalls (a : Args) (w : Name) (inputs : List Place) (c : Name) : List Call :=
  .make (setup a w c) :: inputs.map (fun i => .process c i a.quiet)

theorem runConfigs_exec (P : Processor Ω σ) (a : Args) (w : Name) (inputs : List Place)
    (cfgs : List Name) :
    ∀ (calls : List (Call × Option RunErr)) (ω : Ω) (p : Option σ),
      (∀ x ∈ calls, x.2 = none) →
      (runConfigs P a w inputs calls ω cfgs).calls =
          calls ++ (exec P ω p (cfgs.flatMap (cfgCalls a w inputs))).1 ∧
      (runConfigs P a w inputs calls ω cfgs).world =
          (exec P ω p (cfgs.flatMap (cfgCalls a w inputs))).2 ∧
      (runConfigs P a w inputs calls ω cfgs).res =
          ended (runConfigs P a w inputs calls ω cfgs).calls := by
  induction cfgs with
  | nil =>
    intro calls ω p hc
    refine ⟨by simp [runConfigs, exec], by simp [runConfigs, exec], ?_⟩
    have := ended_append_none calls [] hc
    simp only [runConfigs]
    rw [List.append_nil] at this
    rw [this]; rfl
  | cons c cfgs ih =>
    intro calls ω p hc
    rcases h : P.make ω (setup a w c) with ⟨e | p1, ω1⟩
    · refine ⟨?_, ?_, ?_⟩
      · simp [runConfigs, h, exec, cfgCalls]
      · simp [runConfigs, h, exec, cfgCalls]
      · simp [runConfigs, h, ended]
    · obtain ⟨X, hX, hr⟩ := runInputs_exec P a.quiet c inputs
        (calls ++ [(.make (setup a w c), none)]) ω1 p1 (cfgs.flatMap (cfgCalls a w inputs))
      have hc1 : ∀ x ∈ calls ++ [(Call.make (setup a w c), (none : Option RunErr))], x.2 = none := by
        intro x hx
        rcases List.mem_append.1 hx with hx | hx
        · exact hc x hx
        · simp only [List.mem_singleton] at hx; rw [hx]
      rcases hr with ⟨e, h1, h2, h3⟩ | ⟨h1, h2, p2, h3⟩
      · rcases hR : runInputs P a.quiet c (calls ++ [(.make (setup a w c), none)]) ω1 p1 inputs
          with ⟨res, cs, w2⟩
        rw [hR] at hX h1 h3
        simp only at hX h1 h3
        subst h1
        have hrun : runConfigs P a w inputs calls ω (c :: cfgs) = ⟨.error e, cs, w2⟩ := by
          simp [runConfigs, h, hR]
        rw [hrun]
        have he : exec P ω p ((c :: cfgs).flatMap (cfgCalls a w inputs)) =
            ((.make (setup a w c), none) :: X, w2) := by
          simp only [List.flatMap_cons, cfgCalls, List.cons_append, exec, h]
          rw [h3]
        rw [he]
        refine ⟨by simp [hX], rfl, ?_⟩
        show Except.error e = ended cs
        rw [hX, ended_append_none _ _ hc1, h2]
      · rcases hR : runInputs P a.quiet c (calls ++ [(.make (setup a w c), none)]) ω1 p1 inputs
          with ⟨res, cs, w2⟩
        rw [hR] at hX h1 h3
        simp only at hX h1 h3
        subst h1
        have hcs : ∀ x ∈ cs, x.2 = none := by
          rw [hX]
          intro x hx
          rcases List.mem_append.1 hx with hx | hx
          · exact hc1 x hx
          · exact h2 x hx
        have hrun : runConfigs P a w inputs calls ω (c :: cfgs) =
            runConfigs P a w inputs cs w2 cfgs := by
          simp [runConfigs, h, hR]
        rw [hrun]
        obtain ⟨i1, i2, i3⟩ := ih cs w2 (some p2) hcs
        have he : exec P ω p ((c :: cfgs).flatMap (cfgCalls a w inputs)) =
            ((.make (setup a w c), none) ::
              (X ++ (exec P w2 (some p2) (cfgs.flatMap (cfgCalls a w inputs))).1),
             (exec P w2 (some p2) (cfgs.flatMap (cfgCalls a w inputs))).2) := by
          simp only [List.flatMap_cons, cfgCalls, List.cons_append, exec, h]
          rw [h3]
        rw [he]
        exact ⟨by rw [i1, hX]; simp, i2, i3⟩

/-- What was executed is the beginning of the plan; all calls but the last succeeded. -/
theorem exec_prefix (P : Processor Ω σ) (calls : List Call) :
    ∀ (ω : Ω) (p : Option σ), (p = none → ∀ c rest, calls = c :: rest → ∃ s, c = .make s) →
      (exec P ω p calls).1.map (·.1) <+: calls ∧
      (∀ x ∈ (exec P ω p calls).1.dropLast, x.2 = none) ∧
      (ended (exec P ω p calls).1 = .ok () → (exec P ω p calls).1.map (·.1) = calls) := by
  induction calls with
  | nil => intro ω p _; simp [exec]
  | cons c calls ih =>
    have step : ∀ (c : Call) (l : List (Call × Option RunErr)),
        (l.map (·.1) <+: calls ∧ (∀ x ∈ l.dropLast, x.2 = none) ∧
          (ended l = .ok () → l.map (·.1) = calls)) →
        (((c, none) :: l).map (·.1) <+: c :: calls ∧ (∀ x ∈ ((c, none) :: l).dropLast, x.2 = none) ∧
          (ended ((c, none) :: l) = .ok () → ((c, none) :: l).map (·.1) = c :: calls)) := by
      rintro c l ⟨h1, h2, h3⟩
      refine ⟨by rw [List.map_cons]; exact List.cons_prefix_cons.2 ⟨rfl, h1⟩, ?_, ?_⟩
      · cases l with
        | nil => simp
        | cons y l =>
          rw [List.dropLast_cons_cons]
          intro x hx
          rcases List.mem_cons.1 hx with rfl | hx
          · rfl
          · exact h2 x hx
      · rw [ended_cons_none]; intro h; rw [List.map_cons, h3 h]
    intro ω p hp
    cases c with
    | make s =>
      rcases h : P.make ω s with ⟨e | p1, ω1⟩
      · simp [exec, h, ended]
      · simp only [exec, h]
        exact step _ _ (ih ω1 (some p1) (by simp))
    | process c i q =>
      cases p with
      | none => obtain ⟨s, hs⟩ := hp rfl _ _ rfl; cases hs
      | some p =>
        rcases h : P.process ω p i q with ⟨e | st, p1, ω1⟩
        · simp [exec, h, ended]
        · simp only [exec, h]
          exact step _ _ (ih ω1 (some p1) (by simp))

/-! ## Selection -/

theorem nodup_set (fs : FS) (p : Path) (e : Entry) (h : (fs.map (·.1)).Nodup) :
    ((Dict.set fs p e).map (·.1)).Nodup ∧ ∀ r, r ∈ (Dict.set fs p e).map (·.1) → r ∈ fs.map (·.1) ∨ r = p := by
  induction fs with
  | nil => simp [Dict.set]
  | cons x fs ih =>
    obtain ⟨k, v⟩ := x
    simp only [List.map_cons, List.nodup_cons] at h
    obtain ⟨h1, h2⟩ := ih h.2
    by_cases hk : p = k
    · subst hk
      simp only [Dict.set, if_true, List.map_cons, List.nodup_cons]
      refine ⟨h, ?_⟩
      intro r hr
      exact Or.inl hr
    · simp only [Dict.set, if_neg hk, List.map_cons, List.nodup_cons]
      refine ⟨⟨?_, h1⟩, ?_⟩
      · intro hc
        rcases h2 _ hc with hc | hc
        · exact h.1 hc
        · exact hk hc.symm
      · intro r hr
        rcases List.mem_cons.1 hr with hr | hr
        · exact Or.inl (by rw [hr]; exact List.mem_cons_self)
        · rcases h2 _ hr with hr | hr
          · exact Or.inl (List.mem_cons_of_mem _ hr)
          · exact Or.inr hr

/-- Every path is in the table once. -/
def Once (fs : FS) : Prop := (fs.map (·.1)).Nodup

theorem once_makedirsFrom {fs fs' : FS} {pre t : Path} (h : fs.makedirsFrom pre t = .ok fs')
    (ho : Once fs) : Once fs' := by
  have mk : ∀ {fs fs' : FS} {p : Path}, fs.mkdirOk p = .ok fs' → Once fs → Once fs' := by
    intro fs fs' p h ho
    unfold FS.mkdirOk at h
    split at h
    · cases h; exact (nodup_set _ _ _ ho).1
    · cases h; exact ho
    · cases h
  induction t generalizing fs pre with
  | nil => exact mk h ho
  | cons c t ih =>
    unfold FS.makedirsFrom at h
    split at h
    · cases h
    · rename_i fs1 h1
      exact ih h (mk h1 ho)

theorem once_ensureDir (fs : FS) (p : Path) (ho : Once fs) : Once (ensureDir fs p).2 := by
  unfold ensureDir
  split
  · exact ho
  · split
    · rename_i h; exact once_makedirsFrom h ho
    · exact ho

theorem once_writeline (fs : FS) (p : Path) (s : Name) (ho : Once fs) : Once (writeline fs p s).2 := by
  unfold writeline
  split
  · rename_i fs' h
    unfold FS.write at h
    split at h
    · cases h; exact (nodup_set _ _ _ ho).1
    · cases h
  · exact ho

theorem once_setCurrentConfig (fs : FS) (w c : Name) (ho : Once fs) :
    Once (setCurrentConfig fs w c).2 := by
  unfold setCurrentConfig
  split
  · exact ho
  · split
    · exact ho
    · exact once_writeline _ _ _ ho

theorem once_createConfig (fs : FS) (w c : Name) (t : Templates) (ho : Once fs) :
    Once (createConfig fs w c t).2 := by
  unfold createConfig
  split
  · exact ho
  · split
    · exact ho
    · have h0 := once_ensureDir fs (cfgPath w c) ho
      split
      · rename_i h; rw [h] at h0; exact h0
      · rename_i fs1 h
        rw [h] at h0
        have h1 := once_writeline fs1 (cfgPath w c ++ [chdFile]) t.chd h0
        unfold copyResource
        split
        · rename_i h; rw [h] at h1; exact h1
        · rename_i fs2 h
          rw [h] at h1
          have h2 := once_writeline fs2 (cfgPath w c ++ [cnfFile]) t.cnf h1
          split
          · rename_i h; rw [h] at h2; exact h2
          · rename_i fs3 h
            rw [h] at h2
            exact once_writeline _ _ _ h2

theorem once_createDefaultConfig (t : Templates) (fs : FS) (w : Name) (ho : Once fs) :
    Once (createDefaultConfig t fs w).2 := by
  unfold createDefaultConfig
  split
  · exact ho
  · unfold cliCreateConfig
    have h0 := once_createConfig fs w defaultName t ho
    split
    · rename_i h; rw [h] at h0; exact h0
    · rename_i h; rw [h] at h0; exact once_setCurrentConfig _ _ _ h0

theorem once_createDefaultWs (fs : FS) (ho : Once fs) : Once (cliCreateDefaultWorkspace fs).2 := by
  unfold cliCreateDefaultWorkspace
  split
  · exact ho
  · have h0 : Once (createWorkspace fs defaultName).2 := by
      unfold createWorkspace
      split
      · exact ho
      · split
        · exact ho
        · exact once_ensureDir _ _ ho
    split
    · rename_i h; rw [h] at h0; exact h0
    · rename_i h
      rw [h] at h0
      unfold cliSetCurrent setCurrent
      split
      · exact h0
      · exact once_writeline _ _ _ h0

theorem only_createDefaultWs (fs : FS) :
    Only fs (cliCreateDefaultWorkspace fs).2 (fun r => r <+: [defaultName] ∨ r = [currentFile]) := by
  unfold cliCreateDefaultWorkspace
  split
  · exact Only.rfl'
  · have h0 : Only fs (createWorkspace fs defaultName).2
        (fun r => r <+: [defaultName] ∨ r = [currentFile]) :=
      (only_createWorkspace fs defaultName).mono (fun r hr => Or.inl hr.1)
    split
    · rename_i h; rw [h] at h0; exact h0
    · rename_i fs1 h
      rw [h] at h0
      refine h0.trans ?_
      unfold cliSetCurrent setCurrent
      split
      · exact Only.rfl'
      · exact (only_writeline _ _ _).mono (fun r hr => Or.inr hr)

theorem only_createDefaultConfig (t : Templates) (fs : FS) (w : Name) (hw : w ≠ []) :
    Only fs (createDefaultConfig t fs w).2 (fun r => r <+: [w] ∨ [w, configsDir] <+: r) := by
  unfold createDefaultConfig
  have hp : cfgPath w defaultName = [w, configsDir, defaultName] := by
    simp [cfgPath, comp, hw, defaultName]
  have h0 : Only fs (createConfig fs w defaultName t).2
      (fun r => r <+: [w] ∨ [w, configsDir] <+: r) := by
    refine (only_createConfig fs w defaultName t).mono ?_
    intro r hr
    rw [hp] at hr
    have big : ∀ x : Name, [w, configsDir] <+: [w, configsDir, defaultName] ++ [x] := by
      intro x; exact ⟨[defaultName, x], rfl⟩
    rcases hr with ⟨hr, _⟩ | rfl | rfl | rfl
    · by_cases hl : r.length ≤ 1
      · exact Or.inl (List.prefix_of_prefix_length_le hr ⟨[configsDir, defaultName], rfl⟩ (by simpa using hl))
      · exact Or.inr (List.prefix_of_prefix_length_le ⟨[defaultName], rfl⟩ hr (by simp; omega))
    · exact Or.inr (big _)
    · exact Or.inr (big _)
    · exact Or.inr (big _)
  split
  · exact Only.rfl'
  · unfold cliCreateConfig
    split
    · rename_i h; rw [h] at h0; exact h0
    · rename_i h
      rw [h] at h0
      refine h0.trans ((only_setCurrentConfig _ _ _).mono ?_)
      rintro r rfl
      refine Or.inr ?_
      simp only [cfgMarker, comp, if_neg hw]
      exact ⟨[currentFile], rfl⟩

theorem recorded_eq (fs : FS) (p : Path) : (readline fs p).getD [] = (recorded fs p).getD [] ∧
    ((readline fs p).getD [] = [] ↔ recorded fs p = none) := by
  unfold readline recorded view
  cases h : Dict.get? fs p with
  | none => simp
  | some e =>
    cases e with
    | dir => simp
    | file s => by_cases hs : firstLine s = [] <;> simp [hs]

theorem recorded_some {fs : FS} {p : Path} {n : Name} (h : recorded fs p = some n) : n ≠ [] := by
  unfold recorded at h
  split at h
  · split at h
    · cases h
    · rename_i hne; cases h; exact hne
  · cases h

theorem listdir_nodup (fs : FS) (p : Path) (ho : Once fs) : (fs.listdir p).Nodup := by
  have key : ∀ (e : Path × Entry) (n : Name),
      (if p <+: e.1 ∧ e.1.length = p.length + 1 then e.1.getLast? else none) = some n → e.1 = p ++ [n] := by
    intro e n h
    split at h
    · rename_i hc
      obtain ⟨⟨t, ht⟩, hl⟩ := hc
      rw [← ht] at hl h ⊢
      rw [List.length_append] at hl
      have : t.length = 1 := by omega
      obtain ⟨x, rfl⟩ := List.length_eq_one_iff.1 this
      simp at h
      rw [h]
    · cases h
  unfold FS.listdir
  unfold Once at ho
  induction fs with
  | nil => simp
  | cons e fs ih =>
    rw [List.map_cons, List.nodup_cons] at ho
    rw [List.filterMap_cons]
    split
    · exact ih ho.2
    · rename_i n hn
      rw [List.nodup_cons]
      refine ⟨?_, ih ho.2⟩
      intro hm
      obtain ⟨e', he', hn'⟩ := List.mem_filterMap.1 hm
      have h1 := key e n hn
      have h2 := key e' n hn'
      apply ho.1
      rw [h1, ← h2]
      exact List.mem_map_of_mem he'

end Dedop.Run
