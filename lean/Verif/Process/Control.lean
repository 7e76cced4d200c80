import Verif.Process.Rel

/-! # Control flow of the processing loop (lemmas) -/
namespace Dedop.Process

variable {R : Type} [Field R] [LinearOrder R]

/-- What holds at the start of an iteration. -/
structure Ctl (s : St R) : Prop where
  gap : s.gapProcessing = true → s.surfaces ≠ [] ∧ s.hasSub = true ∧ s.gapResume = false ∧
    s.prevTime = none ∧ s.input ≠ none ∧ s.surfaceProcessing = true
  resume : s.gapResume = true → s.surfaces = [] ∧ s.surfaceProcessing = false ∧ s.prevTime = none ∧
    s.input ≠ none
  time : s.prevTime ≠ none → s.surfaces ≠ []
  surf : s.surfaceProcessing = true → s.surfaces ≠ []

/-- What holds between the input phase and the surface phase. -/
structure Ctl1 (s : St R) : Prop where
  gap : s.gapProcessing = true → s.surfaces ≠ [] ∧ s.hasSub = true ∧ s.prevTime = none ∧ s.input ≠ none
  noResume : s.gapResume = false
  time : s.prevTime ≠ none → s.surfaces ≠ []
  surf : s.surfaceProcessing = true → s.surfaces ≠ []

/-- Measure of the work left. -/
def work (s : St R) : Nat :=
  3 * s.rest.length + s.surfaces.length + (if s.gapProcessing then 2 else 0) +
    (if s.gapResume then 2 else 0)

theorem ctl_begin (env : Env R) (s : St R) (h : Ctl s) : Ctl (beginIteration env s) := by
  obtain ⟨h1, h2, h3, h4⟩ := h
  unfold beginIteration
  simp only [St.log]
  split <;> exact ⟨h1, h2, h3, h4⟩

theorem work_begin (env : Env R) (s : St R) : work (beginIteration env s) = work s := by
  unfold beginIteration
  simp only [St.log]
  split <;> rfl

theorem surfaces_begin (env : Env R) (s : St R) : (beginIteration env s).surfaces = s.surfaces := by
  unfold beginIteration
  simp only [St.log]
  split <;> rfl

/-- After the input phase: control, and the work left has shrunk by one at least if a packet or the end of
a gap was met. -/
theorem input_ctl (env : Env R) (s : St R) (h : Ctl s) (b : Bool) (s' : St R)
    (hr : InputRel env s b s') :
    (b = true → Ctl s' ∧ work s' < work s) ∧
    (b = false → Ctl1 s' ∧
      (work s' < work s ∨
        (s'.surfaces = s.surfaces ∧ work s' = work s ∧
          (s'.gapProcessing = true ∨ s'.surfaceProcessing = true ∨ s'.surfaces = [])))) := by
  obtain ⟨h1, h2, h3, h4⟩ := h
  cases hr with
  | gap hg hs =>
    obtain ⟨a, b, c, d, e, f⟩ := h1 hg
    refine ⟨by simp, fun _ => ⟨⟨fun _ => ⟨a, b, d, e⟩, c, h3, h4⟩, Or.inr ⟨rfl, rfl, Or.inl hg⟩⟩⟩
  | gapNoSub hg hs =>
    obtain ⟨a, b, c, d, e, f⟩ := h1 hg
    rw [hs] at b; cases b
  | noPacket hg s1 hread hi =>
    cases hread with
    | resumed hres => exact absurd hi (h2 hres).2.2.2
    | atEnd hres hrest hp =>
      refine ⟨by simp, fun _ => ⟨⟨fun h => ?_, hres, h3, h4⟩, Or.inr ⟨rfl, rfl, Or.inr (Or.inl hp)⟩⟩⟩
      simp only [St.log] at h
      rw [hg] at h; cases h
    | invalid hres rest hrest =>
      refine ⟨by simp, fun _ => ⟨⟨fun h => ?_, hres, h3, h4⟩, Or.inl ?_⟩⟩
      · simp only at h; rw [hg] at h; cases h
      · simp [work, hrest]
    | record hres p rest hrest => simp at hi
  | packet hg s1 hread p hi b s2 hp =>
    cases hread with
    | resumed hres =>
      obtain ⟨a, b', c, d⟩ := h2 hres
      cases hp with
      | nothing _ hs _ => exact absurd a hs
      | created _ =>
        refine ⟨by simp, fun _ => ⟨⟨fun h => ?_, rfl, by simp, by simp⟩, Or.inl ?_⟩⟩
        · simp only at h; rw [hg] at h; cases h
        · simp [work, hres]; omega
      | gap t ht _ => rw [c] at ht; cases ht
    | atEnd hres hrest hp => simp [St.log] at hi
    | invalid hres rest hrest => simp at hi
    | record hres q rest hrest =>
      cases hp with
      | nothing _ hs _ =>
        refine ⟨fun _ => ⟨⟨?_, ?_, fun _ => hs, h4⟩, ?_⟩, by simp⟩
        · intro h; simp only at h; rw [hg] at h; cases h
        · intro h; simp only at h; rw [hres] at h; cases h
        · simp [work, hrest]
      | created _ =>
        refine ⟨by simp, fun _ => ⟨⟨fun h => ?_, rfl, by simp, by simp⟩, Or.inl ?_⟩⟩
        · simp only at h; rw [hg] at h; cases h
        · simp [work, hrest, hres]; omega
      | gap t ht _ =>
        have hs : s.surfaces ≠ [] := h3 (by simp only at ht; rw [ht]; simp)
        refine ⟨by simp, fun _ => ⟨⟨fun _ => ⟨hs, rfl, rfl, by simp⟩, hres, by simp, h4⟩, Or.inl ?_⟩⟩
        simp [work, hrest, hg]; omega

/-- What the surface phase does to the control variables. -/
theorem surf_ctl (env : Env R) (s s' : St R) (hr : SurfRel env s s') :
    s'.gapProcessing = s.gapProcessing ∧ s'.gapResume = s.gapResume ∧ s'.hasSub = s.hasSub ∧
    s'.prevTime = s.prevTime ∧ s'.input = s.input ∧ s'.rest = s.rest ∧ s'.running = s.running ∧
    s'.k = s.k ∧ s'.status = s.status ∧ s'.count = s.count ∧
    ((s'.surfaces = s.surfaces ∧ s'.surfaceProcessing = s.surfaceProcessing ∧ s.gapProcessing = false ∧
        s.surfaceProcessing = false ∧ s.surfaces.length < minSurfs) ∨
      (s'.surfaces.length + 1 = s.surfaces.length ∧ s'.surfaceProcessing = true)) := by
  cases hr with
  | idle h =>
    push Not at h
    refine ⟨rfl, rfl, rfl, rfl, rfl, rfl, rfl, rfl, rfl, rfl, Or.inl ⟨rfl, rfl, ?_, ?_, h.2.1⟩⟩
    · simpa using h.2.2
    · simpa using h.1
  | dropped h s1 new n loop pk w rest hw few =>
    have hf := loop.frame
    have hl := loop.surfaces.length_eq
    have hl' : s.begun.surfaces = s.surfaces := rfl
    rw [hl', hw] at hl
    simp only [St.log]
    rw [hf]
    refine ⟨rfl, rfl, rfl, rfl, rfl, rfl, rfl, rfl, rfl, rfl, Or.inr ⟨by simpa using hl.symm, rfl⟩⟩
  | written h s1 new n loop pk w rest hw en pks suf =>
    have hf := loop.frame
    have hl := loop.surfaces.length_eq
    have hl' : s.begun.surfaces = s.surfaces := rfl
    rw [hl', hw] at hl
    simp only
    rw [hf]
    refine ⟨rfl, rfl, rfl, rfl, rfl, rfl, rfl, rfl, rfl, rfl, Or.inr ⟨by simpa using hl.symm, rfl⟩⟩

/-- One iteration keeps the control invariant and uses up work, unless it ends the loop. -/
theorem step_ctl (env : Env R) (s s' : St R) (h : Ctl s) (hr : StepRel env s s') :
    s'.running = true → Ctl s' ∧ work s' < work s := by
  intro hrun
  have hb := ctl_begin env s h
  have hw := work_begin env s
  cases hr with
  | cont _ hi =>
    have := (input_ctl env _ hb true s' hi).1 rfl
    rw [hw] at this
    exact this
  | full s1 s2 _ hi hsf he =>
    obtain ⟨c1, hwork⟩ := (input_ctl env _ hb false s1 hi).2 rfl
    rw [hw] at hwork
    obtain ⟨e1, e2, e3, e4, e5, e6, e7, e8, e9, e10, hsurf⟩ := surf_ctl env s1 s2 hsf
    have hwork2 : work s2 ≤ work s1 ∧ (work s2 < work s1 ∨ (s2.surfaces = s1.surfaces ∧ s1.gapProcessing = false ∧ s1.surfaceProcessing = false)) := by
      rcases hsurf with ⟨hs, _, hg, hsp, _⟩ | ⟨hs, _⟩
      · refine ⟨?_, Or.inr ⟨hs, hg, hsp⟩⟩
        simp [work, hs, e1, e2, e6]
      · have : work s2 < work s1 := by simp [work, e1, e2, e6]; omega
        exact ⟨this.le, Or.inl this⟩
    cases he with
    | gapEnd hs0 hg hsub =>
      rw [e1] at hg
      obtain ⟨_, a2, a3, a4⟩ := c1.gap hg
      refine ⟨⟨by simp, fun _ => ⟨hs0, rfl, by simpa [e4] using a3, by simpa [e5] using a4⟩, ?_, by simp⟩, ?_⟩
      · intro ht; simp only [e4, a3] at ht; exact absurd rfl ht
      · have hlt : work s2 < work s1 := by
          rcases hwork2.2 with h | ⟨_, h, _⟩
          · exact h
          · rw [hg] at h; cases h
        have : work { s2 with gapProcessing := false, gapResume := true, surfaceProcessing := false
                              trace := s2.trace ++ [Event.gapDone] } = work s2 := by
          simp [work, e1, hg, e2, c1.noResume]
        rw [this]
        rcases hwork with h | ⟨_, h, _⟩ <;> omega
    | stop hs0 hg => simp at hrun
    | go hs0 =>
      refine ⟨⟨?_, ?_, fun _ => hs0, fun _ => hs0⟩, ?_⟩
      · intro hg
        rw [e1] at hg
        obtain ⟨_, a2, a3, a4⟩ := c1.gap hg
        refine ⟨hs0, by rw [e3]; exact a2, by rw [e2]; exact c1.noResume, by rw [e4]; exact a3, by rw [e5]; exact a4, ?_⟩
        rcases hsurf with ⟨_, _, h, _⟩ | ⟨_, h⟩
        · rw [hg] at h; cases h
        · exact h
      · intro hres; rw [e2, c1.noResume] at hres; cases hres
      · rcases hwork with h | ⟨h1, h2, h3⟩
        · omega
        · rcases hwork2.2 with h | ⟨hs, hg, hsp⟩
          · omega
          · rcases h3 with h | h | h
            · rw [hg] at h; cases h
            · rw [hsp] at h; cases h
            · rw [hs, h] at hs0; exact absurd rfl hs0

theorem ctl_start (surfaces : List (Beams.Surf (Pk R))) (packets : List (Pk R × Bool))
    (items : List (Item R)) : Ctl (start surfaces packets items) :=
  ⟨by simp [start], by simp [start], by simp [start], by simp [start]⟩

/-- Enough iterations are enough. -/
theorem run_terminates (env : Env R) : ∀ (fuel : Nat) (s : St R), (s.running = true → Ctl s) →
    (if s.running then work s + 1 else 0) < fuel → ∀ s', run env fuel s ≠ .timeout s' := by
  intro fuel
  induction fuel with
  | zero => intro s _ h; omega
  | succ fuel ih =>
    intro s hc hf s' heq
    rw [run] at heq
    by_cases hr : s.running = true
    · rw [if_pos hr] at heq
      rw [if_pos hr] at hf
      have hrel := step_rel env s
      revert hrel heq
      generalize step env s = r
      intro heq hrel
      cases r with
      | error x => cases heq
      | ok s1 =>
        have hst := step_ctl env s s1 (hc hr) hrel
        refine ih s1 (fun h => (hst h).1) ?_ s' heq
        by_cases h1 : s1.running = true
        · rw [if_pos h1]; have := (hst h1).2; omega
        · rw [if_neg h1]; omega
    · rw [if_neg hr] at heq
      cases hf' : env.finishFails s with
      | some e => rw [hf'] at heq; cases heq
      | none => rw [hf'] at heq; cases heq

end Dedop.Process
