import Verif.Process.Use
import Verif.Process.Demo
import Verif.Basic.Tactics

/-!
# C151: every record of the file is read

`next(self.l1a_file)` gives `None` for a record that is not valid or lies outside the region
(`l1a_dataset.py:248-263`).  The loop then goes on to the surfaces: it takes one of them from the queue
although none was added, and if the queue is empty it takes this for the end of the input
(`processor.py:228-276`).
-/
namespace Dedop.Process

variable {R : Type} [Field R] [LinearOrder R]

/-! ## Specification -/

/-- How many records of the stream are not valid or outside the region. -/
def invalids (items : List (Item R)) : Nat := items.countP (fun | .invalid => true | _ => false)

/-- The stream begins with such a record. -/
def StartsInvalid (items : List (Item R)) : Prop := ∃ rest, items = .invalid :: rest

/-! ## Lemmas -/

theorem invalids_invalid (rest : List (Item R)) : invalids (.invalid :: rest) = invalids rest + 1 := by
  simp [invalids]

theorem invalids_record (p : Pk R) (rest : List (Item R)) :
    invalids (.record p :: rest) = invalids rest := by
  simp [invalids]

/-- The queue of surfaces is long enough for the records still to come. -/
structure Long (total : Nat) (s : St R) : Prop where
  le : invalids s.rest ≤ total
  first : s.surfaces = [] → s.gapResume = true ∨ ¬ StartsInvalid s.rest
  queue : s.gapProcessing = false → s.surfaceProcessing = true →
    s.rest = [] ∨ 79 + invalids s.rest ≤ s.surfaces.length + total

/-- The same between the input phase and the surface phase; at the end of the input nothing is asked. -/
structure Long1 (total : Nat) (s : St R) : Prop where
  le : invalids s.rest ≤ total
  some : s.rest = [] ∨ s.surfaces ≠ []
  queue : s.gapProcessing = false → s.surfaceProcessing = true →
    s.rest = [] ∨ 80 + invalids s.rest ≤ s.surfaces.length + total

theorem surf_enough (env : Env R) (s s' : St R) (hr : SurfRel env s s') (hg : s.gapProcessing = false)
    (hp : s.surfaceProcessing = false) (hl : s'.surfaces.length + 1 = s.surfaces.length) :
    80 ≤ s.surfaces.length := by
  have key : (s.surfaceProcessing = true ∨ minSurfs ≤ s.surfaces.length ∨ s.gapProcessing = true) →
      80 ≤ s.surfaces.length := by
    rw [hg, hp]
    simp [minSurfs]
  cases hr with
  | idle h => omega
  | dropped h => exact key h
  | written h => exact key h

theorem input_long (env : Env R) (total : Nat) (s : St R) (hc : Ctl s) (h : Long total s) (b : Bool)
    (s' : St R) (hr : InputRel env s b s') :
    (b = true → Long total s') ∧ (b = false → Long1 total s') := by
  obtain ⟨h1, h2, h3⟩ := h
  cases hr with
  | gap hg hs =>
    refine ⟨by simp, fun _ => ⟨h1, Or.inr (hc.gap hg).1, fun hg' => ?_⟩⟩
    have hg'' : s.gapProcessing = false := hg'
    rw [hg] at hg''; cases hg''
  | gapNoSub hg hs =>
    refine ⟨by simp, fun _ => ⟨h1, Or.inr (hc.gap hg).1, fun hg' => ?_⟩⟩
    rw [hg] at hg'; cases hg'
  | noPacket hg s1 hread hi =>
    cases hread with
    | resumed hres => exact absurd hi (hc.resume hres).2.2.2
    | atEnd hres hrest hp => exact ⟨by simp, fun _ => ⟨h1, Or.inl hrest, fun _ _ => Or.inl hrest⟩⟩
    | invalid hres rest hrest =>
      have hne : s.surfaces ≠ [] := by
        intro h0
        rcases h2 h0 with h | h
        · rw [hres] at h; cases h
        · exact h ⟨rest, hrest⟩
      rw [hrest, invalids_invalid] at h1 h3
      refine ⟨by simp, fun _ => ⟨?_, Or.inr hne, fun hg' hp => ?_⟩⟩
      · show invalids rest ≤ total
        omega
      · rcases h3 hg hp with h | h
        · cases h
        · right
          show 80 + invalids rest ≤ s.surfaces.length + total
          omega
    | record hres p rest hrest => simp at hi
  | packet hg s1 hread p hi b s2 hp =>
    cases hread with
    | resumed hres =>
      obtain ⟨a, b', c, d⟩ := hc.resume hres
      cases hp with
      | nothing _ hs _ => exact absurd a hs
      | created _ =>
        refine ⟨by simp, fun _ => ⟨h1, Or.inr (by simp), fun _ hp => ?_⟩⟩
        have hp' : s.surfaceProcessing = true := hp
        rw [b'] at hp'; cases hp'
      | gap t ht _ => rw [c] at ht; cases ht
    | atEnd hres hrest hp => simp [St.log] at hi
    | invalid hres rest hrest => simp at hi
    | record hres q rest hrest =>
      rw [hrest, invalids_record] at h1 h3
      cases hp with
      | nothing _ hs _ =>
        refine ⟨fun _ => ⟨h1, fun h0 => absurd h0 hs, fun _ hp => ?_⟩, by simp⟩
        rcases h3 hg hp with h | h
        · cases h
        · exact Or.inr h
      | created _ =>
        refine ⟨by simp, fun _ => ⟨h1, Or.inr (by simp), fun _ hp => ?_⟩⟩
        rcases h3 hg hp with h | h
        · cases h
        · right
          show 80 + invalids rest ≤ (s.surfaces ++ [_]).length + total
          rw [List.length_append, List.length_singleton]
          omega
      | gap t ht _ =>
        have hs : s.surfaces ≠ [] := hc.time (by simp only at ht; rw [ht]; simp)
        refine ⟨by simp, fun _ => ⟨h1, Or.inr hs, fun hg' => ?_⟩⟩
        cases hg'

/-- What is true of the loop between its iterations: it stops at the end of the input only. -/
structure Reading (total : Nat) (s : St R) : Prop where
  go : s.running = true → Ctl s ∧ Long total s
  stop : s.running = false → s.rest = [] ∧ s.gapProcessing = false ∧ s.gapResume = false

theorem begin_eq (env : Env R) (hc : ∀ k, env.cancelled k = false) (s : St R) :
    beginIteration env s = { s with k := s.k + 1 }.log .iteration := by
  unfold beginIteration
  simp only
  rw [if_neg (by rw [hc]; simp)]

theorem step_reading (env : Env R) (hc : ∀ k, env.cancelled k = false) (total : Nat) (ht : total ≤ 78)
    (s s' : St R) (h : Reading total s) (hrun : s.running = true) (hr : StepRel env s s') :
    Reading total s' := by
  obtain ⟨h1, h2⟩ := h.go hrun
  have hb := ctl_begin env s h1
  have hbe := begin_eq env hc s
  have hlb : Long total (beginIteration env s) := by
    rw [hbe]; exact ⟨h2.le, h2.first, h2.queue⟩
  have hrb : (beginIteration env s).running = true := by rw [hbe]; exact hrun
  refine ⟨fun hrun' => ⟨(step_ctl env s s' h1 hr hrun').1, ?_⟩, ?_⟩
  · cases hr with
    | cont _ hi => exact (input_long env total _ hb hlb true s' hi).1 rfl
    | full s1 s2 _ hi hsf he =>
      obtain ⟨a, b, c⟩ := (input_long env total _ hb hlb false s1 hi).2 rfl
      obtain ⟨e1, e2, e3, e4, e5, e6, e7, e8, e9, e10, hsurf⟩ := surf_ctl env s1 s2 hsf
      cases he with
      | gapEnd hs0 hg hsub =>
        refine ⟨?_, fun _ => Or.inl rfl, fun _ hp => by cases hp⟩
        show invalids s2.rest ≤ total
        rw [e6]; exact a
      | stop hs0 hg => simp at hrun'
      | go hs0 =>
        refine ⟨by rw [e6]; exact a, fun h0 => absurd h0 hs0, fun hg hp => ?_⟩
        rw [e1] at hg
        rw [e6]
        rcases hsurf with ⟨hs, hsp, _, hsp', _⟩ | ⟨hs, hsp⟩
        · rw [hsp, hsp'] at hp; cases hp
        · by_cases hp1 : s1.surfaceProcessing = true
          · rcases c hg hp1 with h | h
            · exact Or.inl h
            · right; omega
          · have := surf_enough env s1 _ hsf hg (by simpa using hp1) hs
            right; omega
  · intro hstop
    cases hr with
    | cont _ hi =>
      have hph := (phase_input hi).running
      rw [hph, hrb] at hstop; cases hstop
    | full s1 s2 _ hi hsf he =>
      have hc1 := ((input_ctl env _ hb false s1 hi).2 rfl).1
      obtain ⟨a, b, c⟩ := (input_long env total _ hb hlb false s1 hi).2 rfl
      obtain ⟨e1, e2, e3, e4, e5, e6, e7, e8, e9, e10, hsurf⟩ := surf_ctl env s1 s2 hsf
      have hph := (phase_input hi).running
      have hr2 : s2.running = true := by rw [e7, hph, hrb]
      cases he with
      | gapEnd hs0 hg hsub =>
        have : s2.running = false := hstop
        rw [hr2] at this; cases this
      | go hs0 => rw [hr2] at hstop; cases hstop
      | stop hs0 hg =>
        refine ⟨?_, hg, by show s2.gapResume = false; rw [e2]; exact hc1.noResume⟩
        show s2.rest = []
        rw [e6]
        rw [e1] at hg
        rcases b with b | b
        · exact b
        · rcases hsurf with ⟨hs, hsp, _, hsp', _⟩ | ⟨hs, hsp⟩
          · rw [hs0] at hs; exact absurd hs.symm b
          · rw [hs0] at hs
            have hs' : s1.surfaces.length = 1 := by simpa using hs.symm
            by_cases hp1 : s1.surfaceProcessing = true
            · rcases c hg hp1 with h | h
              · exact h
              · omega
            · have := surf_enough env s1 s2 hsf hg (by simpa using hp1) (by rw [hs0]; exact hs)
              omega

/-! ## C151 -/

/-- C151 (partial): a run that is not cancelled and ends normally has used every valid record of the
stream, in order, if the first record is valid and at most 78 records are not.  Missing: all other
streams (`every_record_violated`). -/
theorem every_record_partial (env : Env R) (packets : List (Pk R × Bool)) (hp : ∀ x ∈ packets, x.2 = true)
    (items : List (Item R)) (hc : ∀ k, env.cancelled k = false) (hfirst : ¬ StartsInvalid items)
    (hfew : invalids items ≤ 78) (s : St R) (hf : processWith env [] packets items = .finished s) :
    acceptedOf s.trace = itemIds items := by
  have h := process_inv env packets hp items
  have h2 := run_induct env (Reading (invalids items)) (fun _ _ => True)
    (fun s s' h hr hst => step_reading env hc _ hfew s s' h hr hst) (fun _ _ _ _ _ _ => trivial)
    (3 * items.length + ([] : List (Beams.Surf (Pk R))).length + 2) (start [] packets items)
    ⟨fun _ => ⟨ctl_start [] packets items, le_refl _, fun _ => Or.inr hfirst, fun _ hp => by cases hp⟩,
      fun h => by cases h⟩
  have hf' : run env (3 * items.length + ([] : List (Beams.Surf (Pk R))).length + 2)
    (start [] packets items) = .finished s := hf
  rw [hf'] at h2
  rw [hf] at h
  obtain ⟨s1, hs1, hr1, _, rfl⟩ := h2
  obtain ⟨s2, hs2, _, _, he⟩ := h
  obtain ⟨r1, r2, r3⟩ := hs1.stop hr1
  have f1 : s2.rest = s1.rest := (congrArg St.rest he :).symm
  have f2 : s2.gapProcessing = s1.gapProcessing := (congrArg St.gapProcessing he :).symm
  have f3 : s2.gapResume = s1.gapResume := (congrArg St.gapResume he :).symm
  rw [he]
  have ha := hs2.ids.all
  have hpend := hs2.ids.pend
  have hno : pending s2 = [] := by
    unfold pending
    rw [f2, f3, r2, r3]
    simp
  rw [f1, r1] at ha
  rw [hno, List.append_nil] at hpend
  have hz : itemIds ([] : List (Item R)) = [] := rfl
  rw [hz, List.append_nil, hpend] at ha
  rw [← ha]
  show acceptedOf (s2.trace ++ [.closed]) = _
  rw [acceptedOf_append]
  simp [acceptedOf]

/-- Streams that meet the hypotheses: 81 records with invalid ones among and after them. -/
example : ¬ StartsInvalid (recs 0 40 0 ++ [.invalid] ++ recs 40 41 40 ++ [.invalid]) ∧
    invalids (recs 0 40 0 ++ [.invalid] ++ recs 40 41 40 ++ [.invalid]) = 2 ∧
    (match process demo (recs 0 40 0 ++ [.invalid] ++ recs 40 41 40 ++ [.invalid]) with
      | .finished s => decide (acceptedOf s.trace = List.range 81)
      | _ => false) = true := by
  refine ⟨?_, by decide +kernel, by decide +kernel⟩
  rintro ⟨rest, h⟩
  have h0 : (recs 0 40 0 ++ [Item.invalid] ++ recs 40 41 40 ++ [Item.invalid]).head? =
    some (.record ⟨0, 0⟩) := by decide +kernel
  rw [h] at h0
  cases h0

/-- C151: whatever the other records are, and whatever the algorithms do, if the first record of a file is
not valid the run ends at once and normally, and no record has been used. -/
theorem first_invalid (env : Env R) (packets : List (Pk R × Bool)) (rest : List (Item R))
    (hfin : ∀ s, env.finishFails s = none) :
    ∃ s, processWith env [] packets (.invalid :: rest) = .finished s ∧
      acceptedOf s.trace = [] ∧ doneOf s.trace = [] ∧ readCount s.trace = 1 := by
  have hstep : ∀ (s : St R), s.gapProcessing = false → s.gapResume = false → s.surfaceProcessing = false →
      s.surfaces = [] → s.rest = .invalid :: rest → ∃ s', step env s = .ok s' ∧ s'.running = false ∧
        s'.trace = (beginIteration env s).trace ++ [.read none, .progress] := by
    intro s h1 h2 h3 h4 h5
    have hb : ∃ r t, beginIteration env s = { s with k := s.k + 1, running := r, trace := t } := by
      unfold beginIteration
      dsimp only [St.log]
      split
      · exact ⟨_, _, rfl⟩
      · exact ⟨_, _, rfl⟩
    obtain ⟨r, t, hb⟩ := hb
    unfold step
    rw [hb]
    simp [inputPhase, h1, h2, readNext, h5, St.log, surfacePhase, h3, h4, minSurfs, endPhase]
  obtain ⟨s', e1, e2, e3⟩ := hstep (start [] packets (.invalid :: rest)) rfl rfl rfl rfl rfl
  refine ⟨s'.log .closed, ?_, ?_, ?_, ?_⟩
  · unfold processWith
    rw [show 3 * (Item.invalid :: rest : List (Item R)).length + ([] : List (Beams.Surf (Pk R))).length + 2 =
      (3 * rest.length + 3) + 1 + 1 by simp; omega]
    rw [run, if_pos (by rfl), e1]
    dsimp only
    rw [run, if_neg (by rw [e2]; simp), hfin]
  all_goals
    show _ = _
    rw [show (s'.log .closed).trace = s'.trace ++ [.closed] from rfl, e3]
    unfold beginIteration
    dsimp only [St.log]
    split <;> simp [acceptedOf, doneOf, readCount, start]

/-- C151 is violated: a run that is not cancelled, in which nothing fails, ends normally although valid
records have not been used: if the first record is not valid; and if the first is valid, but 79 records
in the middle are not (as when the satellite leaves the region and returns). -/
theorem every_record_violated : ∃ (env : Env ℚ), (∀ k, env.cancelled k = false) ∧
    (∀ e, ¬ Raises env e) ∧ (∀ s, env.finishFails s = none) ∧
    (∃ s, process env (.invalid :: recs 1 200 1) = .finished s ∧ acceptedOf s.trace = []) ∧
    (∃ s, process env (recs 0 80 0 ++ List.replicate 79 .invalid ++ recs 159 200 159) = .finished s ∧
      acceptedOf s.trace = List.range 80) := by
  refine ⟨demo, fun _ => rfl, demo_quiet, fun _ => rfl, ?_, ?_⟩
  · obtain ⟨s, h1, h2, _, _⟩ := first_invalid demo [] (recs 1 200 1) (fun _ => rfl)
    exact ⟨s, h1, h2⟩
  · have h : (match process demo (recs 0 80 0 ++ List.replicate 79 .invalid ++ recs 159 200 159) with
        | .finished s => decide (acceptedOf s.trace = List.range 80)
        | _ => false) = true := by decide +kernel
    revert h
    generalize process demo (recs 0 80 0 ++ List.replicate 79 .invalid ++ recs 159 200 159) = o
    intro h
    cases o with
    | finished s => exact ⟨s, rfl, of_decide_eq_true h⟩
    | failed e s => cases h
    | timeout s => cases h

end Dedop.Process
