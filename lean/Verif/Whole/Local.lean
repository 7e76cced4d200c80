import Verif.Whole.Echo

/-!
# A record is made of the echoes of its own bursts (C146)
-/
namespace Dedop.Whole

open Real Process

/-! ## Lemmas -/

/-- What a result says of the calculation. -/
theorem surface_parts {argsort : List ℝ → List ℕ} {round : ℝ → ℤ} {junk : ℕ → ℂ} {c : Chain.Conf} {b : ℕ → Chain.L1A} {s : Chain.Surf} {p : ℕ}
    {looks : Chain.Looks} {r : Chain.Result} (h : Chain.surface argsort round junk c b s p looks = .ok (some r)) :
    ∃ es, Chain.entries junk c b looks = .ok es ∧ Stack.gather argsort c.looks (π / 2) p es = .ok r.gathered ∧
      Stack.masking round (Chain.maskConf c) (Chain.maskInput c b s r.gathered.rows) = .ok r.masked ∧
      r.shifts = r.gathered.rows.map (Chain.shiftOf c b s) ∧
      r.out = Multilook.compute c.avoidZeros (c.samples * c.zp) c.looks (Chain.lookBeams r.gathered.rows r.masked) := by
  unfold Chain.surface at h
  cases he : Chain.entries junk c b looks with
  | error e => rw [he] at h; cases h
  | ok es =>
    rw [he] at h
    dsimp only at h
    cases hg : Stack.gather argsort c.looks (π / 2) p es with
    | error e => rw [hg] at h; cases h
    | ok g =>
      rw [hg] at h
      dsimp only at h
      split at h
      · cases h
      · cases hm : Stack.masking round (Chain.maskConf c) (Chain.maskInput c b s g.rows) with
        | error e => rw [hm] at h; cases h
        | ok m =>
          rw [hm] at h
          dsimp only at h
          split at h
          · cases h
          · split at h
            · cases h
            · cases h
              exact ⟨es, rfl, hg, hm, rfl, rfl⟩

theorem times_one (A : ℕ → ℂ) (g : Stack.Gathered ℝ (ℕ → ℂ)) (h : ∀ row ∈ g.rows, A row.burst = 1) : Chain.timesGathered A g = g := by
  unfold Chain.timesGathered
  have : g.rows.map (Chain.timesRow A) = g.rows := by
    conv_rhs => rw [← List.map_id g.rows]
    refine List.map_congr_left (fun row hrow => ?_)
    unfold Chain.timesRow
    rw [h row hrow]
    simp
  rw [this]

theorem surface_local (argsort : List ℝ → List ℕ) (round : ℝ → ℤ) (j1 j2 : ℕ → ℂ) (c : Chain.Conf) (b1 b2 : ℕ → Chain.L1A) (s : Chain.Surf)
    (p1 p2 : ℕ) (looks : Chain.Looks) (hw : Chain.WellMade c b1 looks) (hb : ∀ id, silent (b2 id) = silent (b1 id)) (r r' : Chain.Result)
    (h1 : Chain.surface argsort round j1 c b1 s p1 looks = .ok (some r)) (h2 : Chain.surface argsort round j2 c b2 s p2 looks = .ok (some r'))
    (hB : ∀ row ∈ r.gathered.rows, b2 row.burst = b1 row.burst) : r' = r := by
  classical
  have hw2 : Chain.WellMade c b2 looks := by
    refine ⟨hw.1, fun l hl => ?_⟩
    have h1 : (b2 l.2.2).angles = (b1 l.2.2).angles := (congrArg Chain.L1A.angles (hb l.2.2) :)
    have h2 : Chain.azBurst c (b2 l.2.2) = Chain.azBurst c (b1 l.2.2) := (congrArg (Chain.azBurst c) (hb l.2.2) :)
    rw [h1, h2]
    exact hw.2 l hl
  rw [Chain.record_own_stack argsort round j2 j1 c b2 b2 s p2 p1 looks hw2 (fun _ _ => rfl)] at h2
  obtain ⟨es1, e1, g1, m1, s1, o1⟩ := surface_parts h1
  obtain ⟨es2, e2, g2, m2, s2, o2⟩ := surface_parts h2
  let A : ℕ → ℂ := fun id => if b2 id = b1 id then 1 else 0
  have h0 : Chain.rescaled A b2 = Chain.rescaled A b1 := by
    funext id
    unfold Chain.rescaled
    by_cases h : b2 id = b1 id
    · rw [h]
    · have hA : A id = 0 := if_neg h
      rw [hA]
      have : ∀ b : Chain.L1A, ({ b with wfm := fun p i => 0 * b.wfm p i } : Chain.L1A) = silent b := by
        intro b; unfold silent; simp
      rw [this, this, hb]
  have hg : Chain.timesGathered A r'.gathered = Chain.timesGathered A r.gathered := by
    rcases Chain.entries_scaled A j1 c b1 looks hw with ⟨e, q, _⟩ | ⟨xs, fs, q1, q2, q3⟩
    · rw [q] at e1; cases e1
    rcases Chain.entries_scaled A j1 c b2 looks hw2 with ⟨e, q, _⟩ | ⟨xs', fs', q1', q2', q3'⟩
    · rw [q] at e2; cases e2
    rw [h0, q2] at q2'
    cases q2'
    rw [e1] at q1
    cases q1
    rw [e2] at q1'
    cases q1'
    have k1 := Chain.scaled_gather A argsort c.looks (π / 2) p1 q3
    have k2 := Chain.scaled_gather A argsort c.looks (π / 2) p1 q3'
    rw [g1] at k1
    rw [g2, k1] at k2
    exact (Except.ok.inj k2).symm
  have hA1 : ∀ row ∈ r.gathered.rows, A row.burst = 1 := fun row hrow => if_pos (hB row hrow)
  have hA2 : ∀ row ∈ r'.gathered.rows, A row.burst = 1 := by
    intro row hrow
    have hm : Chain.timesRow A row ∈ (Chain.timesGathered A r'.gathered).rows := List.mem_map_of_mem hrow
    rw [hg, times_one A r.gathered hA1] at hm
    exact (hA1 (Chain.timesRow A row) hm :)
  rw [times_one A _ hA1, times_one A _ hA2] at hg
  have hs : Chain.shiftOf c b2 s = Chain.shiftOf c b1 s := by
    have : ∀ b : ℕ → Chain.L1A, Chain.shiftOf c b s = Chain.shiftOf c (fun id => silent (b id)) s := fun _ => rfl
    rw [this b2, this b1, funext hb]
  have hmask : Chain.maskInput c b2 s = Chain.maskInput c b1 s := by
    have : ∀ b : ℕ → Chain.L1A, Chain.maskInput c b s = Chain.maskInput c (fun id => silent (b id)) s := fun _ => rfl
    rw [this b2, this b1, funext hb]
  rw [hg, hmask, m1] at m2
  rw [hs, hg, ← s1] at s2
  rw [hg, ← Except.ok.inj m2, ← o1] at o2
  obtain ⟨a1, a2, a3, a4⟩ := r
  obtain ⟨b1, b2, b3, b4⟩ := r'
  dsimp only at hg m2 s2 o2
  rw [hg, s2, o2, Except.ok.inj m2]

theorem surface_local_aw (on : Bool) (p : Chain.Pattern) (argsort : List ℝ → List ℕ) (round : ℝ → ℤ) (j1 j2 : ℕ → ℂ) (c : Chain.Conf)
    (b1 b2 : ℕ → Chain.L1A) (s : Chain.Surf) (p1 p2 : ℕ) (looks : Chain.Looks) (hw : Chain.WellMade c b1 looks)
    (hb : ∀ id, silent (b2 id) = silent (b1 id)) (r r' : Chain.Result)
    (h1 : Chain.surfaceAw on p argsort round j1 c b1 s p1 looks = .ok (some r))
    (h2 : Chain.surfaceAw on p argsort round j2 c b2 s p2 looks = .ok (some r'))
    (hB : ∀ row ∈ r.gathered.rows, b2 row.burst = b1 row.burst) : r' = r := by
  obtain ⟨x, e1, g1⟩ := Chain.surfaceAw_ok_some h1
  obtain ⟨x', e2, _⟩ := Chain.surfaceAw_ok_some h2
  have hg : r.gathered = x.gathered := by rw [g1]
  rw [hg] at hB
  have := surface_local argsort round j1 j2 c b1 b2 s p1 p2 looks hw hb x x' e1 e2 hB
  subst this
  unfold Chain.surfaceAw at h1 h2
  rw [e1] at h1
  rw [e2, h1] at h2
  exact (Option.some.inj (Except.ok.inj h2)).symm

/-! ## C146 -/

/-- **C146.**  The records of two files with the same orbit, times and instrument settings correspond to each other, and a record is
the same in both products if the two files have the same echoes and calibrations in the bursts it is made of; what is in the other bursts does not
matter. -/
theorem own_echoes (c : Conf) (hn : 0 < c.pulses) (o : World) (ho : o.Steady) (alg : Surface.Alg) (file1 file2 : ℕ → Raw)
    (hf : ∀ id, (file2 id).quiet = (file1 id).quiet) (n : ℕ) :
    SameCourse (process c o alg file1 n) (process c o alg file2 n) ∧
    List.Forall₂ (fun r1 r2 : Record => (∀ id ∈ r1.bursts, file2 id = file1 id) → r2 = r1)
      (process c o alg file1 n).state.l1b (process c o alg file2 n).state.l1b ∧
    List.Forall₂ (fun r1 r2 : Record => (∀ id ∈ r1.bursts, file2 id = file1 id) → r2 = r1)
      (process c o alg file1 n).state.l1bs (process c o alg file2 n).state.l1bs := by
  have hA : Alike (echoTwin (fun id b1 b2 => silent b2 = silent b1 ∧ (file2 id = file1 id → b2 = b1))
      (fun r1 r2 => r2.outline = r1.outline ∧ ((∀ id ∈ r1.bursts, file2 id = file1 id) → r2 = r1))) c c o { o with junk := o.junk } file1 file2 := by
    refine alike_echo c hn o ho o.junk file1 file2 hf _ _ (fun _ _ _ h => h.1) ?_ ?_ ?_ (fun _ => ⟨rfl, fun _ => rfl⟩) ?_ ?_
    · intro id
      have : ∀ r : Raw, silent (fresh c id r) = silent (fresh c id r.quiet) := fun _ => rfl
      exact ⟨by rw [this (file2 id), hf, ← this], fun h => by rw [h]⟩
    · intro id b1 b2 h
      exact ⟨h.1, fun he => by rw [he, h.2 he]⟩
    · intro id b1 b2 angles trend h
      refine ⟨?_, fun he => by rw [h.2 he]⟩
      show ({ silent b2 with angles := angles, trend := trend } : Chain.L1A) = { silent b1 with angles := angles, trend := trend }
      rw [h.1]
    · intro f m1 m2 p1 p2 looks r r' hm hw e1 e2 hr n loc g
      constructor
      · show (⟨n, loc, outlineOf r', g⟩ : Record) = ⟨n, loc, outlineOf r, g⟩
        rw [hr]
      · intro hB
        have := surface_local_aw c.weighting c.pattern o.argsort o.round o.junk o.junk c.chain m1 m2 f p1 p2 looks hw (fun id => (hm id).1) r r' e1 e2
          (fun row hrow => (hm row.burst).2 (hB row.burst (List.mem_map_of_mem hrow)))
        rw [this]
    · intro r1 r2 h
      exact (congrArg Record.counter h.1 :)
  have q := process_twin hA (a1 := alg) (a2 := alg) rfl n (open_quiet c file1 file2 hf n) (fun d _ s _ _ b s' _ f _ => trivial)
    (fun _ _ => trivial)
  exact ⟨q.mono (fun s t h => h.ctl), q.state.l1b.imp (fun _ _ h => h.2), q.state.l1bs.imp (fun _ _ h => h.2)⟩

/-! ## Example -/

/-- The file of the example with the second burst damaged. -/
noncomputable def damagedFile (k : ℕ) : Raw := if k = 0 then demoFile 0 else { demoFile k with i := fun p s => 1000 * (p + s) }

/-- The hypotheses are met by the file of the example with the second burst damaged: the record, which is made of the first, is the same. -/
example (alg : Surface.Alg) : (damagedFile 1).i 1 1 ≠ (demoFile 1).i 1 1 ∧
    ∃ rec, (process demoConf (demoWorld realArg) alg demoFile 2).state.l1b = [rec] ∧
      (process demoConf (demoWorld realArg) alg damagedFile 2).state.l1b = [rec] := by
  refine ⟨by norm_num [damagedFile, demoFile], ?_⟩
  obtain ⟨s, rec, e, h1, _, h2, _, h4, _⟩ := demo_run realArg realArg_isArgsort alg
  have hf : ∀ id, (damagedFile id).quiet = (demoFile id).quiet := by
    intro id
    unfold damagedFile
    split
    · next h => rw [h]
    · rfl
  have q := (own_echoes demoConf (by decide) (demoWorld realArg) (demo_steady _) alg demoFile damagedFile hf 2).2.1
  rw [e] at q ⊢
  have q : List.Forall₂ _ s.l1b _ := q
  rw [h1] at q
  obtain ⟨r, t, hr, ht, e2⟩ := List.forall₂_cons_left_iff.1 q
  rw [List.forall₂_nil_left_iff.1 ht] at e2
  refine ⟨rec, h1, ?_⟩
  rw [e2, hr]
  rw [h4]
  intro id hid
  rw [List.mem_singleton.1 hid]
  rfl

end Dedop.Whole
