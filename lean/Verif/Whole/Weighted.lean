import Verif.Whole.Local

/-!
# Antenna weighting in the products (C149)
-/
namespace Dedop.Whole

open Real Process

/-! ## Specification -/

/-- The second record is the first with the waveform replaced by the means of the powers of its looks, each times the weight which the
pattern gives for its pointing angle. -/
structure Weighted (c : Conf) (p : Chain.Pattern) (r1 r2 : Record) : Prop where
  rest : r2 = { r1 with result := { r1.result with out := { r1.result.out with waveform := r2.result.out.waveform } } }
  means : ∃ ws : List ℝ,
    List.Forall₂ (fun (row : Stack.Row ℝ (ℕ → ℂ)) w => Chain.weightOf p row.pointing = .ok w) r1.result.gathered.rows ws ∧
    ∀ k < c.samples * c.zp,
      r1.result.out.waveform[k]? = some (Chain.weightedMean c.avoidZeros
        ((Chain.lookBeams r1.result.gathered.rows r1.result.masked).zip (ws.map (fun _ => 1))) k) ∧
      r2.result.out.waveform[k]? = some (Chain.weightedMean c.avoidZeros
        ((Chain.lookBeams r1.result.gathered.rows r1.result.masked).zip ws) k)

/-! ## Lemmas -/

/-- A complete pattern gives a weight for every angle. -/
theorem weight_exists (p : Chain.Pattern) (first spacing : ℝ) (weights : List ℝ) (h : Chain.Complete p first spacing weights) (angle : ℝ) :
    ∃ w, Chain.weightOf p angle = .ok w := by
  rw [Chain.weightOf_complete p first spacing weights h]
  obtain ⟨h1, h2, -⟩ := h
  have g1 : (Chain.grid 250 first spacing).head? = some first := by
    unfold Chain.grid; rw [show 250 = 249 + 1 from rfl, List.range_succ_eq_map]; simp
  have g2 : (Chain.grid 250 first spacing).getLast? = some (first + spacing * 249) := by
    unfold Chain.grid; rw [show 250 = 249 + 1 from rfl, List.range_succ]; simp
  unfold Multilook.selectWeight
  rw [g1, g2]
  cases weights with
  | nil => simp at h2
  | cons w0 ws =>
    have g3 : (w0 :: ws).getLast? = some ((w0 :: ws).getLast (by simp)) := List.getLast?_eq_some_getLast (by simp)
    rw [List.head?_cons, g3]
    dsimp only
    split
    · exact ⟨_, rfl⟩
    · rename_i ha
      split
      · exact ⟨_, rfl⟩
      · rename_i hb
        have hi : ⌊(angle - first) / spacing⌋.toNat + 1 < 250 := by
          have : ⌊(angle - first) / spacing⌋ < 249 := by
            rw [Int.floor_lt, div_lt_iff₀ h1]
            push_cast
            push Not at hb
            linarith
          omega
        rw [List.getElem?_eq_getElem (by rw [h2]; omega), List.getElem?_eq_getElem (by rw [h2]; omega)]
        exact ⟨_, rfl⟩

theorem weigh_ok (p : Chain.Pattern) (h : ∀ x, ∃ w, Chain.weightOf p x = .ok w) (beams : List (Multilook.Beam ℝ)) :
    ∃ out, Chain.weigh p beams = .ok out := by
  induction beams with
  | nil => exact ⟨_, rfl⟩
  | cons b rest ih =>
    obtain ⟨w, hw⟩ := h b.pointing
    obtain ⟨out, ho⟩ := ih
    rw [Chain.weigh, hw, ho]
    exact ⟨_, rfl⟩

/-- Files which are the same have the same items. -/
theorem open_own (bounds : Reader.Bounds ℝ) (file : ℕ → Raw) (n : ℕ) :
    match Reader.openDataset bounds (positions file n) with
    | .error e => Reader.openDataset bounds (positions file n) = .error e
    | .ok d => ∃ d', Reader.openDataset bounds (positions file n) = .ok d' ∧ items file n d' = items file n d := by
  cases Reader.openDataset bounds (positions file n) with
  | error e => rfl
  | ok d => exact ⟨d, rfl, rfl⟩

theorem alike_weighted (c : Conf) (hn : 0 < c.pulses) (hoff : c.weighting = false) (hP : 2 ≤ c.samples * c.zp) (o : World) (ho : o.Steady)
    (p : Chain.Pattern) (first spacing : ℝ) (weights : List ℝ) (hp : Chain.Complete p first spacing weights) (file : ℕ → Raw) :
    Alike (echoTwin (fun _ b1 b2 => b2 = b1) (Weighted c p)) c { c with weighting := true, pattern := p } o o file file where
  pulses := rfl
  bri := rfl
  pos := hn
  step := by
    intro a1 a2 ss1 ss2 old id force ha hs
    have hs : ss1 = ss2 := List.forall₂_eq_eq_eq ▸ hs
    have ha : a1 = a2 := ha
    subst hs ha
    show match Surface.step c.surface a1 ss1 (old.map (fun i => burst c (file i))) (burst c (file id)) force with
      | .err e => Surface.step c.surface a1 ss1 (old.map (fun i => burst c (file i))) (burst c (file id)) force = .err e
      | .nan => Surface.step c.surface a1 ss1 (old.map (fun i => burst c (file i))) (burst c (file id)) force = .nan
      | .ok x xs new => (∀ f ∈ xs, True) → ∃ x' xs', Surface.step c.surface a1 ss1 (old.map (fun i => burst c (file i)))
          (burst c (file id)) force = .ok x' xs' new ∧ x = x' ∧ List.Forall₂ Eq xs xs'
    match Surface.step c.surface a1 ss1 (old.map (fun i => burst c (file i))) (burst c (file id)) force with
    | .err e => rfl
    | .nan => rfl
    | .ok x xs new => exact fun _ => ⟨x, xs, rfl, rfl, List.forall₂_same.2 (fun _ _ => rfl)⟩
  fresh := fun _ => rfl
  calibrated := by
    rintro id b1 b2 rfl
    rfl
  beams := by
    rintro id b1 b2 angles trend rfl
    rfl
  blank := fun _ => rfl
  qMin := fun _ => rfl
  doppler := fun _ => rfl
  angle := by
    intro id f1 f2 h
    have h : f1 = f2 := h
    rw [h]
    rfl
  azimuth := by
    rintro id b1 b2 rfl
    show match Chain.azimuth c.chain b2 with
      | .error e => Chain.azimuth c.chain b2 = .error e
      | .ok _ => ∃ x, Chain.azimuth c.chain b2 = .ok x
    cases Chain.azimuth c.chain b2 with
    | error e => rfl
    | ok x => exact ⟨x, rfl⟩
  surface := by
    intro f1 f2 m1 m2 p1 p2 looks hff hm hw _
    have hff : f1 = f2 := hff
    subst hff
    have hm : m2 = m1 := funext hm
    subst hm
    show match Chain.surfaceAw c.weighting c.pattern o.argsort o.round o.junk c.chain m2 (place f1) p1 looks with
      | .error e => Chain.surfaceAw true p o.argsort o.round o.junk c.chain m2 (place f1) p2 looks = .error e
      | .ok none => Chain.surfaceAw true p o.argsort o.round o.junk c.chain m2 (place f1) p2 looks = .ok none
      | .ok (some r) => ∃ r', Chain.surfaceAw true p o.argsort o.round o.junk c.chain m2 (place f1) p2 looks = .ok (some r') ∧
        match sigma0 c file m2 f1 r with
        | none => sigma0 c file m2 f1 r' = none
        | some g => ∃ g', sigma0 c file m2 f1 r' = some g' ∧ ∀ n, Weighted c p ⟨n, f1.loc, r, g⟩ ⟨n, f1.loc, r', g'⟩
    rw [hoff, Chain.weighting_off,
      Chain.record_own_stack_aw true p o.argsort o.round o.junk o.junk c.chain m2 m2 (place f1) p2 p1 looks hw (fun _ _ => rfl)]
    have key : ∀ r, Chain.surface o.argsort o.round o.junk c.chain m2 (place f1) p1 looks = .ok (some r) →
        ∃ r', Chain.surfaceAw true p o.argsort o.round o.junk c.chain m2 (place f1) p1 looks = .ok (some r') := by
      intro r hr
      unfold Chain.surfaceAw
      rw [hr]
      dsimp only
      obtain ⟨out, h⟩ := weigh_ok p (weight_exists p first spacing weights hp) (Chain.lookBeams r.gathered.rows r.masked)
      unfold Chain.applyWeighting
      rw [if_pos rfl, h]
      exact ⟨_, rfl⟩
    cases hs : Chain.surface o.argsort o.round o.junk c.chain m2 (place f1) p1 looks with
    | error e => unfold Chain.surfaceAw; rw [hs]
    | ok x =>
      cases x with
      | none => unfold Chain.surfaceAw; rw [hs]
      | some r =>
        obtain ⟨r', hr'⟩ := key r hs
        refine ⟨r', hr', ?_⟩
        obtain ⟨r0, ws, e0, e1, e2, e3⟩ :=
          Chain.weighting_changes_power p o.argsort o.round o.junk c.chain m2 (place f1) p1 looks hP r' hr'
        rw [hs] at e0
        cases e0
        have hsig : sigma0 c file m2 f1 r' = sigma0 c file m2 f1 r := by rw [e1]; rfl
        rw [hsig]
        cases sigma0 c file m2 f1 r with
        | none => rfl
        | some g =>
          refine ⟨g, rfl, fun n => ⟨?_, ws, e2, e3⟩⟩
          show (⟨n, f1.loc, r', g⟩ : Record) = ⟨n, f1.loc, { r with out := { r.out with waveform := r'.out.waveform } }, g⟩
          rw [← e1]
  cancelled := rfl
  l1bFails := by
    intro r1 r2 h
    obtain ⟨f, g, hfg⟩ := ho
    have : r2.counter = r1.counter := by rw [h.rest]
    rw [(hfg r2).1, (hfg r1).1, this]
  l1bsFails := by
    intro r1 r2 h
    obtain ⟨f, g, hfg⟩ := ho
    have : r2.counter = r1.counter := by rw [h.rest]
    rw [(hfg r2).2, (hfg r1).2, this]
  counter := by
    intro r1 r2 h
    rw [h.rest]
  finishFails := rfl
  skipL1bs := rfl

/-! ## C149 -/

/-- **C149, products.**  Whether antenna weighting with a complete pattern is on or off, the run has the same course, and the products have
the same records but for the samples of the waveforms, in which the power of each look is multiplied by the weight for its pointing
angle. -/
theorem weighting_products (c : Conf) (hn : 0 < c.pulses) (hoff : c.weighting = false) (hP : 2 ≤ c.samples * c.zp) (o : World)
    (ho : o.Steady) (alg : Surface.Alg) (p : Chain.Pattern) (first spacing : ℝ) (weights : List ℝ)
    (hp : Chain.Complete p first spacing weights) (file : ℕ → Raw) (n : ℕ) :
    SameCourse (process c o alg file n) (process { c with weighting := true, pattern := p } o alg file n) ∧
    List.Forall₂ (Weighted c p) (process c o alg file n).state.l1b
      (process { c with weighting := true, pattern := p } o alg file n).state.l1b ∧
    List.Forall₂ (Weighted c p) (process c o alg file n).state.l1bs
      (process { c with weighting := true, pattern := p } o alg file n).state.l1bs := by
  have q := process_twin (alike_weighted c hn hoff hP o ho p first spacing weights hp file) (a1 := alg) (a2 := alg) rfl n
    (open_own c.bounds file n) (fun d _ s _ _ b s' _ f _ => trivial)
    (fun _ _ => trivial)
  exact ⟨q.mono (fun s t h => h.ctl), q.state.l1b, q.state.l1bs⟩

/-- **C149, products without a pattern.**  With antenna weighting on and no pattern in the characterisation file, or lists without 250
numbers, nothing is written to either product. -/
theorem no_pattern_products (c : Conf) (hn : 0 < c.pulses) (hon : c.weighting = true) (hl : 2 ≤ c.looks) (o : World)
    (alg : Surface.Alg) (hp : (∀ l, c.pattern.angles = some l → l.length ≠ 250) ∨ ∀ l, c.pattern.weights = some l → l.length ≠ 250) (file : ℕ → Raw) (n : ℕ) :
    (process c o alg file n).state.l1b = [] ∧ (process c o alg file n).state.l1bs = [] := by
  have key : ∀ rec, ¬ (rec ∈ (process c o alg file n).state.l1b ∨ rec ∈ (process c o alg file n).state.l1bs) := by
    intro rec hr
    obtain ⟨its, _, _, _, hpr, _, _⟩ := process_products c o alg file n
    obtain ⟨s2, ho⟩ := hpr.origin rec hr
    obtain ⟨looks, f, e1, _⟩ := ho.parts hn
    rw [hon] at e1
    obtain ⟨r, e2, _⟩ := Chain.surfaceAw_ok_some e1
    obtain ⟨e, e3⟩ := Chain.pattern_needed c.pattern hp o.argsort o.round o.junk c.chain s2.mem (place f) s2.closest looks hl r e2
    rw [e1] at e3
    cases e3
  exact ⟨List.eq_nil_iff_forall_not_mem.2 (fun rec h => key rec (Or.inl h)),
    List.eq_nil_iff_forall_not_mem.2 (fun rec h => key rec (Or.inr h))⟩

/-! ## Example -/

/-- Weights which are all 3. -/
noncomputable def threefold : Chain.Pattern :=
  ⟨some (Chain.grid 250 (-1) (1 / 100)), some (List.replicate 250 3), some (1 / 100)⟩

theorem threefold_complete : Chain.Complete threefold (-1) (1 / 100) (List.replicate 250 3) :=
  ⟨by norm_num, List.length_replicate, rfl⟩

/-- The hypotheses are met by the run of the example, which writes a record with and without weighting; without a pattern nothing is
written. -/
example (alg : Surface.Alg) : ∃ rec rec',
    (process demoConf (demoWorld realArg) alg demoFile 2).state.l1b = [rec] ∧
    (process { demoConf with weighting := true, pattern := threefold } (demoWorld realArg) alg demoFile 2).state.l1b = [rec'] ∧
    Weighted demoConf threefold rec rec' ∧
    (process { demoConf with weighting := true, pattern := ⟨none, none, none⟩ } (demoWorld realArg) alg demoFile 2).state.l1b = [] := by
  obtain ⟨s, rec, e, h1, _, h2, _, h4, _⟩ := demo_run realArg realArg_isArgsort alg
  have q := (weighting_products demoConf (by decide) rfl (by decide) (demoWorld realArg) (demo_steady _) alg threefold _ _ _
    threefold_complete demoFile 2).2.1
  rw [e] at q ⊢
  have q : List.Forall₂ _ s.l1b _ := q
  rw [h1] at q
  obtain ⟨r, t, hr, ht, e2⟩ := List.forall₂_cons_left_iff.1 q
  rw [List.forall₂_nil_left_iff.1 ht] at e2
  refine ⟨rec, r, h1, e2, hr, ?_⟩
  exact (no_pattern_products { demoConf with weighting := true, pattern := ⟨none, none, none⟩ } (by decide) rfl (by decide)
    (demoWorld realArg) alg (Or.inl (fun l h => by cases h)) demoFile 2).1

/-- The bound of the weighted waveforms (C150) applies to it: equal weights, energy 16, padding factor 2. -/
example (alg : Surface.Alg) (rec : Record)
    (hr : rec ∈ (process { demoConf with weighting := true, pattern := threefold } (demoWorld realArg) alg demoFile 2).state.l1b)
    (k : ℕ) (y : ℝ) (hy : rec.result.out.waveform[k]? = some (some y)) : 0 ≤ y ∧ y ≤ 3 * (16 / demoConf.zp) :=
  weighted_waveforms_bounded_partial { demoConf with weighting := true, pattern := threefold } (demoWorld realArg) alg demoFile 2
    (by decide) rfl _ _ 3 _ threefold_complete
    (fun w hw => by rw [List.eq_of_mem_replicate hw]; norm_num) 16 (by norm_num) (demo_energy 2) rec (Or.inl hr)
    (Or.inr ⟨3, rfl⟩) k y hy

end Dedop.Whole
