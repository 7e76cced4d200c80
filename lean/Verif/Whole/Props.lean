import Verif.Whole.Steps
import Verif.Reader.DatasetProps
import Verif.Chain.Bound

/-!
# What holds of every product (C141, C142, C143)

Theorems about `process`: everything from the variables of the L1A file to the records handed to the writers.
-/
namespace Dedop.Whole

open Real Process

/-! ## Specification -/

/-- The bursts whose looks are in a record. -/
def Record.bursts (rec : Record) : List ℕ := rec.result.gathered.rows.map (·.burst)

/-- A record of the L1A file with a position, inside the region of interest. -/
def Usable (c : Conf) (file : ℕ → Raw) (i : ℕ) : Prop :=
  ¬ ((file i).lat = 0 ∧ (file i).lon = 0) ∧ Reader.InRegion c.bounds (file i).lat (file i).lon

/-- The largest sum of the squares of the samples of a burst, after its calibration and the azimuth window; the
burst after a gap is calibrated twice (C44). -/
def EnergyBound (c : Conf) (file : ℕ → Raw) (n : ℕ) (E : ℝ) : Prop :=
  ∀ i < n, Chain.energy c.chain (base c file 1 i) ≤ E ∧ Chain.energy c.chain (base c file 2 i) ≤ E

/-! ## Lemmas -/

theorem itemIds_items (file : ℕ → Raw) (n : ℕ) (d : Reader.Dataset) :
    itemIds (items file n d) = Reader.delivered (Reader.iterate (positions file n) d) := by
  unfold items itemIds Reader.delivered
  rw [List.filterMap_map]
  congr 1
  funext x
  cases x <;> rfl

theorem items_length {c : Conf} (file : ℕ → Raw) (n : ℕ) (d : Reader.Dataset) (h : Reader.openDataset c.bounds (positions file n) = .ok d) :
    (items file n d).length ≤ n := by
  have hl : (items file n d).length = d.final - d.start := by simp [items, Reader.iterate]
  rw [hl]
  unfold Reader.openDataset at h
  split at h
  · dsimp only at h
    cases h1 : (Reader.argwhere (Reader.roiFilter c.bounds (positions file n).lats (positions file n).lons)).min? with
    | none => rw [h1] at h; cases h
    | some lo =>
      cases h2 : (Reader.argwhere (Reader.roiFilter c.bounds (positions file n).lats (positions file n).lons)).max? with
      | none => rw [h1, h2] at h; cases h
      | some hi =>
        rw [h1, h2] at h
        cases h
        have hm := List.max?_mem h2
        rw [Reader.mem_argwhere, (Reader.roiFilter_spec c.bounds (positions file n).lats (positions file n).lons (by simp [positions])).2 hi] at hm
        obtain ⟨lat, lon, hlat, _⟩ := hm
        have := (List.getElem?_eq_some_iff.1 hlat).1
        simp [positions] at this
        dsimp only
        omega
  · cases h
    simp [positions]

theorem items_usable {c : Conf} (file : ℕ → Raw) (n : ℕ) (d : Reader.Dataset)
    (h : Reader.openDataset c.bounds (positions file n) = .ok d) :
    (itemIds (items file n d)).Pairwise (· < ·) ∧ ∀ i ∈ itemIds (items file n d), i < n ∧ Usable c file i := by
  classical
  have hp : (positions file n).lats.length = (positions file n).lons.length := by simp [positions]
  have hlat : ∀ i < n, (positions file n).lats[i]? = some (file i).lat := by intro i hi; simp [positions, hi]
  have hlon : ∀ i < n, (positions file n).lons[i]? = some (file i).lon := by intro i hi; simp [positions, hi]
  have hlen : (positions file n).lats.length = n := by simp [positions]
  have hval : ∀ i < n, (positions file n).Valid i → ¬ ((file i).lat = 0 ∧ (file i).lon = 0) := by
    intro i hi hv h0
    exact hv ⟨by rw [hlat i hi, h0.1], by rw [hlon i hi, h0.2]⟩
  rw [itemIds_items]
  have hrange : ∀ q : ℕ → Prop, ∀ _ : DecidablePred q, ((List.range n).filter (fun i => q i)).Pairwise (· < ·) := by
    intro q _
    exact List.Pairwise.filter _ List.pairwise_lt_range
  by_cases hb : Reader.roiEnabled c.bounds = true
  · obtain ⟨h1, h2⟩ := Reader.region_delivers_inside_partial c.bounds (positions file n) hp hb
    have hex : ∃ i, (positions file n).Inside c.bounds i := by
      by_contra hne
      push Not at hne
      rw [h1 hne] at h
      cases h
    have hbd : ∀ i, (positions file n).Inside c.bounds i → i ≤ n := by
      rintro i ⟨lat, lon, hl, _⟩
      have := (List.getElem?_eq_some_iff.1 hl).1
      omega
    obtain ⟨last, hl1, hl2⟩ : ∃ last, (positions file n).Inside c.bounds last ∧
        ∀ i, (positions file n).Inside c.bounds i → i ≤ last := by
      obtain ⟨i, hi⟩ := hex
      refine ⟨Nat.findGreatest (fun i => (positions file n).Inside c.bounds i) n,
        Nat.findGreatest_spec (P := fun i => (positions file n).Inside c.bounds i) (hbd i hi) hi, ?_⟩
      intro j hj
      exact Nat.le_findGreatest (hbd j hj) hj
    obtain ⟨d', hd, he⟩ := h2 last hl1 hl2
    rw [h] at hd
    cases hd
    rw [he, hlen]
    refine ⟨hrange _ _, ?_⟩
    intro i hi
    simp only [List.mem_filter, List.mem_range, decide_eq_true_eq] at hi
    obtain ⟨hi, ⟨lat, lon, g1, g2, g3⟩, hv, _⟩ := hi
    refine ⟨hi, hval i hi hv, ?_⟩
    rw [hlat i hi] at g1
    rw [hlon i hi] at g2
    cases g1; cases g2
    exact g3
  · rw [Bool.not_eq_true] at hb
    obtain ⟨d', hd, he⟩ := Reader.no_region_delivers_all c.bounds (positions file n) hp hb
    rw [h] at hd
    cases hd
    rw [he, hlen]
    refine ⟨hrange _ _, ?_⟩
    intro i hi
    simp only [List.mem_filter, List.mem_range, decide_eq_true_eq] at hi
    refine ⟨hi.1, hval i hi.1 hi.2, ?_⟩
    unfold Reader.roiEnabled at hb
    obtain ⟨a1, a2, a3, a4⟩ : c.bounds.minLat = none ∧ c.bounds.minLon = none ∧ c.bounds.maxLat = none ∧ c.bounds.maxLon = none := by
      simpa [and_assoc] using hb
    refine ⟨?_, ?_, ?_, ?_⟩ <;> intro m hm
    · rw [a1] at hm; cases hm
    · rw [a3] at hm; cases hm
    · rw [a2] at hm; cases hm
    · rw [a4] at hm; cases hm

theorem looksOf_ids (w : Beams.Surf (Pk ℝ)) (h : w.indices.length = w.bursts.length ∧ w.indicesAbs.length = w.bursts.length) :
    (looksOf w).map (·.2.2) = stackIds w := by
  unfold looksOf stackIds
  obtain ⟨n, is, as, bs⟩ := w
  dsimp only at h ⊢
  clear n
  induction bs generalizing is as with
  | nil => simp
  | cons b bs ih =>
    obtain ⟨h1, h2⟩ := h
    cases is with
    | nil => simp at h1
    | cons i is =>
      cases as with
      | nil => simp at h2
      | cons a as =>
        simp only [List.zip_cons_cons, List.zipWith_cons_cons, List.map_cons]
        rw [ih is as ⟨by simpa using h1, by simpa using h2⟩]

/-- The looks of a record are a part of the stack of its surface, not too small and not too large. -/
theorem rows_of_surface (argsort : List ℝ → List ℕ) (ha : Stack.IsArgsort argsort) (round : ℝ → ℤ) (junk : ℕ → ℂ) (c : Chain.Conf)
    (bursts : ℕ → Chain.L1A) (s : Chain.Surf) (prev : ℕ) (looks : Chain.Looks) (hw : Chain.WellMade c bursts looks) (r : Chain.Result)
    (h : Chain.surface argsort round junk c bursts s prev looks = .ok (some r)) :
    (r.gathered.rows.map (·.burst)).Sublist (looks.map (·.2.2)) ∧ c.looks / 2 ≤ r.gathered.rows.length ∧
      r.gathered.rows.length ≤ c.looks := by
  unfold Chain.surface at h
  cases h1 : Chain.entries junk c bursts looks with
  | error => rw [h1] at h; cases h
  | ok es =>
    rw [h1] at h
    dsimp only at h
    have hids : ∀ (looks : Chain.Looks) es, Chain.entries junk c bursts looks = .ok es → es.map (·.burst.id) = looks.map (·.2.2) := by
      intro looks
      induction looks with
      | nil => intro es h; cases h; rfl
      | cons l rest ih =>
        obtain ⟨i, a, id⟩ := l
        intro es h
        rw [Chain.entries] at h
        cases h1 : Chain.azimuth c (bursts id) with
        | error => rw [h1] at h; cases h
        | ok beams =>
          cases h2 : Chain.entries junk c bursts rest with
          | error => rw [h1, h2] at h; cases h
          | ok fs =>
            rw [h1, h2] at h
            cases h
            simp only [List.map_cons]
            rw [ih fs h2]
            rfl
    have hv : Stack.Valid es := by
      intro e he
      obtain ⟨l, hl, beams, hb, rfl⟩ := Chain.entries_mem junk c bursts looks es h1 e he
      obtain ⟨w1, w2⟩ := hw.2 l hl
      refine ⟨w1, ?_⟩
      have : (bursts l.2.2).angles.length ≤ c.pulses := w2.1
      simp [Chain.stackBurst]
      omega
    have hn : 1 ≤ c.looks := by
      by_contra hn
      have h0 : c.looks = 0 := by omega
      rw [h0, Stack.gather_zero_looks_fails argsort (π / 2) prev es hv] at h
      cases h
    obtain ⟨g, off, g1, g2, g3, g4, g5, _⟩ := Stack.gather_contiguous argsort ha c.looks hn (π / 2) prev es hv
    rw [g1] at h
    dsimp only at h
    split at h
    · cases h
    · rename_i hsz
      have hr : r.gathered = g := by
        split at h
        · cases h
        · split at h
          · cases h
          · split at h
            · cases h
            · cases h; rfl
      rw [hr]
      refine ⟨?_, by omega, by omega⟩
      rw [← hids looks es h1]
      have : g.rows.map (·.burst) = ((es.drop off).take g.size).map (·.burst.id) := by
        clear * - g5
        generalize g.rows = rs at g5
        generalize (es.drop off).take g.size = ts at g5 ⊢
        induction g5 with
        | nil => rfl
        | cons hx _ ih => simp only [List.map_cons, ih, hx.1]
      rw [this]
      exact ((List.take_sublist _ _).trans (List.drop_sublist _ _)).map _

/-- The state in which a record was made, with its surface and stack. -/
theorem Origin.parts {c : Conf} {o : World} {file : ℕ → Raw} {ids : List ℕ} {s : State} {rec : Record}
    (h : Origin c o file ids s rec) (hp : 0 < c.pulses) :
    ∃ looks f, Chain.surfaceAw c.weighting c.pattern o.argsort o.round o.junk c.chain s.mem (place f) s.closest looks = .ok (some rec.result) ∧
      rec.loc = f.loc ∧ sigma0 c file s.mem f rec.result = some rec.sigma0 ∧
      Chain.WellMade c.chain s.mem looks ∧ (looks.map (·.2.2)).Sublist ids ∧
      ∀ l ∈ looks, ∃ k, 1 ≤ k ∧ k ≤ 2 ∧ body (s.mem l.2.2) = base c file k l.2.2 := by
  obtain ⟨hm, hi, hk, w, rest, f, fs, r, g, e1, e2, e3, e4, rfl⟩ := h
  have hw : w ∈ s.ctl.surfaces := by rw [e1]; simp
  refine ⟨looksOf w, f, e3, rfl, e4, ⟨hp, fun l hl => hm.looks w hw l hl⟩, ?_, ?_⟩
  · rw [looksOf_ids w (hi.lists w hw)]
    exact (hk w hw).1
  · intro l hl
    obtain ⟨k1, k2, k3⟩ := (hk w hw).2 _ (mem_looksOf hl)
    exact ⟨_, k2, k3, hm.bodies _ k1⟩

/-- What `run_whole` says of `process`. -/
theorem process_products (c : Conf) (o : World) (alg : Surface.Alg) (file : ℕ → Raw) (n : ℕ) :
    ∃ its : List (Item ℝ), its.length ≤ n ∧ (itemIds its).Pairwise (· < ·) ∧ (∀ i ∈ itemIds its, i < n ∧ Usable c file i) ∧
      Products c o file (itemIds its) (process c o alg file n).state ∧
      (∀ s, process c o alg file n = .finished s → o.skipL1bs = false → s.l1bs = s.l1b) ∧
      ((∃ e, process c o alg file n = .failed e (start alg [])) ∨
        SameEnd (process c o alg file n) (Process.process (runEnv c o file (start alg its)) its)) := by
  unfold process
  cases h : Reader.openDataset c.bounds (positions file n) with
  | error e =>
    refine ⟨[], by simp, by simp [itemIds], by simp [itemIds], ⟨⟨rfl, rfl⟩, ?_, List.prefix_refl _, fun _ => rfl⟩, ?_,
      Or.inl ⟨e, rfl⟩⟩
    · intro rec hrec; simp [Outcome.state, start] at hrec
    · intro s hs; cases hs
  | ok d =>
    obtain ⟨h1, h2⟩ := items_usable file n d h
    refine ⟨items file n d, items_length file n d h, h1, h2, ?_, ?_, Or.inr (run_same c o file alg _)⟩
    · have := run_whole (c := c) (o := o) (file := file) (its := items file n d) alg (h1.imp (fun h => Nat.ne_of_lt h))
      revert this
      dsimp only
      cases run c o file (3 * (items file n d).length + 2) (start alg (items file n d)) with
      | finished s => exact And.left
      | failed e s => exact id
      | nan s => exact id
      | timeout s => exact id
    · intro s hs hsk
      have := run_whole (c := c) (o := o) (file := file) (its := items file n d) alg (h1.imp (fun h => Nat.ne_of_lt h))
      dsimp only at hs
      rw [hs] at this
      exact this.2 hsk

/-! ## C141 -/

/-- **C141, termination.**  Processing ends for every file, configuration and moment of cancellation; there are at most three
iterations for a record of the file and two more. -/
theorem whole_terminates (c : Conf) (o : World) (alg : Surface.Alg) (file : ℕ → Raw) (n : ℕ) :
    (∀ s, process c o alg file n ≠ .timeout s) ∧
    iterations (process c o alg file n).state.ctl.trace ≤ 3 * n + 2 := by
  obtain ⟨its, h1, _, _, _, _, ⟨e, h⟩ | h⟩ := process_products c o alg file n
  · rw [h]
    exact ⟨fun s hs => (by cases hs), by simp [Outcome.state, start, Process.start, iterations]⟩
  · constructor
    · intro s hs
      rw [hs] at h
      exact process_terminates (runEnv c o file (start alg its)) [] [] its s.ctl h
    · rw [← same_trace h]
      have := iterations_bounded (runEnv c o file (start alg its)) [] [] its
      simp only [List.length_nil] at this
      exact this.trans (by omega)

/-- **C141.**  The records of the L1B product are numbered in rising order, so that no surface is written twice.  The L1B-S product
has the same records, from the first one on: all of them if the call ends normally, at least all but the last in any case; or none if
it is not wanted. -/
theorem products_agree (c : Conf) (o : World) (alg : Surface.Alg) (file : ℕ → Raw) (n : ℕ) :
    let s := (process c o alg file n).state
    (s.l1b.map Record.counter).Pairwise (· < ·) ∧ s.l1bs <+: s.l1b ∧
    (o.skipL1bs = true → s.l1bs = []) ∧
    (o.skipL1bs = false → s.l1b.length ≤ s.l1bs.length + 1) ∧
    (o.skipL1bs = false → process c o alg file n = .finished s → s.l1bs = s.l1b) := by
  intro s
  obtain ⟨its, h1, h2, h3, hp, hf, hs⟩ := process_products c o alg file n
  obtain ⟨t1, t2⟩ := hp.traced
  rcases hs with ⟨e, h⟩ | h
  · have : s = start alg [] := by show (process c o alg file n).state = _; rw [h]; rfl
    rw [this]
    exact ⟨by simp [start], List.prefix_refl _, fun _ => rfl, fun _ => by simp [start], fun _ _ => rfl⟩
  · have htr := same_trace h
    refine ⟨?_, hp.second, hp.skipped, ?_, fun hk hfin => hf s hfin hk⟩
    · rw [t1, ← htr]
      obtain ⟨w1, w2, _⟩ := written_in_order (runEnv c o file (start alg its)) [] (by simp) its
      refine List.Pairwise.sublist w1 ?_
      rw [w2]
      exact List.pairwise_lt_range
    · intro hk
      have e1 : s.l1b.length = (l1bOf (Process.process (runEnv c o file (start alg its)) its).trace).length := by
        rw [htr, ← t1, List.length_map]
      have e2 : s.l1bs.length = (l1bsOf (Process.process (runEnv c o file (start alg its)) its).trace).length := by
        rw [htr, ← t2, List.length_map]
      rw [e1, e2]
      cases hq : Process.process (runEnv c o file (start alg its)) its with
      | finished t =>
        have := both_files (runEnv c o file (start alg its)) [] (by simp) its t hq
        rw [if_neg (by show ¬ o.skipL1bs = true; simp [hk])] at this
        show (l1bOf t.trace).length ≤ (l1bsOf t.trace).length + 1
        rw [this]; omega
      | failed e t =>
        show (l1bOf t.trace).length ≤ (l1bsOf t.trace).length + 1
        rcases both_files_failed (runEnv c o file (start alg its)) [] (by simp) its e t hq hk with g | ⟨m, g⟩ <;> rw [g] <;> simp
      | timeout t => exact absurd hq (process_terminates _ [] [] its t)

/-! ## C142 -/

/-- **C142.**  Every record of either product is made of records of the L1A file which have a position inside the region of interest,
in the order of the file and each at most once; there are at least half as many as the number of looks configured, and not more than that. -/
theorem record_sources (c : Conf) (o : World) (ha : Stack.IsArgsort o.argsort) (alg : Surface.Alg) (file : ℕ → Raw) (n : ℕ)
    (hn : 0 < c.pulses) (rec : Record)
    (hr : rec ∈ (process c o alg file n).state.l1b ∨ rec ∈ (process c o alg file n).state.l1bs) :
    rec.bursts.Pairwise (· < ·) ∧ (∀ i ∈ rec.bursts, i < n ∧ Usable c file i) ∧
      c.looks / 2 ≤ rec.bursts.length ∧ rec.bursts.length ≤ c.looks := by
  obtain ⟨its, h1, h2, h3, hp, _, _⟩ := process_products c o alg file n
  obtain ⟨s2, ho⟩ := hp.origin rec hr
  obtain ⟨looks, f, e1, _, _, e2, e3, _⟩ := ho.parts hn
  obtain ⟨r, e1, e0⟩ := Chain.surfaceAw_ok_some e1
  obtain ⟨q1, q2, q3⟩ := rows_of_surface o.argsort ha o.round o.junk c.chain s2.mem (place f) s2.closest looks e2 r e1
  have hg : rec.result.gathered = r.gathered := by rw [e0]
  rw [← hg] at q1 q2 q3
  have hsub : rec.bursts.Sublist (itemIds its) := q1.trans e3
  refine ⟨h2.sublist hsub, fun i hi => h3 i (hsub.subset hi), ?_, ?_⟩
  · unfold Record.bursts
    rw [List.length_map]
    exact q2
  · unfold Record.bursts
    rw [List.length_map]
    exact q3

/-! ## C143 -/

/-- The bursts of a record are no stronger than the strongest of the file. -/
theorem Origin.bounded {c : Conf} {o : World} {file : ℕ → Raw} {n : ℕ} {ids : List ℕ} {s : State} {rec : Record}
    (h : Origin c o file ids s rec) (hp : 0 < c.pulses) (hi : ∀ i ∈ ids, i < n) (E : ℝ) (hE : EnergyBound c file n E) :
    ∃ looks f, Chain.surfaceAw c.weighting c.pattern o.argsort o.round o.junk c.chain s.mem (place f) s.closest looks = .ok (some rec.result) ∧
      Chain.WellMade c.chain s.mem looks ∧ ∀ l ∈ looks, Chain.energy c.chain (s.mem l.2.2) ≤ E := by
  obtain ⟨looks, f, e1, _, _, e2, e3, e4⟩ := h.parts hp
  refine ⟨looks, f, e1, e2, ?_⟩
  intro l hl
  obtain ⟨k, k1, k2, k3⟩ := e4 l hl
  have hi := hi _ (e3.subset (List.mem_map_of_mem hl))
  have he : Chain.energy c.chain (s.mem l.2.2) = Chain.energy c.chain (base c file k l.2.2) := by rw [← k3]; rfl
  rw [he]
  have : k = 1 ∨ k = 2 := by omega
  rcases this with rfl | rfl
  · exact (hE _ hi).1
  · exact (hE _ hi).2

/-- **C143.**  With antenna weighting off no sample of a waveform in either product is negative, and none is larger than the energy of
the strongest burst of the file, over the padding factor. -/
theorem waveforms_bounded (c : Conf) (o : World) (alg : Surface.Alg) (file : ℕ → Raw) (n : ℕ) (hn : 0 < c.pulses)
    (hoff : c.weighting = false) (E : ℝ) (hE0 : 0 ≤ E)
    (hE : EnergyBound c file n E) (rec : Record)
    (hr : rec ∈ (process c o alg file n).state.l1b ∨ rec ∈ (process c o alg file n).state.l1bs)
    (k : ℕ) (y : ℝ) (hy : rec.result.out.waveform[k]? = some (some y)) : 0 ≤ y ∧ y ≤ E / c.zp := by
  obtain ⟨its, h1, h2, h3, hp, _, _⟩ := process_products c o alg file n
  obtain ⟨s2, ho⟩ := hp.origin rec hr
  obtain ⟨looks, f, e1, e2, hE'⟩ := ho.bounded hn (fun i hi => (h3 i hi).1) E hE
  rw [hoff, Chain.weighting_off] at e1
  exact Chain.waveform_between o.argsort o.round o.junk c.chain s2.mem (place f) s2.closest looks e2 rec.result e1 E hE0 hE' k y hy

/-- **C150, products (`_partial`: looks outside the angles of the pattern, or equal weights).**  With antenna weighting on and weights
between 0 and `W`, no sample of a waveform in either product is negative, and none is larger than `W` times the bound of C143. -/
theorem weighted_waveforms_bounded_partial (c : Conf) (o : World) (alg : Surface.Alg) (file : ℕ → Raw) (n : ℕ) (hn : 0 < c.pulses)
    (hon : c.weighting = true) (first spacing W : ℝ) (weights : List ℝ) (hp : Chain.Complete c.pattern first spacing weights)
    (hW : ∀ w ∈ weights, 0 ≤ w ∧ w ≤ W) (E : ℝ) (hE0 : 0 ≤ E) (hE : EnergyBound c file n E) (rec : Record)
    (hr : rec ∈ (process c o alg file n).state.l1b ∨ rec ∈ (process c o alg file n).state.l1bs)
    (hout : (∀ row ∈ rec.result.gathered.rows, row.pointing ≤ first ∨ first + spacing * 249 ≤ row.pointing) ∨
      ∃ w, weights = List.replicate 250 w)
    (k : ℕ) (y : ℝ) (hy : rec.result.out.waveform[k]? = some (some y)) : 0 ≤ y ∧ y ≤ W * (E / c.zp) := by
  obtain ⟨its, h1, h2, h3, hpr, _, _⟩ := process_products c o alg file n
  obtain ⟨s2, ho⟩ := hpr.origin rec hr
  obtain ⟨looks, f, e1, e2, hE'⟩ := ho.bounded hn (fun i hi => (h3 i hi).1) E hE
  rw [hon] at e1
  exact Chain.weighted_power_partial c.pattern first spacing W weights hp hW o.argsort o.round o.junk c.chain s2.mem (place f)
    s2.closest looks e2 rec.result e1 hout E hE0 hE' k y hy

end Dedop.Whole
