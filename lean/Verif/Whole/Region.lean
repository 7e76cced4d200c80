import Verif.Whole.Renumber
import Verif.Whole.Moved

/-!
# C153: what is outside the region of interest has no influence

With a region of interest set in the configuration, processing a file gives the same products whatever its records outside the
region are, and wherever in the file its records inside the region are; only the numbers of the bursts, which count the records
from the start of the file, change with the place.
-/
namespace Dedop.Whole

open Real Process

/-! ## Specification -/

/-- Record `i` of a file of `n` records is in the region. -/
def Inside (b : Reader.Bounds ℝ) (file : ℕ → Raw) (n i : ℕ) : Prop := i < n ∧ Reader.InRegion b (file i).lat (file i).lon

/-- Two runs end in the same way (finished, or the same exception), after the same actions; the products of the second are those of
the first with the numbers of the bursts larger by `a`. -/
def SameRenumbered (a : ℕ) (x y : Outcome) : Prop :=
  SameKind (fun s t => t.l1b = s.l1b.map (moveRecord a) ∧ t.l1bs = s.l1bs.map (moveRecord a) ∧ t.ctl.trace = s.ctl.trace.map (moveEvent a)) x y

/-- A record of a product but for the numbers of bursts: number and location of the surface, waveform, factors. -/
theorem moveRecord_same (a : ℕ) (r : Record) : (moveRecord a r).counter = r.counter ∧ (moveRecord a r).loc = r.loc ∧
    (moveRecord a r).sigma0 = r.sigma0 ∧ (moveRecord a r).result.out.waveform = r.result.out.waveform ∧
    (moveRecord a r).result.masked = r.result.masked ∧ (moveRecord a r).result.gathered.rows.map (·.burst) =
      r.result.gathered.rows.map (fun row => row.burst + a) := by
  refine ⟨rfl, rfl, rfl, rfl, rfl, ?_⟩
  show (r.result.gathered.rows.map (Chain.moveRow a)).map _ = _
  rw [List.map_map]
  rfl

/-! ## Lemmas -/

/-- What the file gives for a record: itself, or nothing if it is not to be used. -/
noncomputable def itemAt (file : ℕ → Raw) (use : ℕ → Prop) (i : ℕ) : Item ℝ :=
  open Classical in
  if use i ∧ ¬ ((file i).lat = 0 ∧ (file i).lon = 0) then .record ⟨i, (file i).time⟩ else .invalid

theorem items_eq (file : ℕ → Raw) (n : ℕ) (d : Reader.Dataset) (hd : d.final ≤ n) (use : ℕ → Prop)
    (hu : ∀ i < n, Reader.checkRoi d i = true ↔ use i) :
    items file n d = (List.range' d.start (d.final - d.start)).map (itemAt file use) := by
  unfold items Reader.iterate
  rw [List.map_map]
  refine List.map_congr_left (fun i hi => ?_)
  have hi' : i < n := by
    rw [List.mem_range'_1] at hi
    omega
  dsimp only [Function.comp]
  have : (Reader.checkRoi d i && Reader.isValid (positions file n) i) = true ↔ (use i ∧ ¬ ((file i).lat = 0 ∧ (file i).lon = 0)) := by
    rw [Bool.and_eq_true, valid_spec file n i hi', hu i hi']
  unfold itemAt
  by_cases h : use i ∧ ¬ ((file i).lat = 0 ∧ (file i).lon = 0)
  · rw [if_pos h, this.2 h]; rfl
  · rw [if_neg h, Bool.eq_false_iff.2 (fun h' => h (this.1 h'))]; rfl

theorem inside_iff (b : Reader.Bounds ℝ) (file : ℕ → Raw) (n i : ℕ) : Reader.Product.Inside b (positions file n) i ↔ Inside b file n i := by
  unfold Reader.Product.Inside positions Inside
  by_cases hi : i < n
  · simp [hi]
  · simp [hi]

theorem open_none (b : Reader.Bounds ℝ) (hb : Reader.roiEnabled b = true) (file : ℕ → Raw) (n : ℕ) (h : ∀ i, ¬ Inside b file n i) :
    Reader.openDataset b (positions file n) = .error .valueError :=
  (Reader.region_delivers_inside_partial b (positions file n) (by simp [positions]) hb).1 (fun i hi => h i ((inside_iff _ _ _ _).1 hi))

theorem open_some (b : Reader.Bounds ℝ) (hb : Reader.roiEnabled b = true) (file : ℕ → Raw) (n lo hi : ℕ) (h1 : Inside b file n lo)
    (h2 : Inside b file n hi) (h3 : ∀ i, Inside b file n i → lo ≤ i ∧ i ≤ hi) :
    ∃ d, Reader.openDataset b (positions file n) = .ok d ∧
      items file n d = (List.range' lo (hi - lo)).map (itemAt file (Inside b file n)) := by
  obtain ⟨_, hspec⟩ := Reader.roiFilter_spec b (positions file n).lats (positions file n).lons (by simp [positions])
  have hs : ∀ i, (Reader.roiFilter b (positions file n).lats (positions file n).lons).getD i false = true ↔ Inside b file n i :=
    fun i => (hspec i).trans (inside_iff _ _ _ _)
  have hmem : ∀ i, i ∈ Reader.argwhere (Reader.roiFilter b (positions file n).lats (positions file n).lons) ↔ Inside b file n i :=
    fun i => (Reader.mem_argwhere _ i).trans (hs i)
  have hmin : (Reader.argwhere (Reader.roiFilter b (positions file n).lats (positions file n).lons)).min? = some lo :=
    List.min?_eq_some_iff.2 ⟨(hmem lo).2 h1, fun i hi => (h3 i ((hmem i).1 hi)).1⟩
  have hmax : (Reader.argwhere (Reader.roiFilter b (positions file n).lats (positions file n).lons)).max? = some hi :=
    List.max?_eq_some_iff.2 ⟨(hmem hi).2 h2, fun i hi => (h3 i ((hmem i).1 hi)).2⟩
  refine ⟨⟨some (Reader.roiFilter b (positions file n).lats (positions file n).lons), lo, hi, lo⟩, ?_, ?_⟩
  · unfold Reader.openDataset
    rw [if_pos hb]
    simp only [hmin, hmax]
  · exact items_eq file n _ (Nat.le_of_lt h2.1) _ (fun i _ => hs i)

theorem bounds_exist (P : ℕ → Prop) (n : ℕ) (hn : ∀ i, P i → i < n) (h : ∃ i, P i) : ∃ lo hi, P lo ∧ P hi ∧ ∀ i, P i → lo ≤ i ∧ i ≤ hi := by
  classical
  refine ⟨Nat.find h, Nat.findGreatest P n, Nat.find_spec h, ?_, ?_⟩
  · obtain ⟨i, hi⟩ := h
    exact Nat.findGreatest_spec (Nat.le_of_lt (hn i hi)) hi
  · intro i hi
    exact ⟨Nat.find_min' h hi, Nat.le_findGreatest (Nat.le_of_lt (hn i hi)) hi⟩

theorem shift_items (a : ℕ) (file1 file2 : ℕ → Raw) (use1 use2 : ℕ → Prop) (lo k : ℕ)
    (hu : ∀ i, lo ≤ i → i < lo + k → (use2 (i + a) ↔ use1 i)) (hf : ∀ i, lo ≤ i → i < lo + k → use1 i → file2 (i + a) = file1 i) :
    (List.range' (lo + a) k).map (itemAt file2 use2) = ((List.range' lo k).map (itemAt file1 use1)).map (moveItem a) := by
  rw [show List.range' (lo + a) k = (List.range' lo k).map (· + a) by
    rw [Nat.add_comm lo a, ← List.map_add_range']
    exact List.map_congr_left (fun i _ => Nat.add_comm a i), List.map_map, List.map_map]
  refine List.map_congr_left (fun i hi => ?_)
  rw [List.mem_range'_1] at hi
  dsimp only [Function.comp]
  unfold itemAt
  by_cases h : use1 i
  · rw [hf i hi.1 hi.2 h]
    by_cases hv : (file1 i).lat = 0 ∧ (file1 i).lon = 0
    · rw [if_neg (fun x => x.2 hv), if_neg (fun x => x.2 hv)]; rfl
    · rw [if_pos ⟨(hu i hi.1 hi.2).2 h, hv⟩, if_pos ⟨h, hv⟩]; rfl
  · rw [if_neg (fun x => h ((hu i hi.1 hi.2).1 x.1)), if_neg (fun x => h x.1)]; rfl

theorem mem_items {file : ℕ → Raw} {use : ℕ → Prop} {l : List ℕ} {p : Pk ℝ} (h : .record p ∈ l.map (itemAt file use)) :
    use p.counter ∧ p.counter ∈ l := by
  obtain ⟨i, hi, h⟩ := List.mem_map.1 h
  unfold itemAt at h
  split at h
  · next hu =>
    cases h
    exact ⟨hu.1, hi⟩
  · cases h

theorem Shifted.renumbered {a : ℕ} {G : ℕ → Prop} {x y : Outcome} (h : SameKind (Shifted a G) x y) : SameRenumbered a x y := by
  cases h with
  | finished h => exact .finished ⟨h.l1b, h.l1bs, by rw [h.ctl]; rfl⟩
  | failed h => exact .failed ⟨h.l1b, h.l1bs, by rw [h.ctl]; rfl⟩
  | nan h => exact .nan ⟨h.l1b, h.l1bs, by rw [h.ctl]; rfl⟩
  | timeout h => exact .timeout ⟨h.l1b, h.l1bs, by rw [h.ctl]; rfl⟩

/-! ## The property -/

/-- **C153, general form.**  Two files such that the records in the region of the second are those of the first, `a` places further
on: the runs end in the same way and the products are the same but for the numbers of the bursts.  The records outside the region,
and how many there are, do not matter. -/
theorem region_only (c : Conf) (o : World) (ho : o.Steady) (alg : Surface.Alg) (hb : Reader.roiEnabled c.bounds = true) (a : ℕ)
    (file1 file2 : ℕ → Raw) (n1 n2 : ℕ) (h : ∀ i, Inside c.bounds file2 n2 i ↔ ∃ j, i = j + a ∧ Inside c.bounds file1 n1 j)
    (hf : ∀ j, Inside c.bounds file1 n1 j → file2 (j + a) = file1 j) :
    SameRenumbered a (process c o alg file1 n1) (process c o alg file2 n2) := by
  have hA : SameFiles a (Inside c.bounds file1 n1) c c file1 file2 := ⟨rfl, hf⟩
  have h' : ∀ j, Inside c.bounds file2 n2 (j + a) ↔ Inside c.bounds file1 n1 j := by
    intro j
    rw [h]
    constructor
    · rintro ⟨k, hk, hj⟩
      rw [show j = k by omega]
      exact hj
    · intro hj
      exact ⟨j, rfl, hj⟩
  unfold process
  by_cases hex : ∃ i, Inside c.bounds file1 n1 i
  · obtain ⟨lo, hi, h1, h2, h3⟩ := bounds_exist _ n1 (fun i hi => hi.1) hex
    obtain ⟨d1, e1, i1⟩ := open_some c.bounds hb file1 n1 lo hi h1 h2 h3
    obtain ⟨d2, e2, i2⟩ := open_some c.bounds hb file2 n2 (lo + a) (hi + a) ((h' lo).2 h1) ((h' hi).2 h2) (by
      intro i hi'
      obtain ⟨j, rfl, hj⟩ := (h i).1 hi'
      have := h3 j hj
      omega)
    rw [e1, e2]
    dsimp only
    rw [show hi + a - (lo + a) = hi - lo by omega, shift_items a file1 file2 (Inside c.bounds file1 n1) (Inside c.bounds file2 n2) lo
      (hi - lo) (fun i _ _ => h' i) (fun i _ _ => hf i), ← i1] at i2
    rw [i2, List.length_map]
    refine Shifted.renumbered (run_shift hA ho _ _ _ (start_shift alg _ ?_))
    intro p hp
    rw [i1] at hp
    exact (mem_items hp).1
  · rw [open_none c.bounds hb file1 n1 (fun i hi => hex ⟨i, hi⟩), open_none c.bounds hb file2 n2 (fun i hi => by
      obtain ⟨j, _, hj⟩ := (h i).1 hi
      exact hex ⟨j, hj⟩)]
    exact .failed ⟨rfl, rfl, rfl⟩

theorem moveRecord_zero (r : Record) : moveRecord 0 r = r := by
  obtain ⟨n, loc, res, g⟩ := r
  obtain ⟨⟨size, rows, cl, rmc⟩, sh, m, out⟩ := res
  unfold moveRecord Chain.moveResult Chain.moveGathered Chain.moveOut
  have : rows.map (Chain.moveRow 0) = rows := by
    rw [show (Chain.moveRow 0 : Stack.Row ℝ (ℕ → ℂ) → _) = id from by funext r; cases r; simp [Chain.moveRow], List.map_id]
  simp only [this, Nat.cast_zero, add_zero, ite_self]

theorem moveEvent_zero (e : Event) : moveEvent 0 e = e := by
  cases e <;> simp [moveEvent]

/-- **C153.**  Two files with the same records in the region, at the same places: whatever the other records are, and whatever
follows, processing ends in the same way with the same actions, and the products are the same. -/
theorem outside_irrelevant (c : Conf) (o : World) (ho : o.Steady) (alg : Surface.Alg) (hb : Reader.roiEnabled c.bounds = true)
    (file1 file2 : ℕ → Raw) (n1 n2 : ℕ) (h : ∀ i, Inside c.bounds file2 n2 i ↔ Inside c.bounds file1 n1 i)
    (hf : ∀ i, Inside c.bounds file1 n1 i → file2 i = file1 i) :
    SameKind (fun s t => t.l1b = s.l1b ∧ t.l1bs = s.l1bs ∧ t.ctl.trace = s.ctl.trace) (process c o alg file1 n1)
      (process c o alg file2 n2) := by
  have q := region_only c o ho alg hb 0 file1 file2 n1 n2 (by simpa using h) (by simpa using hf)
  have hr : (moveRecord 0 : Record → Record) = id := funext moveRecord_zero
  have he : (moveEvent 0 : Event → Event) = id := funext moveEvent_zero
  unfold SameRenumbered at q
  simp only [hr, he, List.map_id] at q
  exact q

/-- **C153, the part of the file.**  If the records in the region are those from `lo` to `hi`, the products are those of the file cut
down to the records from `lo` to the one before `hi`, processed without a region, but for the numbers of the bursts.  (Record `hi`,
the last one in the region, is lost: `last_record_in_region_lost_violated` of C25.) -/
theorem region_is_cut (c : Conf) (o : World) (ho : o.Steady) (alg : Surface.Alg) (hb : Reader.roiEnabled c.bounds = true)
    (file : ℕ → Raw) (n lo hi : ℕ) (hlh : lo ≤ hi) (h : ∀ i, Inside c.bounds file n i ↔ lo ≤ i ∧ i ≤ hi) :
    SameRenumbered lo (process { c with bounds := ⟨none, none, none, none⟩ } o alg (fun i => file (i + lo)) (hi - lo))
      (process c o alg file n) := by
  have hA : SameFiles lo (fun _ => True) { c with bounds := ⟨none, none, none, none⟩ } c (fun i => file (i + lo)) file :=
    ⟨rfl, fun _ _ => rfl⟩
  obtain ⟨d2, e2, i2⟩ := open_some c.bounds hb file n lo hi ((h lo).2 ⟨le_refl _, hlh⟩) ((h hi).2 ⟨hlh, le_refl _⟩)
    (fun i hi' => (h i).1 hi')
  unfold process
  rw [e2]
  have e1 : Reader.openDataset (⟨none, none, none, none⟩ : Reader.Bounds ℝ) (positions (fun i => file (i + lo)) (hi - lo)) =
      .ok ⟨none, 0, hi - lo, 0⟩ := by
    unfold Reader.openDataset
    rw [if_neg (by simp [Reader.roiEnabled])]
    simp [positions]
  have i1 := items_eq (fun i => file (i + lo)) (hi - lo) ⟨none, 0, hi - lo, 0⟩ (le_refl _) (fun _ => True) (by
    intro i _
    simp [Reader.checkRoi])
  have q := shift_items lo (fun i => file (i + lo)) file (fun _ => True) (Inside c.bounds file n) 0 (hi - lo) (by
    intro i _ hi'
    rw [h]
    simp
    omega) (fun i _ _ _ => rfl)
  rw [Nat.zero_add] at q
  rw [q] at i2
  dsimp only at i1 ⊢
  rw [Nat.sub_zero] at i1
  rw [e1]
  dsimp only
  rw [← i1] at i2
  rw [i2, List.length_map]
  exact Shifted.renumbered (run_shift hA ho _ _ _ (start_shift alg _ (fun _ _ => trivial)))

/-! ## A file with records outside the region -/

/-- The demonstration configuration with a region: longitudes from 80 on. -/
noncomputable def roiConf : Conf := { demoConf with bounds := ⟨none, none, some 80, none⟩ }

/-- The demonstration file behind a record at longitude 10. -/
noncomputable def roiFile (i : ℕ) : Raw := if i = 0 then { demoFile 0 with lon := 10 } else demoFile (i - 1)

theorem roi_inside (i : ℕ) : Inside roiConf.bounds roiFile 4 i ↔ 1 ≤ i ∧ i ≤ 3 := by
  unfold Inside Reader.InRegion roiConf roiFile
  by_cases h : i = 0
  · subst h
    simp
    norm_num
  · simp [h, demoFile]
    constructor
    · rintro ⟨h1, _⟩; omega
    · intro h1
      exact ⟨by omega, by norm_num⟩

/-- The products of this file are those of the demonstration file: one record, made of the burst with number 1. -/
example (alg : Surface.Alg) : ∃ s r, process roiConf (demoWorld realArg) alg roiFile 4 = .finished s ∧ s.l1b = [r] ∧
    r.loc = (demoSurf alg).loc ∧ r.bursts = [1] ∧ r.result.out.waveform[8]? = some (some 8) := by
  have q := region_is_cut roiConf (demoWorld realArg) ⟨fun _ => none, fun _ => none, fun _ => ⟨rfl, rfl⟩⟩ alg rfl roiFile 4 1 3 (by omega)
    roi_inside
  obtain ⟨s, r, h1, h2, _, _, h5, h6, h7⟩ := demo_run realArg realArg_isArgsort alg
  have e : process { roiConf with bounds := ⟨none, none, none, none⟩ } (demoWorld realArg) alg (fun i => roiFile (i + 1)) (3 - 1) =
      process demoConf (demoWorld realArg) alg demoFile 2 := by
    have : (fun i => roiFile (i + 1)) = demoFile := by funext i; simp [roiFile]
    rw [this]
    rfl
  rw [e, h1] at q
  cases h : process roiConf (demoWorld realArg) alg roiFile 4 with
  | finished t =>
    rw [h] at q
    cases q with
    | finished q =>
      refine ⟨t, moveRecord 1 r, rfl, ?_, h5, ?_, h7⟩
      · rw [q.1, h2]; rfl
      · show (r.result.gathered.rows.map (Chain.moveRow 1)).map _ = _
        rw [List.map_map]
        show r.result.gathered.rows.map (fun row => row.burst + 1) = [1]
        have h6' : r.result.gathered.rows.map (·.burst) = [0] := h6
        have := congrArg (List.map (· + 1)) h6'
        rw [List.map_map] at this
        exact this
  | failed e t => rw [h] at q; cases q
  | nan t => rw [h] at q; cases q
  | timeout t => rw [h] at q; cases q

/-- Another file with the same records in the region: the first record is elsewhere, and there is one more. -/
example (alg : Surface.Alg) : SameKind (fun s t => t.l1b = s.l1b ∧ t.l1bs = s.l1bs ∧ t.ctl.trace = s.ctl.trace)
    (process roiConf (demoWorld realArg) alg roiFile 4)
    (process roiConf (demoWorld realArg) alg
      (fun i => if i = 0 ∨ i = 4 then { demoFile 7 with lon := 3, alt := 9, i := fun _ _ => 5 } else roiFile i) 5) := by
  refine outside_irrelevant roiConf (demoWorld realArg) ⟨fun _ => none, fun _ => none, fun _ => ⟨rfl, rfl⟩⟩ alg rfl _ _ 4 5 ?_ ?_
  · intro i
    rw [roi_inside]
    unfold Inside Reader.InRegion roiConf roiFile
    by_cases h : i = 0 ∨ i = 4
    · simp [h]
      norm_num
      omega
    · have h0 : i ≠ 0 := fun x => h (Or.inl x)
      have h4 : i ≠ 4 := fun x => h (Or.inr x)
      simp [h0, h4, demoFile]
      norm_num
      omega
  · intro i hi
    rw [roi_inside] at hi
    rw [if_neg (by omega)]

end Dedop.Whole
