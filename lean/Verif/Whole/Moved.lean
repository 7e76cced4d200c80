import Verif.Whole.Echo
import Verif.Surface.Hemisphere

/-!
# The choice of the prime meridian and the two hemispheres for whole products (C126, C127)
-/
namespace Dedop.Whole

open Real Process

/-! ## Specification -/

/-- All surfaces that are in the queue at any time of the run have the property. -/
def AllSurfaces (P : Surface.Surf → Prop) (c : Conf) (o : World) (alg : Surface.Alg) (file : ℕ → Raw) (n : ℕ) : Prop :=
  ∀ d, Reader.openDataset c.bounds (positions file n) = .ok d → RunOk P c o file (start alg (items file n d))

/-- The same record at a place which is related by `L`: same number, same waveform, stack and angles, same sigma0 factors. -/
def SameRecord (L : Surface.Loc → Surface.Loc → Prop) (r1 r2 : Record) : Prop :=
  r2 = { r1 with loc := r2.loc } ∧ L r1.loc r2.loc

/-- The record of the input as described with a meridian `t` degrees further west. -/
noncomputable def Raw.turned (t : ℝ) (r : Raw) : Raw := { r with lon := r.lon + t, vel := Surface.rot (radians t) r.vel }

/-- The record of the input on the other hemisphere. -/
noncomputable def Raw.mirrored (r : Raw) : Raw := { r with lat := -r.lat, vel := Surface.mir r.vel }

/-- The configuration on the other hemisphere: target and region. -/
noncomputable def Conf.mirrored (c : Conf) : Conf :=
  { c with
    latT := -c.latT
    bounds := ⟨c.bounds.maxLat.map (- ·), c.bounds.minLat.map (- ·), c.bounds.minLon, c.bounds.maxLon⟩ }

/-! ## Lemmas -/

theorem filter_same (b1 b2 : Reader.Bounds ℝ) (file1 file2 : ℕ → Raw) (n : ℕ)
    (h : ∀ i < n, Reader.InRegion b2 (file2 i).lat (file2 i).lon ↔ Reader.InRegion b1 (file1 i).lat (file1 i).lon) :
    Reader.roiFilter b2 (positions file2 n).lats (positions file2 n).lons =
      Reader.roiFilter b1 (positions file1 n).lats (positions file1 n).lons := by
  obtain ⟨l1, s1⟩ := Reader.roiFilter_spec b1 (positions file1 n).lats (positions file1 n).lons (by simp [positions])
  obtain ⟨l2, s2⟩ := Reader.roiFilter_spec b2 (positions file2 n).lats (positions file2 n).lons (by simp [positions])
  have e1 : (positions file1 n).lats.length = n := by simp [positions]
  have e2 : (positions file2 n).lats.length = n := by simp [positions]
  refine List.ext_getElem (by rw [l1, l2, e1, e2]) ?_
  intro i hi1 hi2
  have hi : i < n := by rw [l1, e1] at hi2; exact hi2
  have q1 := s1 i
  have q2 := s2 i
  rw [List.getD_eq_getElem?_getD, List.getElem?_eq_getElem hi2, Option.getD_some] at q1
  rw [List.getD_eq_getElem?_getD, List.getElem?_eq_getElem hi1, Option.getD_some] at q2
  have key : ∀ (b : Reader.Bounds ℝ) (file : ℕ → Raw), Reader.Product.Inside b (positions file n) i ↔
      Reader.InRegion b (file i).lat (file i).lon := by
    intro b file
    unfold Reader.Product.Inside positions
    simp [hi]
  have q1 : _ ↔ Reader.Product.Inside b1 (positions file1 n) i := q1
  have q2 : _ ↔ Reader.Product.Inside b2 (positions file2 n) i := q2
  rw [key] at q1 q2
  rw [Bool.eq_iff_iff, q1, q2, h i hi]

theorem valid_spec (file : ℕ → Raw) (n i : ℕ) (hi : i < n) :
    Reader.isValid (positions file n) i = true ↔ ¬ ((file i).lat = 0 ∧ (file i).lon = 0) := by
  unfold Reader.isValid positions
  simp [hi]
  tauto

theorem items_same (file1 file2 : ℕ → Raw) (n : ℕ) (d : Reader.Dataset) (hd : d.final ≤ n) (ht : ∀ i, (file2 i).time = (file1 i).time)
    (hv : ∀ i < n, Reader.checkRoi d i = true → (((file2 i).lat = 0 ∧ (file2 i).lon = 0) ↔ ((file1 i).lat = 0 ∧ (file1 i).lon = 0))) :
    items file2 n d = items file1 n d := by
  unfold items Reader.iterate
  rw [List.map_map, List.map_map]
  refine List.map_congr_left (fun i hi => ?_)
  have hi' : i < n := by
    rw [List.mem_range'_1] at hi
    omega
  dsimp only [Function.comp]
  have : (Reader.checkRoi d i && Reader.isValid (positions file2 n) i) = (Reader.checkRoi d i && Reader.isValid (positions file1 n) i) := by
    rw [Bool.eq_iff_iff, Bool.and_eq_true, Bool.and_eq_true, valid_spec file2 n i hi', valid_spec file1 n i hi']
    constructor
    · rintro ⟨a, b⟩; exact ⟨a, fun h => b ((hv i hi' a).2 h)⟩
    · rintro ⟨a, b⟩; exact ⟨a, fun h => b ((hv i hi' a).1 h)⟩
  rw [this]
  cases Reader.checkRoi d i && Reader.isValid (positions file1 n) i with
  | false => rfl
  | true => exact congrArg (fun x => Item.record (⟨i, x⟩ : Pk ℝ)) (ht i)

theorem final_le (b : Reader.Bounds ℝ) (file : ℕ → Raw) (n : ℕ) (d : Reader.Dataset) (h : Reader.openDataset b (positions file n) = .ok d) :
    d.final ≤ n := by
  unfold Reader.openDataset at h
  split at h
  · dsimp only at h
    cases h1 : (Reader.argwhere (Reader.roiFilter b (positions file n).lats (positions file n).lons)).min? with
    | none => rw [h1] at h; cases h
    | some lo =>
      cases h2 : (Reader.argwhere (Reader.roiFilter b (positions file n).lats (positions file n).lons)).max? with
      | none => rw [h1, h2] at h; cases h
      | some hi =>
        rw [h1, h2] at h
        cases h
        have hm := List.max?_mem h2
        rw [Reader.mem_argwhere, (Reader.roiFilter_spec b (positions file n).lats (positions file n).lons (by simp [positions])).2 hi] at hm
        obtain ⟨lat, lon, hlat, _⟩ := hm
        have := (List.getElem?_eq_some_iff.1 hlat).1
        simp [positions] at this
        dsimp only
        omega
  · cases h
    simp [positions]

theorem open_same (b1 b2 : Reader.Bounds ℝ) (file1 file2 : ℕ → Raw) (n : ℕ) (hroi : Reader.roiEnabled b2 = Reader.roiEnabled b1)
    (ht : ∀ i, (file2 i).time = (file1 i).time)
    (h : ∀ i < n, Reader.InRegion b2 (file2 i).lat (file2 i).lon ↔ Reader.InRegion b1 (file1 i).lat (file1 i).lon)
    (hv : ∀ i < n, ((file2 i).lat = 0 ∧ (file2 i).lon = 0) ↔ ((file1 i).lat = 0 ∧ (file1 i).lon = 0)) :
    match Reader.openDataset b1 (positions file1 n) with
    | .error e => Reader.openDataset b2 (positions file2 n) = .error e
    | .ok d => ∃ d', Reader.openDataset b2 (positions file2 n) = .ok d' ∧ items file2 n d' = items file1 n d := by
  have e : Reader.openDataset b2 (positions file2 n) = Reader.openDataset b1 (positions file1 n) := by
    unfold Reader.openDataset
    rw [hroi, filter_same b1 b2 file1 file2 n h]
    have : (positions file2 n).lats.length = (positions file1 n).lats.length := by simp [positions]
    rw [this]
  rw [e]
  cases ho : Reader.openDataset b1 (positions file1 n) with
  | error e => rfl
  | ok d =>
    refine ⟨d, rfl, items_same file1 file2 n d (final_le b1 file1 n d ho) ht (fun i hi _ => hv i hi)⟩

/-- A movement of the positions under which the record of a surface does not change. -/
structure Movement where
  move : Surface.V → Surface.V
  moveF : (Fin 3 → ℝ) → (Fin 3 → ℝ)
  same : ∀ v, moveF v.ofLp = (move v).ofLp
  zero : moveF (fun _ => 0) = fun _ => 0
  norm : ∀ v, ‖move v‖ = ‖v‖
  range : ∀ g : Signal.GeoInput, Signal.rangeSatSurf { g with sat := moveF g.sat, surf := moveF g.surf } = Signal.rangeSatSurf g
  angle : ∀ surf sat vel, Surface.beamAngle (move surf) (move sat) (move vel) = Surface.beamAngle surf sat vel
  doppler : ∀ ground sat vel, Calib.dopplerAngle id (move ground - move sat) (move vel) = Calib.dopplerAngle id (ground - sat) vel
  surface : ∀ (argsort : List ℝ → List ℕ) (round : ℝ → ℤ) (junk : ℕ → ℂ) (c : Chain.Conf) (bursts : ℕ → Chain.L1A) (s : Chain.Surf) (prev : ℕ)
    (looks : Chain.Looks),
    Chain.surface argsort round junk c (fun id => { bursts id with sat := moveF (bursts id).sat }) { s with pos := moveF s.pos } prev looks =
      Chain.surface argsort round junk c bursts s prev looks

/-- Twins one of which is moved. -/
def movedTwin (M : Movement) (S : Surface.Surf → Surface.Surf → Prop) (Al : Surface.Alg → Surface.Alg → Prop)
    (L : Surface.Loc → Surface.Loc → Prop) (ok : Surface.Surf → Prop) : Twin :=
  ⟨S, Al, fun _ b1 b2 => b2 = { b1 with sat := M.moveF b1.sat }, SameRecord L, ok, fun _ => True⟩

theorem alike_moved (M : Movement) (S : Surface.Surf → Surface.Surf → Prop) (Al : Surface.Alg → Surface.Alg → Prop)
    (L : Surface.Loc → Surface.Loc → Prop) (ok : Surface.Surf → Prop) (c : Conf) (hn : 0 < c.pulses) (latT lonT : ℝ)
    (bounds : Reader.Bounds ℝ) (o : World) (ho : o.Steady) (file1 file2 : ℕ → Raw)
    (hf : ∀ id, file2 id = { file1 id with lat := (file2 id).lat, lon := (file2 id).lon, vel := M.move (file1 id).vel })
    (hecef : ∀ id alt, Surface.ecef c.surface (radians (file2 id).lat) (radians (file2 id).lon) alt =
      M.move (Surface.ecef c.surface (radians (file1 id).lat) (radians (file1 id).lon) alt))
    (hstep : ∀ a1 a2 ss1 ss2 (old : List ℕ) (id : ℕ) (force : Bool), Al a1 a2 → List.Forall₂ S ss1 ss2 →
      match Surface.step c.surface a1 ss1 (old.map (fun i => burst c (file1 i))) (burst c (file1 id)) force with
      | .err e => Surface.step { c.surface with latT := latT, lonT := lonT } a2 ss2 (old.map (fun i => burst c (file2 i)))
          (burst c (file2 id)) force = .err e
      | .nan => Surface.step { c.surface with latT := latT, lonT := lonT } a2 ss2 (old.map (fun i => burst c (file2 i)))
          (burst c (file2 id)) force = .nan
      | .ok x xs new => (∀ f ∈ xs, ok f) → ∃ x' xs', Surface.step { c.surface with latT := latT, lonT := lonT } a2 ss2
          (old.map (fun i => burst c (file2 i))) (burst c (file2 id)) force = .ok x' xs' new ∧ Al x x' ∧ List.Forall₂ S xs xs')
    (hS : ∀ f1 f2, S f1 f2 → f2.loc.surf = M.move f1.loc.surf ∧ f2.loc.win = f1.loc.win ∧ L f1.loc f2.loc) :
    Alike (movedTwin M S Al L ok) c { c with latT := latT, lonT := lonT, bounds := bounds } o o file1 file2 := by
  have hv : ∀ id, (file2 id).vel = M.move (file1 id).vel := fun id => by rw [hf id]
  have hd : ∀ id, delay c (file2 id) = delay c (file1 id) := fun id => by rw [hf id]; rfl
  have hsat : ∀ id, (burst c (file2 id)).sat = M.move (burst c (file1 id)).sat := by
    intro id
    have : (file2 id).alt = (file1 id).alt := by rw [hf id]
    show Surface.ecef _ _ _ (file2 id).alt = _
    rw [hecef, this]
    rfl
  have hdop : ∀ id, doppler c (file2 id) = doppler c (file1 id) := by
    intro id
    have : (file2 id).alt = (file1 id).alt := by rw [hf id]
    unfold doppler
    rw [hecef, this, hsat, hv, M.doppler]
  have hsurf : ∀ f1 f2, S f1 f2 → place f2 = { place f1 with pos := M.moveF (place f1).pos } := by
    intro f1 f2 h
    obtain ⟨h1, h2, _⟩ := hS f1 f2 h
    unfold place
    rw [h1, h2, M.same]
  constructor
  · rfl
  · rfl
  · exact hn
  · exact hstep
  · intro id
    show fresh c id (file2 id) = { fresh c id (file1 id) with sat := M.moveF (fresh c id (file1 id)).sat }
    have e : fresh c id (file2 id) =
        { fresh c id (file1 id) with
          velocity := ‖(file2 id).vel‖, doppler := (doppler c (file2 id)).getD 0, sat := (burst c (file2 id)).sat.ofLp, winDelay := delay c (file2 id) } := by
      unfold fresh
      rw [hf id]
    rw [e, hd, hdop, hv, M.norm, hsat, ← M.same]
    rfl
  · rintro id b1 b2 rfl
    show calibrated c (file2 id) _ = _
    rw [hf id]
    rfl
  · rintro id b1 b2 angles trend rfl
    rfl
  · intro id
    show ({ blank with seqCount := id } : Chain.L1A) = { blank with seqCount := id, sat := M.moveF blank.sat }
    unfold blank
    rw [M.zero]
  · intro id
    show qMin c _ = _
    rw [hv, M.norm]
  · exact hdop
  · intro id f1 f2 h
    show Surface.beamAngle f2.loc.surf (burst c (file2 id)).sat (file2 id).vel = _
    rw [(hS f1 f2 h).1, hsat, hv, M.angle]
    rfl
  · rintro id b1 b2 rfl
    show match Chain.azimuth c.chain b1 with
      | .error e => Chain.azimuth c.chain b1 = .error e
      | .ok _ => ∃ x, Chain.azimuth c.chain b1 = .ok x
    cases Chain.azimuth c.chain b1 with
    | error e => rfl
    | ok x => exact ⟨x, rfl⟩
  · intro f1 f2 m1 m2 p1 p2 looks hff hm hw _
    have hm' : m2 = fun id => { m1 id with sat := M.moveF (m1 id).sat } := funext hm
    have q : Chain.surfaceAw c.weighting c.pattern o.argsort o.round o.junk c.chain (fun id => { m1 id with sat := M.moveF (m1 id).sat })
        { place f1 with pos := M.moveF (place f1).pos } p2 looks =
        Chain.surfaceAw c.weighting c.pattern o.argsort o.round o.junk c.chain m1 (place f1) p2 looks := by
      unfold Chain.surfaceAw
      rw [M.surface o.argsort o.round o.junk c.chain m1 (place f1) p2 looks]
    rw [← Chain.record_own_stack_aw c.weighting c.pattern o.argsort o.round o.junk o.junk c.chain m1 m1 (place f1) p1 p2 looks hw (fun _ _ => rfl), ← hm',
      ← hsurf f1 f2 hff] at q
    show match Chain.surfaceAw c.weighting c.pattern o.argsort o.round o.junk c.chain m1 (place f1) p1 looks with
      | .error e => Chain.surfaceAw c.weighting c.pattern o.argsort o.round o.junk c.chain m2 (place f2) p2 looks = .error e
      | .ok none => Chain.surfaceAw c.weighting c.pattern o.argsort o.round o.junk c.chain m2 (place f2) p2 looks = .ok none
      | .ok (some r) => ∃ r', Chain.surfaceAw c.weighting c.pattern o.argsort o.round o.junk c.chain m2 (place f2) p2 looks = .ok (some r') ∧
        match sigma0 c file1 m1 f1 r with
        | none => sigma0 c file2 m2 f2 r' = none
        | some g => ∃ g', sigma0 c file2 m2 f2 r' = some g' ∧ ∀ n, SameRecord L ⟨n, f1.loc, r, g⟩ ⟨n, f2.loc, r', g'⟩
    rw [q]
    match Chain.surfaceAw c.weighting c.pattern o.argsort o.round o.junk c.chain m1 (place f1) p1 looks with
    | .error e => rfl
    | .ok none => rfl
    | .ok (some r) =>
      refine ⟨r, rfl, ?_⟩
      have hs : sigma0 c file2 m2 f2 r = sigma0 c file1 m1 f1 r := by
        unfold sigma0
        have h1 : (fun row : Stack.Row ℝ (ℕ → ℂ) => (file2 row.burst).agc) = fun row => (file1 row.burst).agc := by
          funext row
          rw [hf]
        rw [h1]
        congr 1
        refine List.map_congr_left (fun row _ => ?_)
        rw [hsurf f1 f2 hff, hm']
        have := M.range (Chain.geo c.chain (place f1) (m1 row.burst) row)
        have h2 : Signal.rangeSatSurf (Chain.geo c.chain { place f1 with pos := M.moveF (place f1).pos }
            { m1 row.burst with sat := M.moveF (m1 row.burst).sat } row) = Signal.rangeSatSurf (Chain.geo c.chain (place f1) (m1 row.burst) row) := this
        dsimp only
        rw [h2]
      rw [hs]
      cases sigma0 c file1 m1 f1 r with
      | none => rfl
      | some g => exact ⟨g, rfl, fun n => ⟨rfl, (hS f1 f2 hff).2.2⟩⟩
  · rfl
  · intro r1 r2 h
    obtain ⟨f, g, hfg⟩ := ho
    have : r2.counter = r1.counter := by rw [h.1]
    rw [(hfg r2).1, (hfg r1).1, this]
  · intro r1 r2 h
    obtain ⟨f, g, hfg⟩ := ho
    have : r2.counter = r1.counter := by rw [h.1]
    rw [(hfg r2).2, (hfg r1).2, this]
  · intro r1 r2 h
    rw [h.1]
  · rfl
  · rfl

/-! ## C126 -/

/-- Turning about the axis. -/
noncomputable def turning (t : ℝ) : Movement where
  move := Surface.rot t
  moveF := Surface.rotF t
  same := fun _ => rfl
  zero := by
    unfold Surface.rotF Surface.rot
    funext i
    fin_cases i <;> simp
  norm := Surface.norm_rot t
  range := Surface.range_rot t
  angle := fun surf sat vel => (Surface.meridian_angles t surf sat 0 vel id).1
  doppler := fun ground sat vel => (Surface.meridian_angles t 0 sat ground vel id).2
  surface := Surface.meridian_record t

theorem radians_add (x y : ℝ) : radians (x + y) = radians x + radians y := by
  unfold radians
  ring

theorem burst_turned (c : Conf) (t : ℝ) (r : Raw) : Surface.BurstTurned (radians t) (burst c r) (burst c (r.turned t)) := by
  have hl : Surface.Shifted (radians t) (radians r.lon) (radians (r.lon + t)) := ⟨0, by rw [radians_add]; simp⟩
  refine ⟨rfl, ?_, ?_, rfl, hl⟩
  · exact Surface.ecef_rot c.surface _ _ _ _ _ hl
  · exact Surface.ecef_rot c.surface _ _ _ _ _ hl

theorem forall2_bursts {R : Surface.Burst → Surface.Burst → Prop} {f g : ℕ → Surface.Burst} (h : ∀ i, R (f i) (g i)) (l : List ℕ) :
    List.Forall₂ R (l.map f) (l.map g) := by
  induction l with
  | nil => exact .nil
  | cons x l ih => exact .cons (h x) ih

/-- **C126, products (`_partial`).**  The products do not depend on the choice of the meridian: with all longitudes shifted, and all velocities
turned, the run ends in the same way after the same events and writes the same records, at the same places described with the other meridian.
Missing: surfaces within √2 metres of the axis of the Earth (`meridian_violated`); records at latitude 0 and longitude 0, which are skipped,
and regions, must select the same records. -/
theorem meridian_products_partial (c : Conf) (hn : 0 < c.pulses) (o : World) (ho : o.Steady) (t : ℝ) (a a' : Surface.Alg)
    (ha : Surface.AlgTurned (radians t) a a') (file : ℕ → Raw) (n : ℕ) (bounds : Reader.Bounds ℝ)
    (hroi : Reader.roiEnabled bounds = Reader.roiEnabled c.bounds)
    (hin : ∀ i < n, Reader.InRegion bounds (file i).lat ((file i).lon + t) ↔ Reader.InRegion c.bounds (file i).lat (file i).lon)
    (hzero : ∀ i < n, ((file i).lat = 0 ∧ (file i).lon + t = 0) ↔ ((file i).lat = 0 ∧ (file i).lon = 0))
    (haway : AllSurfaces Surface.Surf.Away c o a file n) :
    let p := process c o a file n
    let p' := process { c with lonT := c.lonT + radians t, bounds := bounds } o a' (fun i => (file i).turned t) n
    SameCourse p p' ∧ List.Forall₂ (SameRecord (Surface.LocTurned (radians t))) p.state.l1b p'.state.l1b ∧
      List.Forall₂ (SameRecord (Surface.LocTurned (radians t))) p.state.l1bs p'.state.l1bs := by
  intro p p'
  have hA := alike_moved (turning (radians t)) (Surface.SurfTurned (radians t)) (Surface.AlgTurned (radians t)) (Surface.LocTurned (radians t))
    Surface.Surf.Away c hn c.latT (c.lonT + radians t) bounds o ho file (fun i => (file i).turned t) (fun _ => rfl)
    (fun id alt => Surface.ecef_rot c.surface _ _ _ _ _ ⟨0, by
      show radians ((file id).lon + t) = _
      rw [radians_add]; simp⟩)
    (fun a1 a2 ss1 ss2 old id force h1 h2 => Surface.meridian_step_partial c.surface rfl (radians t) h1 h2
      (forall2_bursts (fun i => burst_turned c t (file i)) old) (burst_turned c t (file id)) force)
    (fun f1 f2 h => ⟨h.loc.surf, by rw [h.loc.same], h.loc⟩)
  have q := process_twin hA (a1 := a) (a2 := a') ha n
    (open_same c.bounds bounds file (fun i => (file i).turned t) n hroi (fun _ => rfl) hin hzero) haway (fun _ _ => trivial)
  exact ⟨q.mono (fun s t h => h.ctl), q.state.l1b, q.state.l1bs⟩

/-! ## C127 -/

/-- Mirroring at the plane of the equator. -/
noncomputable def mirroring : Movement where
  move := Surface.mir
  moveF := Surface.mirF
  same := fun _ => rfl
  zero := by
    unfold Surface.mirF Surface.mir
    funext i
    fin_cases i <;> simp
  norm := Surface.norm_mir
  range := Surface.range_mir
  angle := fun surf sat vel => (Surface.mirror_angles surf sat 0 vel id).1
  doppler := fun ground sat vel => (Surface.mirror_angles 0 sat ground vel id).2
  surface := Surface.mirror_record

theorem radians_neg (x : ℝ) : radians (-x) = -radians x := by
  unfold radians
  ring

theorem burst_mirrored (c : Conf) (r : Raw) : Surface.BurstMirrored (burst c r) (burst c r.mirrored) := by
  have hl : Surface.Opposite (radians r.lat) (radians (-r.lat)) := ⟨0, by rw [radians_neg]; simp⟩
  refine ⟨rfl, ?_, ?_, rfl, hl⟩
  · exact Surface.ecef_mir c.surface _ _ _ _ hl
  · exact Surface.ecef_mir c.surface _ _ _ _ hl

/-- **C127, products (`_partial`).**  The products do not depend on the hemisphere: with all latitudes of the opposite sign, all velocities
mirrored and the region and target of the configuration mirrored, the run ends in the same way after the same events and writes the same records,
at the mirrored places.  Missing: surfaces near the axis of the Earth (`mirror_violated`). -/
theorem mirror_products_partial (c : Conf) (hn : 0 < c.pulses) (o : World) (ho : o.Steady) (a a' : Surface.Alg)
    (ha : Surface.AlgMirrored a a') (file : ℕ → Raw) (n : ℕ) (haway : AllSurfaces Surface.Surf.OffAxis c o a file n) :
    let p := process c o a file n
    let p' := process c.mirrored o a' (fun i => (file i).mirrored) n
    SameCourse p p' ∧ List.Forall₂ (SameRecord Surface.LocMirrored) p.state.l1b p'.state.l1b ∧
      List.Forall₂ (SameRecord Surface.LocMirrored) p.state.l1bs p'.state.l1bs := by
  intro p p'
  have hA := alike_moved mirroring Surface.SurfMirrored Surface.AlgMirrored Surface.LocMirrored
    Surface.Surf.OffAxis c hn (-c.latT) c.lonT c.mirrored.bounds o ho file (fun i => (file i).mirrored) (fun _ => rfl)
    (fun id alt => Surface.ecef_mir c.surface _ _ _ _ ⟨0, by
      show radians (-(file id).lat) = _
      rw [radians_neg]; simp⟩)
    (fun a1 a2 ss1 ss2 old id force h1 h2 => Surface.mirror_step_partial c.surface rfl h1 h2
      (forall2_bursts (fun i => burst_mirrored c (file i)) old) (burst_mirrored c (file id)) force)
    (fun f1 f2 h => ⟨h.loc.surf, by rw [h.loc.same], h.loc⟩)
  have q := process_twin hA (a1 := a) (a2 := a') ha n
    (open_same c.bounds c.mirrored.bounds file (fun i => (file i).mirrored) n ?_ (fun _ => rfl) ?_ ?_) haway (fun _ _ => trivial)
  · exact ⟨q.mono (fun s t h => h.ctl), q.state.l1b, q.state.l1bs⟩
  · unfold Reader.roiEnabled Conf.mirrored
    cases c.bounds.minLat <;> cases c.bounds.maxLat <;> simp
  · intro i _
    unfold Reader.InRegion Conf.mirrored Raw.mirrored
    dsimp only
    constructor
    · rintro ⟨h1, h2, h3, h4⟩
      refine ⟨fun m hm => ?_, fun m hm => ?_, h3, h4⟩
      · have := h2 (-m) (by rw [hm]; rfl)
        linarith
      · have := h1 (-m) (by rw [hm]; rfl)
        linarith
    · rintro ⟨h1, h2, h3, h4⟩
      refine ⟨fun m hm => ?_, fun m hm => ?_, h3, h4⟩
      · obtain ⟨m', hm', rfl⟩ := Option.map_eq_some_iff.1 hm
        have := h2 m' hm'
        linarith
      · obtain ⟨m', hm', rfl⟩ := Option.map_eq_some_iff.1 hm
        have := h1 m' hm'
        linarith
  · intro i _
    show -(file i).lat = 0 ∧ _ ↔ _
    rw [neg_eq_zero]
    rfl

/-! ## Examples -/

theorem demo_away (alg : Surface.Alg) : (demoSurf alg).Away := by
  constructor
  · rw [(demo_surf alg).1]
    unfold Surface.Away
    norm_num
  · show Surface.Away (burst demoConf (demoFile 0)).sat
    rw [demo_burst.1]
    unfold Surface.Away
    norm_num

theorem demo_surfaces (alg : Surface.Alg) : AllSurfaces Surface.Surf.Away demoConf (demoWorld realArg) alg demoFile 2 := by
  intro d hd
  obtain ⟨d', h1, h2⟩ := demo_items
  rw [hd] at h1
  cases h1
  rw [h2]
  obtain ⟨tr, alg', mem, h3, hm, _⟩ := demo_step1 realArg alg
  obtain ⟨tr2, mem2, cl, rec, h4, _⟩ := demo_step2 realArg realArg_isArgsort tr alg alg' mem hm
  obtain ⟨s, h9, _, _, h12, _⟩ := demo_step3 realArg tr2 alg' mem2 cl rec
  have hreach : ∀ x, Reached demoConf (demoWorld realArg) demoFile (start alg [.record ⟨0, (demoFile 0).time⟩, .record ⟨1, (demoFile 1).time⟩]) x →
      x = start alg [.record ⟨0, (demoFile 0).time⟩, .record ⟨1, (demoFile 1).time⟩] ∨
      x = ⟨⟨1, true, false, some (-1), some (demoFile 0).time, false, false, false, some ⟨0, (demoFile 0).time⟩,
        [.record ⟨1, (demoFile 1).time⟩], [⟨0, [], [], []⟩], [(⟨0, (demoFile 0).time⟩, false)], 1, -1, -1, tr⟩,
        [demoSurf alg], mem, alg', 0, [], []⟩ ∨
      x = ⟨⟨2, true, false, some (-1), none, false, true, true, some ⟨1, (demoFile 1).time⟩,
        [], [], [(⟨0, (demoFile 0).time⟩, true)], 1, 1, 1, tr2⟩, [], mem2, alg', cl, [rec], [rec]⟩ ∨ x.ctl.running = false := by
    intro x hx
    induction hx with
    | start => exact Or.inl rfl
    | next h hr hs ih =>
      rcases ih with rfl | rfl | rfl | ih
      · rw [h3] at hs; cases hs; exact Or.inr (Or.inl rfl)
      · rw [h4] at hs; cases hs; exact Or.inr (Or.inr (Or.inl rfl))
      · rw [h9] at hs; cases hs; exact Or.inr (Or.inr (Or.inr h12))
      · rw [hr] at ih; cases ih
  intro x hx hr b x' hi f hf
  rcases hreach x hx with rfl | rfl | rfl | ih
  · have : f = demoSurf alg := by
      cases hi
      have hf : f ∈ [demoSurf alg] := hf
      exact List.mem_singleton.1 hf
    rw [this]
    exact demo_away alg
  · obtain ⟨t', m', e, _⟩ := demo_input2 (tr ++ [.iteration]) alg alg' mem
    have e' : inputPhase demoConf demoFile (beginIteration (demoWorld realArg)
      ⟨⟨1, true, false, some (-1), some (demoFile 0).time, false, false, false, some ⟨0, (demoFile 0).time⟩,
        [.record ⟨1, (demoFile 1).time⟩], [⟨0, [], [], []⟩], [(⟨0, (demoFile 0).time⟩, false)], 1, -1, -1, tr⟩,
        [demoSurf alg], mem, alg', 0, [], []⟩) = _ := e
    rw [e'] at hi
    cases hi
    rw [List.mem_singleton.1 hf]
    exact demo_away alg
  · have : f = Surface.makeSurf demoConf.surface (Surface.storeFirst demoConf.surface alg'.loc (burst demoConf (demoFile 1))) := by
      cases hi
      have hf : f ∈ [Surface.makeSurf demoConf.surface (Surface.storeFirst demoConf.surface alg'.loc (burst demoConf (demoFile 1)))] := hf
      exact List.mem_singleton.1 hf
    rw [this]
    exact demo_away alg'
  · rw [hr] at ih; cases ih

/-- An algorithm object as described with another meridian. -/
noncomputable def turnedAlg (t : ℝ) (a : Surface.Alg) : Surface.Alg :=
  { a with loc := { a.loc with
      surf := Surface.rot t a.loc.surf
      sat := Surface.rot t a.loc.sat
      vel := Surface.rot t a.loc.vel
      lon := a.loc.lon + t
      lonSat := a.loc.lonSat + t } }

theorem turnedAlg_turned (t : ℝ) (a : Surface.Alg) : Surface.AlgTurned t a (turnedAlg t a) :=
  ⟨⟨rfl, rfl, rfl, rfl, ⟨0, by simp [turnedAlg]⟩, ⟨0, by simp [turnedAlg]⟩⟩, rfl⟩

/-- The hypotheses of `meridian_products_partial` are met by the file of the example, counted from a meridian 30 degrees further west: the longitude
is 120 degrees instead of 90, and the record is the same. -/
example (alg : Surface.Alg) :
    ∃ rec, (process { demoConf with lonT := demoConf.lonT + radians 30, bounds := ⟨none, none, none, none⟩ } (demoWorld realArg)
      (turnedAlg (radians 30) alg) (fun i => (demoFile i).turned 30) 2).state.l1b = [rec] ∧ rec.result.out.waveform[8]? = some (some 8) ∧
      ((demoFile 0).turned 30).lon = 120 := by
  obtain ⟨s, rec, e, h1, _, _, _, _, h5⟩ := demo_run realArg realArg_isArgsort alg
  have q := (meridian_products_partial demoConf (by decide) (demoWorld realArg) (demo_steady _) 30 alg _ (turnedAlg_turned (radians 30) alg) demoFile 2
    ⟨none, none, none, none⟩ rfl (by intro i _; unfold Reader.InRegion demoConf; simp) (by
      intro i _
      show (0 : ℝ) = 0 ∧ (90 : ℝ) + 30 = 0 ↔ (0 : ℝ) = 0 ∧ (90 : ℝ) = 0
      norm_num) (demo_surfaces alg)).2.1
  rw [e] at q
  have q : List.Forall₂ _ s.l1b _ := q
  rw [h1] at q
  obtain ⟨r, t, hr, ht, e2⟩ := List.forall₂_cons_left_iff.1 q
  rw [List.forall₂_nil_left_iff.1 ht] at e2
  refine ⟨r, e2, ?_, ?_⟩
  · rw [hr.1]
    exact h5
  · show (90 : ℝ) + 30 = 120
    norm_num

/-- The hypotheses of `mirror_products_partial` are met by the file of the example, which is flown southward on the other hemisphere. -/
example (alg alg' : Surface.Alg) (ha : Surface.AlgMirrored alg alg') :
    ∃ rec, (process demoConf.mirrored (demoWorld realArg) alg' (fun i => (demoFile i).mirrored) 2).state.l1b = [rec] ∧
      rec.result.out.waveform[8]? = some (some 8) ∧ (demoFile 0).mirrored.vel 2 = -1 := by
  obtain ⟨s, rec, e, h1, _, _, _, _, h5⟩ := demo_run realArg realArg_isArgsort alg
  have q := (mirror_products_partial demoConf (by decide) (demoWorld realArg) (demo_steady _) alg alg' ha demoFile 2
    (fun d hd s hs hr b s' hi f hf => ⟨(demo_surfaces alg d hd s hs hr b s' hi f hf).1.offAxis,
      (demo_surfaces alg d hd s hs hr b s' hi f hf).2.offAxis⟩)).2.1
  rw [e] at q
  have q : List.Forall₂ _ s.l1b _ := q
  rw [h1] at q
  obtain ⟨r, t, hr, ht, e2⟩ := List.forall₂_cons_left_iff.1 q
  rw [List.forall₂_nil_left_iff.1 ht] at e2
  refine ⟨r, e2, ?_, ?_⟩
  · rw [hr.1]
    exact h5
  · show -(1 : ℝ) = -1
    rfl

/-- **C126 fails at the crossing of meridian and equator.**  A record at latitude 0 and longitude 0 is skipped; the same record with another meridian
is not. -/
theorem meridian_skips_violated : ∃ (r : Raw) (t : ℝ),
    itemIds (items (fun _ => r) 1 ⟨none, 0, 1, 0⟩) = [] ∧ itemIds (items (fun _ => r.turned t) 1 ⟨none, 0, 1, 0⟩) = [0] := by
  refine ⟨{ demoFile 0 with lat := 0, lon := 0 }, 30, ?_, ?_⟩ <;>
    simp [items, Reader.iterate, positions, Reader.checkRoi, Reader.isValid, itemIds, Raw.turned, List.range_succ, List.range']

end Dedop.Whole
