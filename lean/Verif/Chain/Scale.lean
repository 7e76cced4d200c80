import Verif.Chain.Own

/-!
# The waveform of scaled echoes (C124)
-/
namespace Dedop.Chain

open Finset Signal Stack

/-! ## Specification -/

/-- The bursts with the samples of burst `id` multiplied by `A id`: another amplitude and another phase for each. -/
def rescaled (A : ℕ → ℂ) (bursts : ℕ → L1A) (id : ℕ) : L1A :=
  { bursts id with wfm := fun p i => A id * (bursts id).wfm p i }

/-- The samples of a waveform multiplied by a number; undefined ones stay undefined. -/
def times (a : ℝ) (w : List (Option ℝ)) : List (Option ℝ) := w.map (Option.map (a * ·))

/-! ## Lemmas -/

theorem dft_mul (N : ℕ) (A : ℂ) (x : ℕ → ℂ) (k : ℕ) : dft N (fun n => A * x n) k = A * dft N x k := by
  unfold dft
  rw [← mul_div_assoc, mul_sum]
  congr 1
  exact sum_congr rfl (fun n _ => by ring)

theorem fftAzimuth_mul (n : ℕ) (A : ℂ) (x : ℕ → ℕ → ℂ) (k s : ℕ) :
    Azimuth.fftAzimuth n (fun p i => A * x p i) k s = A * Azimuth.fftAzimuth n x k s := by
  unfold Azimuth.fftAzimuth fftshift
  exact dft_mul n A _ _

theorem phaseShift_mul (factor angle : ℝ) (A : ℂ) (w : ℕ → ℕ → ℂ) :
    Azimuth.phaseShift factor angle (fun p i => A * w p i) = fun p i => A * Azimuth.phaseShift factor angle w p i := by
  funext p i
  unfold Azimuth.phaseShift
  ring

/-- The beams with every row multiplied. -/
def timesBeams (A : ℂ) (b : Azimuth.Beams) : Azimuth.Beams := fun j => (b j).map (fun row s => A * row s)

theorem azimuth_mul (c : Conf) (b : L1A) (A : ℂ) :
    azimuth c { b with wfm := fun p i => A * b.wfm p i } = (azimuth c b).map (timesBeams A) := by
  unfold azimuth
  dsimp only
  have hw : (fun p s => A * b.wfm p s * (c.window p : ℂ)) = fun p s => A * (b.wfm p s * (c.window p : ℂ)) := by
    funext p s; ring
  rw [hw]
  have ha : azBurst c { b with wfm := fun p i => A * b.wfm p i } = azBurst c b := rfl
  rw [ha]
  split
  · show Except.ok _ = Except.ok _
    congr 1
    funext j
    unfold Azimuth.exact timesBeams
    dsimp only
    cases (azBurst c b).angles[j]? with
    | none => rfl
    | some a =>
      simp only [Option.map_some]
      rw [phaseShift_mul]
      congr 1
      funext s
      exact fftAzimuth_mul _ _ _ _ _
  · unfold Azimuth.approximate
    cases Azimuth.nadirAngle c.pulses (azBurst c b).trend (azBurst c b).angles with
    | error e => rfl
    | ok a =>
      show Except.ok _ = Except.ok _
      congr 1
      funext j
      unfold timesBeams
      rw [phaseShift_mul]
      dsimp only
      generalize (if (azBurst c b).trend = 1 then c.pulses - (azBurst c b).angles.length else 0) = off
      by_cases hj : j < c.pulses - off
      · rw [if_pos hj, if_pos hj]
        simp only [Option.map_some]
        congr 1
        funext s
        exact fftAzimuth_mul _ _ _ _ _
      · rw [if_neg hj, if_neg hj]
        rfl

/-- Two entries which differ in the row of the look by the factor of the burst. -/
def Scaled (A : ℕ → ℂ) (e f : Entry ℝ (ℕ → ℂ)) : Prop :=
  e.index = f.index ∧ e.indexAbs = f.indexAbs ∧
    f.burst.beams[f.index]? = (e.burst.beams[e.index]?).map (fun row s => A e.burst.id * row s) ∧
    ({ e.burst with beams := ([] : List (ℕ → ℂ)) } : Stack.Burst ℝ (ℕ → ℂ)) = { f.burst with beams := [] }

theorem scaled_fields {A : ℕ → ℂ} {e f : Entry ℝ (ℕ → ℂ)} (h : Scaled A e f) :
    e.burst.id = f.burst.id ∧ e.burst.beamAngles = f.burst.beamAngles ∧ e.burst.doppler = f.burst.doppler ∧
      e.burst.pitch = f.burst.pitch ∧ e.burst.t0 = f.burst.t0 ∧ e.burst.seqCount = f.burst.seqCount ∧
      e.burst.rmc = f.burst.rmc := by
  obtain ⟨_, _, _, h⟩ := h
  simp only [Stack.Burst.mk.injEq, true_and] at h
  tauto

/-- A row with its beam multiplied by the factor of its burst. -/
def timesRow (A : ℕ → ℂ) (r : Row ℝ (ℕ → ℂ)) : Row ℝ (ℕ → ℂ) := { r with beam := fun s => A r.burst * r.beam s }

/-- A gathered stack with every beam multiplied. -/
def timesGathered (A : ℕ → ℂ) (g : Gathered ℝ (ℕ → ℂ)) : Gathered ℝ (ℕ → ℂ) := { g with rows := g.rows.map (timesRow A) }

theorem scaled_looks (A : ℕ → ℂ) (x : ℝ) {es fs : List (Entry ℝ (ℕ → ℂ))} (h : List.Forall₂ (Scaled A) es fs) :
    allLooks x es = allLooks x fs := by
  induction h with
  | nil => rfl
  | cons h _ ih =>
    obtain ⟨_, h2, h3, _⟩ := scaled_fields h
    have : ∀ e f, Scaled A e f → lookAngle x e = lookAngle x f := by
      intro e f h
      obtain ⟨_, h2, h3, _⟩ := scaled_fields h
      unfold lookAngle
      rw [h.1, h2, h3]
    rw [allLooks, allLooks, this _ _ h, ih]

theorem scaled_row (A : ℕ → ℂ) (x : ℝ) {e f : Entry ℝ (ℕ → ℂ)} (h : Scaled A e f) :
    gatherRow x f = (gatherRow x e).map (timesRow A) := by
  obtain ⟨h1, h2, h3, h4, h5, h6, _⟩ := scaled_fields h
  unfold gatherRow
  rw [h.2.2.1, ← h1, ← h2, ← h3, ← h4, ← h5, ← h6, ← h.1, ← h.2.1]
  cases e.burst.beams[e.index]? with
  | none => rfl
  | some beam =>
    cases e.burst.beamAngles[e.index]? with
    | none => rfl
    | some a => rfl

theorem scaled_get {A : ℕ → ℂ} {es fs : List (Entry ℝ (ℕ → ℂ))} (h : List.Forall₂ (Scaled A) es fs) (k : ℕ) :
    (es[k]? = none ∧ fs[k]? = none) ∨ ∃ e f, es[k]? = some e ∧ fs[k]? = some f ∧ Scaled A e f := by
  induction h generalizing k with
  | nil => simp
  | cons h _ ih =>
    cases k with
    | zero => right; exact ⟨_, _, rfl, rfl, h⟩
    | succ k => simpa using ih k

theorem scaled_loop (A : ℕ → ℂ) (x : ℝ) {es fs : List (Entry ℝ (ℕ → ℂ))} (h : List.Forall₂ (Scaled A) es fs) (off m k : ℕ)
    (best : Option ℝ) (g : Gathered ℝ (ℕ → ℂ)) :
    gatherLoop x fs off m k best (timesGathered A g) = (gatherLoop x es off m k best g).map (timesGathered A) := by
  induction m generalizing k best g with
  | zero => rfl
  | succ m ih =>
    rw [gatherLoop, gatherLoop]
    rcases scaled_get h (k + off) with ⟨h1, h2⟩ | ⟨e, f, h1, h2, h3⟩
    · rw [h1, h2]; rfl
    · rw [h1, h2]
      dsimp only
      rw [scaled_row A x h3, ← (scaled_fields h3).2.2.2.2.2.2]
      cases gatherRow x e with
      | error => rfl
      | ok row =>
        show gatherLoop x fs off m (k + 1) _ _ = _
        rw [← ih]
        congr 1
        simp [timesGathered, timesRow]
        rfl

theorem scaled_gather (A : ℕ → ℂ) (argsort : List ℝ → List ℕ) (n : ℕ) (x : ℝ) (prev : ℕ)
    {es fs : List (Entry ℝ (ℕ → ℂ))} (h : List.Forall₂ (Scaled A) es fs) :
    gather argsort n x prev fs = (gather argsort n x prev es).map (timesGathered A) := by
  have hw : window argsort n x es = window argsort n x fs := by
    unfold window
    rw [h.length_eq, scaled_looks A x h]
  unfold gather
  rw [← hw]
  cases window argsort n x es with
  | error => rfl
  | ok p => exact scaled_loop A x h p.2 p.1 0 none ⟨p.1, [], prev, false⟩

theorem entries_scaled (A : ℕ → ℂ) (junk : ℕ → ℂ) (c : Conf) (b : ℕ → L1A) (looks : Looks) (hw : WellMade c b looks) :
    (∃ e, entries junk c b looks = .error e ∧ entries junk c (rescaled A b) looks = .error e) ∨
    ∃ es fs, entries junk c b looks = .ok es ∧ entries junk c (rescaled A b) looks = .ok fs ∧
      List.Forall₂ (Scaled A) es fs := by
  induction looks with
  | nil => right; exact ⟨[], [], rfl, rfl, .nil⟩
  | cons l rest ih =>
    obtain ⟨i, a, id⟩ := l
    obtain ⟨hn, hw⟩ := hw
    have ih := ih ⟨hn, fun l hl => hw l (by simp [hl])⟩
    obtain ⟨w1, w2⟩ := hw (i, a, id) (by simp)
    have hm : azimuth c (rescaled A b id) = (azimuth c (b id)).map (timesBeams (A id)) := azimuth_mul c (b id) (A id)
    cases haz : azimuth c (b id) with
    | error e =>
      left
      refine ⟨e, ?_, ?_⟩
      · rw [entries, haz]
      · rw [entries, hm, haz]; rfl
    | ok beams =>
      have hm2 : azimuth c (rescaled A b id) = .ok (timesBeams (A id) beams) := by rw [hm, haz]; rfl
      rcases ih with ⟨e, e1, e2⟩ | ⟨es, fs, e1, e2, e3⟩
      · left
        exact ⟨e, by rw [entries, haz, e1], by rw [entries, hm2, e2]⟩
      · right
        refine ⟨_, _, by rw [entries, haz, e1], by rw [entries, hm2, e2], .cons ?_ e3⟩
        obtain ⟨row, hrow⟩ := written c (b id) i hn w1 w2 beams haz
        refine ⟨rfl, rfl, ?_, rfl⟩
        simp only [stackBurst, List.getElem?_map]
        by_cases hi : i < c.pulses
        · simp [List.getElem?_range hi, hrow, timesBeams]
        · simp [List.getElem?_eq_none (show (List.range c.pulses).length ≤ i by simpa using hi)]

theorem compress_mul (zp ns : ℕ) (shift : ℝ) (A : ℂ) (beam : ℕ → ℂ) (k : ℕ) :
    compress zp ns (applyShift ns shift (fun s => A * beam s)) k = ‖A‖ ^ 2 * compress zp ns (applyShift ns shift beam) k := by
  unfold compress compressIq
  have : pad ns (applyShift ns shift (fun s => A * beam s)) = fun i => A * pad ns (applyShift ns shift beam) i := by
    funext i
    unfold pad applyShift
    split
    · ring
    · simp
  rw [this]
  unfold fftshift
  rw [dft_mul, norm_mul, mul_pow]

theorem compressed_scaled (A : ℕ → ℂ) (a : ℝ) (hA : ∀ id, ‖A id‖ = a) (c : Conf) (b : ℕ → L1A) (s : Surf) (row : Row ℝ (ℕ → ℂ)) :
    compressed c (rescaled A b) s (timesRow A row) = (compressed c b s row).map (a ^ 2 * ·) := by
  unfold compressed
  rw [List.map_map]
  apply List.map_congr_left
  intro k _
  show compress _ _ (applyShift _ (shiftOf c b s row) (fun i => A row.burst * row.beam i)) k = _
  rw [compress_mul, hA]
  rfl

theorem maskInput_scaled (A : ℕ → ℂ) (a : ℝ) (hA : ∀ id, ‖A id‖ = a) (c : Conf) (b : ℕ → L1A) (s : Surf) (rows : List (Row ℝ (ℕ → ℂ))) :
    maskInput c (rescaled A b) s (rows.map (timesRow A)) =
      { maskInput c b s rows with beams := (maskInput c b s rows).beams.map (List.map (a ^ 2 * ·)) } := by
  unfold maskInput
  congr 1
  · simp
  · funext i
    rw [List.getElem?_map, Option.map_map]
    rfl
  · funext i
    rw [List.getElem?_map, Option.map_map]
    rfl
  · rw [List.map_map, List.map_map]
    apply List.map_congr_left
    intro row _
    exact compressed_scaled A a hA c b s row

theorem zipWith_scaled (x : ℝ) (l : List ℝ) (m : List Bool) :
    List.zipWith (fun v (b : Bool) => v * (if b then (1 : ℝ) else 0)) (l.map (x * ·)) m =
      (List.zipWith (fun v (b : Bool) => v * (if b then (1 : ℝ) else 0)) l m).map (x * ·) := by
  induction l generalizing m with
  | nil => rfl
  | cons v l ih =>
    cases m with
    | nil => rfl
    | cons b m => simp only [List.map_cons, List.zipWith_cons_cons, ih, mul_assoc]

theorem applyMask_scaled (x : ℝ) (i : MaskInput ℝ) (m : List (List Bool)) :
    applyMask { i with beams := i.beams.map (List.map (x * ·)) } m = (applyMask i m).map (List.map (x * ·)) := by
  unfold applyMask
  dsimp only
  generalize m.take i.stackSize = m
  induction i.beams generalizing m with
  | nil => rfl
  | cons b bs ih =>
    cases m with
    | nil => rfl
    | cons r m => simp only [List.map_cons, List.zipWith_cons_cons, ih, zipWith_scaled]

theorem masking_scaled (round : ℝ → ℤ) (c : MaskConf ℝ) (i : MaskInput ℝ) (x : ℝ) :
    masking round c { i with beams := i.beams.map (List.map (x * ·)) } =
      (masking round c i).map (fun m => { m with beams := m.beams.map (List.map (x * ·)) }) := by
  unfold masking
  split
  · have h1 : geometryMask round c { i with beams := i.beams.map (List.map (x * ·)) } = geometryMask round c i := rfl
    have h2 : angleMask c { i with beams := i.beams.map (List.map (x * ·)) } = angleMask c i := rfl
    rw [h1, h2]
    cases combineMasks (geometryMask round c i) (ambiguityMask c) (angleMask c i) with
    | error => rfl
    | ok p =>
      show Except.ok _ = Except.ok _
      dsimp only
      rw [applyMask_scaled]
  · rfl

/-- A beam with its powers multiplied. -/
def timesBeam (x : ℝ) (b : Multilook.Beam ℝ) : Multilook.Beam ℝ := { b with power := b.power.map (x * ·) }

/-- The state of the loop with its sum multiplied. -/
def timesAcc (x : ℝ) (a : Multilook.Acc ℝ) : Multilook.Acc ℝ := { a with sum := a.sum.map (x * ·) }

theorem turn_scaled (av : Bool) (n : ℕ) (x : ℝ) (a : Multilook.Acc ℝ) (i : ℕ) (b : Multilook.Beam ℝ) :
    Multilook.turn av n (timesAcc x a) i (timesBeam x b) = timesAcc x (Multilook.turn av n a i b) := by
  unfold Multilook.turn
  have hi : Multilook.increments av n (timesBeam x b) = Multilook.increments av n b := rfl
  have hv : (timesBeam x b).vector = b.vector := rfl
  rw [hv]
  split
  · dsimp only
    rw [hi]
    unfold timesAcc
    dsimp only
    congr 1
    rw [List.zipWith_map_left]
    have h1 : ∀ (p : List ℝ) (m : List ℕ), List.zipWith (fun (p : ℝ) (m : ℕ) => p * (m : ℝ)) (p.map (x * ·)) m =
        (List.zipWith (fun (p : ℝ) (m : ℕ) => p * (m : ℝ)) p m).map (x * ·) := by
      intro p
      induction p with
      | nil => intro m; rfl
      | cons v p ih =>
        intro m
        cases m with
        | nil => rfl
        | cons k m => simp only [List.map_cons, List.zipWith_cons_cons, ih, mul_assoc]
    have h2 : (timesBeam x b).power = b.power.map (x * ·) := rfl
    rw [h2, h1]
    generalize List.zipWith (fun (p : ℝ) (m : ℕ) => p * (m : ℝ)) b.power (Multilook.increments av n b) = q
    induction a.sum generalizing q with
    | nil => rfl
    | cons v s ih =>
      cases q with
      | nil => rfl
      | cons y q => simp only [List.map_cons, List.zipWith_cons_cons, ih, mul_add]
  · rfl

theorem loop_scaled (av : Bool) (n : ℕ) (x : ℝ) (beams : List (Multilook.Beam ℝ)) (i : ℕ) (a : Multilook.Acc ℝ) :
    Multilook.loop av n i (timesAcc x a) (beams.map (timesBeam x)) = timesAcc x (Multilook.loop av n i a beams) := by
  induction beams generalizing i a with
  | nil => rfl
  | cons b rest ih => rw [List.map_cons, Multilook.loop, Multilook.loop, turn_scaled, ih]

theorem compute_scaled (av : Bool) (n looks : ℕ) (x : ℝ) (beams : List (Multilook.Beam ℝ)) :
    Multilook.compute av n looks (beams.map (timesBeam x)) =
      { Multilook.compute av n looks beams with waveform := times (x) (Multilook.compute av n looks beams).waveform } := by
  have h0 : (⟨List.replicate n 0, List.replicate n 0, 0, none, none⟩ : Multilook.Acc ℝ) =
      timesAcc x ⟨List.replicate n 0, List.replicate n 0, 0, none, none⟩ := by
    simp [timesAcc]
  have hl := loop_scaled av n x beams 0 ⟨List.replicate n 0, List.replicate n 0, 0, none, none⟩
  rw [← h0] at hl
  unfold Multilook.compute
  rw [hl]
  generalize Multilook.loop av n 0 ⟨List.replicate n 0, List.replicate n 0, 0, none, none⟩ beams = a
  have hw : List.zipWith Multilook.divide (a.sum.map (x * ·)) a.counter = times x (List.zipWith Multilook.divide a.sum a.counter) := by
    generalize a.counter = ct
    induction a.sum generalizing ct with
    | nil => rfl
    | cons v s ih =>
      cases ct with
      | nil => rfl
      | cons k ct =>
        simp only [List.map_cons, List.zipWith_cons_cons, ih, times, List.cons.injEq, and_true]
        unfold Multilook.divide
        split
        · rfl
        · simp [mul_div_assoc]
  have hvec : (beams.map (timesBeam x)).map (·.vector) = beams.map (·.vector) := by
    rw [List.map_map]; rfl
  have hlook : ∀ k : ℕ, ((beams.map (timesBeam x))[k]?).map (·.look) = (beams[k]?).map (·.look) := by
    intro k; rw [List.getElem?_map, Option.map_map]; rfl
  have hseq : ∀ k : ℕ, ((beams.map (timesBeam x))[k]?).map (·.seqCount) = (beams[k]?).map (·.seqCount) := by
    intro k; rw [List.getElem?_map, Option.map_map]; rfl
  simp only [timesAcc]
  cases a.start with
  | none => simp only [hw]
  | some st =>
    cases a.stop with
    | none => simp only [hw]
    | some sp => simp only [hw, hvec, hlook, hseq, List.length_map]

theorem lookBeams_scaled (A : ℕ → ℂ) (x : ℝ) (rows : List (Row ℝ (ℕ → ℂ))) (m : Masked ℝ) :
    lookBeams (rows.map (timesRow A)) { m with beams := m.beams.map (List.map (x * ·)) } =
      (lookBeams rows m).map (timesBeam x) := by
  unfold lookBeams
  rw [List.zipIdx_map, List.map_map, List.map_map]
  apply List.map_congr_left
  intro p _
  simp only [Function.comp, Prod.map, timesRow, timesBeam, id]
  congr 1
  simp only [List.getD_eq_getElem?_getD, List.getElem?_map]
  cases m.beams[p.2]? <;> rfl

theorem fitCount_scaled (A : ℕ → ℂ) (c : Conf) (rows : List (Row ℝ (ℕ → ℂ))) :
    fitCount c (rows.map (timesRow A)) = fitCount c rows := by
  have : (fun i : ℕ => (((rows.map (timesRow A))[i]?).map (·.beamAngle)).getD 0) = fun i : ℕ => ((rows[i]?).map (·.beamAngle)).getD 0 := by
    funext i; rw [List.getElem?_map, Option.map_map]; rfl
  unfold fitCount
  dsimp only
  rw [List.length_map]
  simp only [List.getElem?_map, Option.map_map]
  rfl

/-! ## C124 -/

/-- **C124.**  If the echoes of all bursts are `a` times as strong, each with any phase of its own, then the same surfaces have
records, with the same mask, shifts, number of looks and so on, and every sample of the waveform is `a²` times as large. -/
theorem waveform_scales (argsort : List ℝ → List ℕ) (round : ℝ → ℤ) (junk : ℕ → ℂ) (c : Conf) (bursts : ℕ → L1A) (s : Surf)
    (prev : ℕ) (looks : Looks) (hw : WellMade c bursts looks) (A : ℕ → ℂ) (a : ℝ) (hA : ∀ id, ‖A id‖ = a) :
    match surface argsort round junk c bursts s prev looks with
    | .error e => surface argsort round junk c (rescaled A bursts) s prev looks = .error e
    | .ok none => surface argsort round junk c (rescaled A bursts) s prev looks = .ok none
    | .ok (some r) => ∃ r', surface argsort round junk c (rescaled A bursts) s prev looks = .ok (some r') ∧
        r'.out = { r.out with waveform := times (a ^ 2) r.out.waveform } ∧ r'.shifts = r.shifts ∧
        r'.masked.mask = r.masked.mask ∧ r'.masked.vector = r.masked.vector ∧ r'.gathered.closest = r.gathered.closest ∧
        r'.gathered = timesGathered A r.gathered ∧
        r'.masked = { r.masked with beams := r.masked.beams.map (List.map (a ^ 2 * ·)) } := by
  unfold surface
  rcases entries_scaled A junk c bursts looks hw with ⟨e, e1, e2⟩ | ⟨es, fs, e1, e2, e3⟩
  · rw [e1, e2]
  rw [e1, e2]
  dsimp only
  rw [scaled_gather A argsort c.looks (Real.pi / 2) prev e3]
  cases gather argsort c.looks (Real.pi / 2) prev es with
  | error => rfl
  | ok g =>
    simp only [Except.map, timesGathered]
    by_cases hs : g.size < c.looks / 2
    · simp only [if_pos hs]
    · simp only [if_neg hs]
      rw [maskInput_scaled A a hA, masking_scaled]
      cases masking round (maskConf c) (maskInput c bursts s g.rows) with
      | error => rfl
      | ok m =>
        simp only [Except.map]
        rw [fitCount_scaled]
        by_cases h0 : fitCount c g.rows = 0
        · simp only [if_pos h0]
        · simp only [if_neg h0]
          by_cases h1 : fitCount c g.rows < 0
          · simp only [if_pos h1]
          · simp only [if_neg h1]
            refine ⟨_, rfl, ?_, ?_, rfl, rfl, rfl, rfl, rfl⟩
            · dsimp only
              rw [lookBeams_scaled, compute_scaled]
            · dsimp only
              rw [List.map_map]
              rfl

/-- The hypotheses of `waveform_scales` are met by the examples, whose waveform is not zero: with the echoes of the second burst turned by a
quarter of a cycle the peak stays as it was. -/
example (exact : Bool) (argsort : List ℝ → List ℕ) (ha : IsArgsort argsort) :
    ∃ r, surface argsort (fun x => ⌊x + 1 / 2⌋) (fun _ => 0) (demoConf exact)
        (rescaled (fun id => if id = 0 then 3 else 3 * Complex.I) (demoBurst 1)) demoSurf 0 [(0, 0, 0), (1, 1, 1)] = .ok (some r) ∧
      r.out.waveform[8]? = some (some 72) := by
  have hw : WellMade (demoConf exact) (demoBurst 1) [(0, 0, 0), (1, 1, 1)] := by
    refine ⟨by simp [demoConf], ?_⟩
    intro l hl
    simp only [List.mem_cons, List.not_mem_nil, or_false] at hl
    rcases hl with rfl | rfl <;> simp [demoBurst, demoConf, azBurst, Azimuth.TrendOk]
  obtain ⟨r, h1, h2, _⟩ := demo_surface exact argsort ha 1 (by norm_num)
  have := waveform_scales argsort (fun x => ⌊x + 1 / 2⌋) (fun _ => 0) (demoConf exact) (demoBurst 1) demoSurf 0 [(0, 0, 0), (1, 1, 1)] hw
    (fun id => if id = 0 then 3 else 3 * Complex.I) 3 (by intro id; split <;> simp)
  rw [h1] at this
  obtain ⟨r', g1, g2, _⟩ := this
  refine ⟨r', g1, ?_⟩
  rw [g2]
  simp only [times, List.getElem?_map, h2, Option.map_some]
  norm_num

end Dedop.Chain
