import Verif.Whole.StackFile
import Verif.Whole.Distorted

/-!
# The looks of the products as sums over the pulses, and the superposition of echoes (C170, C171)
-/
namespace Dedop.Whole

open Real Process

/-! ## Specification -/

/-- The echoes of a record as calibrated (once). -/
noncomputable def Raw.corrected (c : Conf) (r : Raw) : ℕ → ℕ → ℂ :=
  Calib.calibrate c.cal1 c.cal2 c.samples r.agc r.sig0Cal r.power r.phase (r.gprw c.table) r.wave

/-- Sample `s` of the pulses of a record, each turned by the phase which the satellite's motion along the direction `θ` gives it, weighted with the azimuth
window, added and divided by the root of their number. -/
noncomputable def steered (c : Conf) (r : Raw) (θ : ℝ) (s : ℕ) : ℂ :=
  (∑ p ∈ Finset.range c.pulses, Complex.exp (-(Complex.I * (4 * π / c.wavelength * ‖r.vel‖ * c.pri * Real.cos θ * p : ℝ))) *
    (r.corrected c p s * (c.window p : ℂ))) / (√c.pulses : ℝ)

/-- Sample `j` of a look: the spectrum `x` of the pulse, shifted by `shift` samples, padded, as a sum over the samples `x`. -/
noncomputable def focused (c : Conf) (shift : ℝ) (x : ℕ → ℂ) (j : ℕ) : ℂ :=
  (∑ s ∈ Finset.range c.samples, Complex.exp (2 * π * Complex.I * (shift * s / c.samples)) * x s *
    Complex.exp (-(2 * π * Complex.I * ((((j + (c.zp * c.samples - c.zp * c.samples / 2)) % (c.zp * c.samples) : ℕ) : ℂ) * s / (c.zp * c.samples))))) /
    (√(c.zp * c.samples) : ℝ)

/-- A record without its echoes, all else (also the calibration) as it is. -/
def Raw.mute (r : Raw) : Raw := { r with i := fun _ _ => 0, q := fun _ _ => 0 }

/-- The echoes of `r` are `a` times those of `r1` and `b` times those of `r2`; in all else the three are the same. -/
structure Mixed (a b : ℝ) (r1 r2 r : Raw) : Prop where
  first : r1.mute = r.mute
  second : r2.mute = r.mute
  i : ∀ p s, r.i p s = a * r1.i p s + b * r2.i p s
  q : ∀ p s, r.q p s = a * r1.q p s + b * r2.q p s

/-! ## Lemmas -/

/-- Rows with the beams from which they were taken. -/
theorem rows_beams {argsort : List ℝ → List ℕ} {round : ℝ → ℤ} {junk : ℕ → ℂ} {c : Chain.Conf} {bursts : ℕ → Chain.L1A} {s : Chain.Surf}
    {prev : ℕ} {looks : Chain.Looks} (hw : Chain.WellMade c bursts looks) {r : Chain.Result}
    (h : Chain.surface argsort round junk c bursts s prev looks = .ok (some r)) :
    ∀ row ∈ r.gathered.rows, ∃ l ∈ looks, row.burst = l.2.2 ∧ (bursts l.2.2).angles[l.1]? = some row.beamAngle ∧
      ∃ beams, Chain.azimuth c (bursts l.2.2) = .ok beams ∧ beams l.1 = some row.beam := by
  obtain ⟨es, h1, h2⟩ := surface_gather h
  refine Chain.gather_rows (fun row => ∃ l ∈ looks, row.burst = l.2.2 ∧ (bursts l.2.2).angles[l.1]? = some row.beamAngle ∧
      ∃ beams, Chain.azimuth c (bursts l.2.2) = .ok beams ∧ beams l.1 = some row.beam) argsort c.looks _ prev es ?_ _ h2
  intro e he row hrow
  obtain ⟨l, hl, beams, hb, rfl⟩ := Chain.entries_mem junk c bursts looks es h1 e he
  obtain ⟨w1, w2⟩ := hw.2 l hl
  obtain ⟨br, hbr⟩ := Chain.written c (bursts l.2.2) l.1 hw.1 w1 w2 beams hb
  unfold Stack.gatherRow at hrow
  simp only [Chain.stackBurst, List.getElem?_map] at hrow
  by_cases hi : l.1 < c.pulses
  · rw [List.getElem?_range hi] at hrow
    simp only [Option.map_some, hbr, Option.getD_some] at hrow
    split at hrow
    · rename_i e1 e2
      cases hrow
      simp only [Option.some.injEq] at e1
      subst e1
      exact ⟨l, hl, rfl, e2, beams, hb, hbr⟩
    · cases hrow
  · rw [List.getElem?_eq_none (show (List.range c.pulses).length ≤ l.1 by simpa using hi)] at hrow
    simp at hrow

/-- The middle row of the transform is the sum. -/
theorem fft_middle (n : ℕ) (hn : 0 < n) (x : ℕ → ℕ → ℂ) (s : ℕ) :
    Azimuth.fftAzimuth n x (n / 2) s = (∑ p ∈ Finset.range n, x p s) / (√n : ℝ) := by
  unfold Azimuth.fftAzimuth Signal.fftshift
  have : (n / 2 + (n - n / 2)) % n = 0 := by
    rw [show n / 2 + (n - n / 2) = n by omega, Nat.mod_self]
  rw [this]
  unfold Signal.dft
  congr 1
  refine Finset.sum_congr rfl fun p _ => ?_
  rw [show ((0 : ℕ) : ℤ) = 0 from rfl, Signal.twiddle_zero_left, mul_one]

theorem compressIq_focused (c : Conf) (hz : 0 < c.zp) (shift : ℝ) (x : ℕ → ℂ) (j : ℕ) :
    Signal.compressIq c.zp c.samples (Signal.applyShift c.samples shift x) j = focused c shift x j := by
  unfold Signal.compressIq Signal.fftshift Signal.dft focused
  have hsum := Signal.sum_pad c.zp c.samples hz (Signal.applyShift c.samples shift x)
    (fun i v => v * Signal.twiddle (c.zp * c.samples) ((j + (c.zp * c.samples - c.zp * c.samples / 2)) % (c.zp * c.samples) : ℕ) i) (by simp)
  rw [hsum]
  congr 1
  · refine Finset.sum_congr rfl fun s _ => ?_
    unfold Signal.applyShift Signal.twiddle
    congr 1
    · congr 2
      ring
    · push_cast
      rfl
  · push_cast
    rfl

/-- A row of a record as a sum over the pulses. -/
theorem row_steered {c : Conf} (hn : 0 < c.pulses) (hx : c.exactMethod = true) {file : ℕ → Raw} {mem : ℕ → Chain.L1A} {l : ℕ × ℤ × ℕ}
    {row : Stack.Row ℝ (ℕ → ℂ)} (hb : body (mem l.2.2) = base c file 1 l.2.2) (ha : (mem l.2.2).angles[l.1]? = some row.beamAngle)
    {beams : Azimuth.Beams} (hz : Chain.azimuth c.chain (mem l.2.2) = .ok beams) (hr : beams l.1 = some row.beam) (s : ℕ) :
    row.beam s = steered c (file l.2.2) row.beamAngle s := by
  unfold Chain.azimuth at hz
  rw [if_pos (show c.chain.exactMethod = true from hx)] at hz
  cases hz
  unfold Azimuth.exact at hr
  rw [show (Chain.azBurst c.chain (mem l.2.2)).angles[l.1]? = some row.beamAngle from ha] at hr
  simp only [Option.some.injEq] at hr
  rw [← hr]
  show Azimuth.fftAzimuth c.pulses _ (c.pulses / 2) s = _
  rw [fft_middle _ hn]
  have hv : (mem l.2.2).velocity = ‖(file l.2.2).vel‖ := (congrArg Chain.L1A.velocity hb :)
  have hp : (mem l.2.2).pri = c.pri := (congrArg Chain.L1A.pri hb :)
  have hw : (mem l.2.2).wfm = (file l.2.2).corrected c := (congrArg Chain.L1A.wfm hb :)
  unfold steered
  congr 1
  refine Finset.sum_congr rfl fun p _ => ?_
  unfold Azimuth.phaseShift Chain.azBurst
  dsimp only
  rw [hv, hp, hw]
  rfl

/-! ## C170 -/

/-- What C170 says of a record. -/
def Steered (c : Conf) (file : ℕ → Raw) (rec : Record) : Prop :=
  ∀ row ∈ rec.result.gathered.rows, ¬ AfterGap c file row.burst → ∀ s, row.beam s = steered c (file row.burst) row.beamAngle s

/-- **C170.**  With the exact azimuth method every look in the products is the sum of the calibrated pulses of its burst, steered to the angle of
the look.  (A burst after a gap is calibrated twice, C44.) -/
theorem looks_steered (c : Conf) (hn : 0 < c.pulses) (hx : c.exactMethod = true) (o : World) (ho : o.Steady) (alg : Surface.Alg)
    (file : ℕ → Raw) (n : ℕ) (rec : Record)
    (hr : rec ∈ (process c o alg file n).state.l1b ∨ rec ∈ (process c o alg file n).state.l1bs) : Steered c file rec := by
  have hA : Alike (echoTwin (fun _ b1 b2 => silent b2 = silent b1) (fun r1 r2 => r2.counter = r1.counter ∧ Steered c file r1) (AfterGap c file))
      c { c with cal1 := c.cal1, cal2 := c.cal2 } o { o with junk := o.junk } file file := by
    refine alike_switched c c.cal1 c.cal2 (AfterGap c file) hn o ho o.junk file file (fun _ => rfl) _ _ (fun _ _ _ h => h) (fun _ => rfl) ?_ ?_
      (fun _ => rfl) ?_ ?_
    · intro id b1 b2 h
      exact h
    · intro id b1 b2 angles trend h
      show ({ silent b2 with angles := angles, trend := trend } : Chain.L1A) = { silent b1 with angles := angles, trend := trend }
      rw [h]
    · intro f m1 m2 p1 p2 looks r r' hm hw hk e1 e2 hr n loc g
      refine ⟨rfl, ?_⟩
      intro row hrow hno s
      obtain ⟨x, ex, gx⟩ := Chain.surfaceAw_ok_some e1
      have hrow' : row ∈ x.gathered.rows := by
        have hrow : row ∈ r.gathered.rows := hrow
        rw [gx] at hrow; exact hrow
      obtain ⟨l, hl, q1, q2, beams, q3, q4⟩ := rows_beams hw ex row hrow'
      obtain ⟨k, _, hk1, b1, _⟩ := hk l hl
      rw [q1] at hno ⊢
      have hk1 : k = 1 := hk1.resolve_right hno
      subst hk1
      exact row_steered hn hx b1 q2 q3 q4 s
    · intro r1 r2 h
      exact h.1
  have q := process_twin hA (a1 := alg) (a2 := alg) rfl n (open_quiet c file file (fun _ => rfl) n) (fun d _ s _ _ b s' _ f _ => trivial)
    (fun id hid => gap_is_late c o alg file n id hid)
  have key : ∀ (l1 l2 : List Record), List.Forall₂ (fun r1 r2 : Record => r2.counter = r1.counter ∧ Steered c file r1) l1 l2 →
      ∀ r ∈ l1, Steered c file r := by
    intro l1 l2 h
    induction h with
    | nil => simp
    | cons h _ ih =>
      intro r hr
      rcases List.mem_cons.1 hr with rfl | hr
      · exact h.2
      · exact ih r hr
  rcases hr with hr | hr
  · exact key _ _ q.state.l1b rec hr
  · exact key _ _ q.state.l1bs rec hr

/-- How a record was made. -/
theorem record_parts (c : Conf) (o : World) (alg : Surface.Alg) (file : ℕ → Raw) (n : ℕ) (hn : 0 < c.pulses) (rec : Record)
    (hr : rec ∈ (process c o alg file n).state.l1b ∨ rec ∈ (process c o alg file n).state.l1bs) :
    ∃ bursts s, rec.result.shifts = rec.result.gathered.rows.map (Chain.shiftOf c.chain bursts s) ∧
    Stack.masking o.round (Chain.maskConf c.chain) (Chain.maskInput c.chain bursts s rec.result.gathered.rows) = .ok rec.result.masked ∧
    rec.result.gathered.rows.length ≤ c.looks ∧
    (c.weighting = false → rec.result.out = Multilook.compute c.avoidZeros (c.samples * c.zp) c.looks
      (Chain.lookBeams rec.result.gathered.rows rec.result.masked)) := by
  obtain ⟨its, h1, h2, h3, hp, _, _⟩ := process_products c o alg file n
  obtain ⟨s2, ho⟩ := hp.origin rec hr
  obtain ⟨looks, f, e1, _⟩ := ho.parts hn
  obtain ⟨r, hr, hx⟩ := Chain.surfaceAw_ok_some e1
  obtain ⟨p1, p2, p3, p4, p5⟩ := stack_parts hr
  refine ⟨s2.mem, place f, ?_, ?_, ?_, ?_⟩
  · rw [hx]; exact p1
  · rw [hx]; exact p2
  · rw [hx]; exact (le_of_eq p3).trans p4
  · intro hoff
    rw [hoff, Chain.weighting_off] at e1
    exact surface_out e1

/-- The sample in the stack. -/
noncomputable def stackAt (c : Conf) (rec : Record) (i j : ℕ) : ℂ := ((stackIq c rec).getD i []).getD j 0

theorem stackAt_eq (c : Conf) (hz : 0 < c.zp) (rec : Record) (i j : ℕ) (hj : j < c.samples * c.zp) (row : Stack.Row ℝ (ℕ → ℂ)) (x : ℝ)
    (h1 : rec.result.gathered.rows[i]? = some row) (h2 : rec.result.shifts[i]? = some x) :
    (stackIq c rec)[i]?.bind (·[j]?) = some (focused c x row.beam j) := by
  unfold stackIq
  rw [List.getElem?_zipWith, h1, h2]
  show ((List.range (c.samples * c.zp)).map _)[j]? = _
  rw [List.getElem?_map, List.getElem?_range hj, Option.map_some, compressIq_focused c hz]

/-- **C170.**  With the exact azimuth method every complex sample of the stack of a record is the double sum of the calibrated echoes of one burst: over the
pulses, steered to the angle of the look, and over the samples, with the shift of the geometry corrections and the padding. -/
theorem stack_from_echoes (c : Conf) (hn : 0 < c.pulses) (hz : 0 < c.zp) (hx : c.exactMethod = true) (o : World) (ho : o.Steady)
    (alg : Surface.Alg) (file : ℕ → Raw) (n : ℕ) (rec : Record) (hr : rec ∈ (process c o alg file n).state.l1b ∨ rec ∈ (process c o alg file n).state.l1bs) (i : ℕ)
    (row : Stack.Row ℝ (ℕ → ℂ)) (hi : rec.result.gathered.rows[i]? = some row) (hgap : ¬ AfterGap c file row.burst) :
    ∃ shift, rec.result.shifts[i]? = some shift ∧ ∀ j < c.samples * c.zp,
      (stackIq c rec)[i]?.bind (·[j]?) = some (focused c shift (steered c (file row.burst) row.beamAngle) j) := by
  obtain ⟨bursts, s, p1, _⟩ := record_parts c o alg file n hn rec hr
  have hs : rec.result.shifts[i]? = some (Chain.shiftOf c.chain bursts s row) := by
    rw [p1, List.getElem?_map, hi]; rfl
  refine ⟨_, hs, fun j hj => ?_⟩
  rw [stackAt_eq c hz rec i j hj row _ hi hs]
  have := looks_steered c hn hx o ho alg file n rec hr row (List.mem_of_getElem? hi) hgap
  rw [funext this]

/-! ## C171 -/

theorem cal1_mix (on : Bool) (agc s0 : ℝ) (power phase : ℕ → ℝ) (a b : ℂ) (w1 w2 : ℕ → ℕ → ℂ) :
    Calib.cal1 on agc s0 power phase (fun p s => a * w1 p s + b * w2 p s) =
      fun p s => a * Calib.cal1 on agc s0 power phase w1 p s + b * Calib.cal1 on agc s0 power phase w2 p s := by
  funext p s
  unfold Calib.cal1
  split
  · ring
  · rfl

theorem cal2_mix (on : Bool) (N : ℕ) (gain : ℕ → ℝ) (a b : ℂ) (w1 w2 : ℕ → ℕ → ℂ) :
    Calib.cal2 on N gain (fun p s => a * w1 p s + b * w2 p s) =
      fun p s => a * Calib.cal2 on N gain w1 p s + b * Calib.cal2 on N gain w2 p s := by
  have hfft : ∀ p, Calib.fft N (fun s => a * w1 p s + b * w2 p s) = fun k => a * Calib.fft N (w1 p) k + b * Calib.fft N (w2 p) k := by
    intro p
    funext k
    unfold Calib.fft
    rw [Finset.mul_sum, Finset.mul_sum, ← Finset.sum_add_distrib]
    exact Finset.sum_congr rfl (fun n _ => by ring)
  funext p s
  unfold Calib.cal2
  split
  · rw [hfft]
    unfold Calib.ifft
    rw [← mul_div_assoc, ← mul_div_assoc, ← add_div, Finset.mul_sum, Finset.mul_sum, ← Finset.sum_add_distrib]
    congr 1
    refine Finset.sum_congr rfl (fun n _ => ?_)
    unfold Calib.ifftshift Signal.fftshift
    ring
  · rfl

theorem corrected_mix (c : Conf) {a b : ℝ} {r1 r2 r : Raw} (h : Mixed a b r1 r2 r) (p s : ℕ) :
    r.corrected c p s = a * r1.corrected c p s + b * r2.corrected c p s := by
  have e : ∀ x : Raw, x.corrected c = Calib.calibrate c.cal1 c.cal2 c.samples x.mute.agc x.mute.sig0Cal x.mute.power x.mute.phase
      (x.mute.gprw c.table) (fun p s => Calib.echo x.mute.agc (x.i p s) (x.q p s)) := fun _ => rfl
  rw [e r, e r1, e r2, h.first, h.second]
  have hw : (fun p s => Calib.echo r.mute.agc (r.i p s) (r.q p s)) =
      fun p s => (a : ℂ) * Calib.echo r.mute.agc (r1.i p s) (r1.q p s) + (b : ℂ) * Calib.echo r.mute.agc (r2.i p s) (r2.q p s) := by
    funext p s
    unfold Calib.echo
    rw [h.i, h.q]
    push_cast
    ring
  rw [hw]
  unfold Calib.calibrate
  rw [cal1_mix, cal2_mix]

theorem steered_mix (c : Conf) {a b : ℝ} {r1 r2 r : Raw} (h : Mixed a b r1 r2 r) (θ : ℝ) (s : ℕ) :
    steered c r θ s = a * steered c r1 θ s + b * steered c r2 θ s := by
  have e1 : r1.vel = r.vel := (congrArg Raw.vel h.first :)
  have e2 : r2.vel = r.vel := (congrArg Raw.vel h.second :)
  unfold steered
  rw [e1, e2, ← mul_div_assoc, ← mul_div_assoc, ← add_div, Finset.mul_sum, Finset.mul_sum, ← Finset.sum_add_distrib]
  congr 1
  refine Finset.sum_congr rfl fun p _ => ?_
  rw [corrected_mix c h]
  ring

theorem focused_mix (c : Conf) (shift : ℝ) (a b : ℂ) (x y : ℕ → ℂ) (j : ℕ) :
    focused c shift (fun s => a * x s + b * y s) j = a * focused c shift x j + b * focused c shift y j := by
  unfold focused
  rw [← mul_div_assoc, ← mul_div_assoc, ← add_div, Finset.mul_sum, Finset.mul_sum, ← Finset.sum_add_distrib]
  congr 1
  refine Finset.sum_congr rfl fun p _ => ?_
  ring

theorem afterGap_quiet (c : Conf) (f1 f2 : ℕ → Raw) (hf : ∀ id, (f2 id).quiet = (f1 id).quiet) : AfterGap c f2 = AfterGap c f1 := by
  have : ∀ f : ℕ → Raw, AfterGap c f = AfterGap c (fun id => (f id).quiet) := fun _ => rfl
  rw [this f2, this f1, funext hf]

/-- Records with the same outline have the same looks and shifts. -/
theorem outline_row {r1 r2 : Record} (h : r2.outline = r1.outline) (i : ℕ) (row : Stack.Row ℝ (ℕ → ℂ))
    (hi : r1.result.gathered.rows[i]? = some row) :
    ∃ row', r2.result.gathered.rows[i]? = some row' ∧ row'.burst = row.burst ∧ row'.beamAngle = row.beamAngle := by
  have h1 : r2.result.gathered.rows.map (fun row => ({ row with beam := fun _ => 0 } : Stack.Row ℝ (ℕ → ℂ))) =
      r1.result.gathered.rows.map (fun row => ({ row with beam := fun _ => 0 } : Stack.Row ℝ (ℕ → ℂ))) :=
    congrArg (fun r : Record => r.result.gathered.rows) h
  have h2 := congrArg (fun l => l[i]?) h1
  rw [List.getElem?_map, List.getElem?_map, hi, Option.map_some] at h2
  cases h3 : r2.result.gathered.rows[i]? with
  | none => rw [h3] at h2; cases h2
  | some row' =>
    rw [h3, Option.map_some, Option.some.injEq] at h2
    exact ⟨row', rfl, (congrArg Stack.Row.burst h2 :), (congrArg Stack.Row.beamAngle h2 :)⟩

theorem mixed_quiet {a b : ℝ} {r1 r2 r : Raw} (h : Mixed a b r1 r2 r) : r1.quiet = r.quiet ∧ r2.quiet = r.quiet :=
  ⟨(congrArg Raw.quiet h.first :), (congrArg Raw.quiet h.second :)⟩

/-- The records of runs over files that differ in their echoes correspond to each other. -/
theorem records_alike (c : Conf) (hn : 0 < c.pulses) (o : World) (ho : o.Steady) (alg : Surface.Alg) (f1 f2 : ℕ → Raw)
    (hf : ∀ id, (f2 id).quiet = (f1 id).quiet) (prod : State → List Record) (hprod : prod = State.l1b ∨ prod = State.l1bs) (n k : ℕ)
    (rec : Record) (hk : (prod (process c o alg f1 n).state)[k]? = some rec) :
    ∃ rec', (prod (process c o alg f2 n).state)[k]? = some rec' ∧ rec'.outline = rec.outline := by
  have h : (prod (process c o alg f2 n).state).map Record.outline = (prod (process c o alg f1 n).state).map Record.outline := by
    rcases hprod with rfl | rfl
    · exact (echoes_only_power c hn o ho o.junk alg f1 f2 hf n).2.1
    · exact (echoes_only_power c hn o ho o.junk alg f1 f2 hf n).2.2
  have h2 := congrArg (fun l => l[k]?) h
  rw [List.getElem?_map, List.getElem?_map, hk, Option.map_some] at h2
  cases h3 : (prod (process c o alg f2 n).state)[k]? with
  | none => rw [h3] at h2; cases h2
  | some rec' =>
    rw [h3, Option.map_some, Option.some.injEq] at h2
    exact ⟨rec', rfl, h2⟩

theorem mem_prod {s : State} {prod : State → List Record} (hprod : prod = State.l1b ∨ prod = State.l1bs) {k : ℕ} {rec : Record}
    (h : (prod s)[k]? = some rec) : rec ∈ s.l1b ∨ rec ∈ s.l1bs := by
  rcases hprod with rfl | rfl
  · exact Or.inl (List.mem_of_getElem? h)
  · exact Or.inr (List.mem_of_getElem? h)

/-- The weight of pulse `p` in row `k`. -/
noncomputable def pulseWeight (n : ℕ) (factor a : ℝ) (window : ℕ → ℝ) (k p : ℕ) : ℂ :=
  Complex.exp (-(Complex.I * (factor * Real.cos a * p : ℝ))) * (window p : ℂ) * Signal.twiddle n (((k + (n - n / 2)) % n : ℕ) : ℤ) p / (√n : ℝ)

/-- A row of the azimuth transform is a weighted sum of the pulses. -/
theorem fft_weights (n : ℕ) (factor a : ℝ) (window : ℕ → ℝ) (k : ℕ) (wfm : ℕ → ℕ → ℂ) (s : ℕ) :
    Azimuth.fftAzimuth n (Azimuth.phaseShift factor a fun p s => wfm p s * (window p : ℂ)) k s =
      ∑ p ∈ Finset.range n, pulseWeight n factor a window k p * wfm p s := by
  unfold pulseWeight Azimuth.fftAzimuth Signal.fftshift Signal.dft Azimuth.phaseShift
  rw [Finset.sum_div]
  refine Finset.sum_congr rfl fun p _ => ?_
  ring

/-- Either method of azimuth processing makes a look as a sum of the pulses, with weights which the echoes do not decide. -/
theorem azimuth_linear (c : Chain.Conf) (b0 : Chain.L1A) (j : ℕ) : ∃ w : ℕ → ℂ, ∀ b, silent b = silent b0 → ∀ beams br,
    Chain.azimuth c b = .ok beams → beams j = some br → ∀ s, br s = ∑ p ∈ Finset.range c.pulses, w p * b.wfm p s := by
  cases hx : c.exactMethod with
  | true =>
    cases ha : b0.angles[j]? with
    | none =>
      refine ⟨fun _ => 0, fun b hb beams br h1 h2 => ?_⟩
      have hang : b.angles = b0.angles := (congrArg Chain.L1A.angles hb :)
      unfold Chain.azimuth at h1
      rw [if_pos hx] at h1
      cases h1
      unfold Azimuth.exact at h2
      rw [show (Chain.azBurst c b).angles[j]? = none by rw [← ha, ← hang]; rfl] at h2
      cases h2
    | some a =>
      refine ⟨pulseWeight c.pulses (Chain.azBurst c b0).factor a c.window (c.pulses / 2), fun b hb beams br h1 h2 s => ?_⟩
      have hz : Chain.azBurst c b = Chain.azBurst c b0 := (congrArg (Chain.azBurst c) hb :)
      unfold Chain.azimuth at h1
      rw [if_pos hx] at h1
      cases h1
      unfold Azimuth.exact at h2
      rw [hz, show (Chain.azBurst c b0).angles[j]? = some a from ha] at h2
      simp only [Option.some.injEq] at h2
      rw [← h2]
      exact fft_weights _ _ _ _ _ _ s
  | false =>
    cases hn : Azimuth.nadirAngle c.pulses (Chain.azBurst c b0).trend (Chain.azBurst c b0).angles with
    | error e =>
      refine ⟨fun _ => 0, fun b hb beams br h1 h2 => ?_⟩
      have hz : Chain.azBurst c b = Chain.azBurst c b0 := (congrArg (Chain.azBurst c) hb :)
      unfold Chain.azimuth at h1
      rw [if_neg (by rw [hx]; decide)] at h1
      unfold Azimuth.approximate at h1
      rw [hz, hn] at h1
      cases h1
    | ok a =>
      refine ⟨pulseWeight c.pulses (Chain.azBurst c b0).factor a c.window
        (j + if (Chain.azBurst c b0).trend = 1 then c.pulses - (Chain.azBurst c b0).angles.length else 0), fun b hb beams br h1 h2 s => ?_⟩
      have hz : Chain.azBurst c b = Chain.azBurst c b0 := (congrArg (Chain.azBurst c) hb :)
      unfold Chain.azimuth at h1
      rw [if_neg (by rw [hx]; decide)] at h1
      unfold Azimuth.approximate at h1
      rw [hz, hn] at h1
      cases h1
      dsimp only at h2
      generalize (if (Chain.azBurst c b0).trend = 1 then c.pulses - (Chain.azBurst c b0).angles.length else 0) = off at h2 ⊢
      by_cases hj : j < c.pulses - off
      · rw [if_pos hj, Option.some.injEq] at h2
        rw [← h2]
        exact fft_weights _ _ _ _ _ _ s
      · rw [if_neg hj] at h2
        cases h2

/-- The rows of a stack come from consecutive entries. -/
theorem loop_get (x : ℝ) (es : List (Stack.Entry ℝ (ℕ → ℂ))) (off : ℕ) : ∀ (m k : ℕ) (best : Option ℝ) (g g' : Stack.Gathered ℝ (ℕ → ℂ)),
    Stack.gatherLoop x es off m k best g = .ok g' → g.rows.length = k →
    (∀ i row, g.rows[i]? = some row → ∃ e, es[i + off]? = some e ∧ Stack.gatherRow x e = .ok row) →
    ∀ i row, g'.rows[i]? = some row → ∃ e, es[i + off]? = some e ∧ Stack.gatherRow x e = .ok row := by
  intro m
  induction m with
  | zero =>
    intro k best g g' h _ hg
    rw [Stack.gatherLoop] at h
    cases h
    exact hg
  | succ m ih =>
    intro k best g g' h hk hg
    rw [Stack.gatherLoop] at h
    cases h1 : es[k + off]? with
    | none => rw [h1] at h; cases h
    | some e =>
      rw [h1] at h
      dsimp only at h
      cases h2 : Stack.gatherRow x e with
      | error => rw [h2] at h; cases h
      | ok row =>
        rw [h2] at h
        refine ih _ _ _ _ h (by simp [hk]) ?_
        intro i r hr
        dsimp only at hr
        rcases Nat.lt_trichotomy i k with hi | hi | hi
        · rw [List.getElem?_append_left (by omega)] at hr
          exact hg i r hr
        · subst hi
          rw [List.getElem?_append_right (by omega), hk, Nat.sub_self] at hr
          cases hr
          exact ⟨e, h1, h2⟩
        · rw [List.getElem?_eq_none (by simp; omega)] at hr
          cases hr

/-- Entries which differ in the beams only. -/
def Likewise (e f : Stack.Entry ℝ (ℕ → ℂ)) : Prop := e.index = f.index ∧ e.burst.beamAngles = f.burst.beamAngles ∧ e.burst.doppler = f.burst.doppler

theorem window_likewise (argsort : List ℝ → List ℕ) (n : ℕ) (x : ℝ) {es fs : List (Stack.Entry ℝ (ℕ → ℂ))} (h : List.Forall₂ Likewise es fs) :
    Stack.window argsort n x es = Stack.window argsort n x fs := by
  have hl : Stack.allLooks x es = Stack.allLooks x fs := by
    induction h with
    | nil => rfl
    | cons h _ ih =>
      have : ∀ e f, Likewise e f → Stack.lookAngle x e = Stack.lookAngle x f := by
        intro e f h
        unfold Stack.lookAngle
        rw [h.1, h.2.1, h.2.2]
      rw [Stack.allLooks, Stack.allLooks, this _ _ h, ih]
  unfold Stack.window
  rw [h.length_eq, hl]

/-- Entry by entry. -/
theorem entries_get (junk : ℕ → ℂ) (c : Chain.Conf) (b : ℕ → Chain.L1A) (looks : Chain.Looks) (es : List (Stack.Entry ℝ (ℕ → ℂ)))
    (h : Chain.entries junk c b looks = .ok es) : List.Forall₂ (fun (l : ℕ × ℤ × ℕ) e => ∃ beams, Chain.azimuth c (b l.2.2) = .ok beams ∧
      e = ⟨l.1, l.2.1, Chain.stackBurst junk c l.2.2 (b l.2.2) beams⟩) looks es := by
  induction looks generalizing es with
  | nil => cases h; exact .nil
  | cons l rest ih =>
    obtain ⟨i, a, id⟩ := l
    rw [Chain.entries] at h
    cases h1 : Chain.azimuth c (b id) with
    | error => rw [h1] at h; cases h
    | ok beams =>
      cases h2 : Chain.entries junk c b rest with
      | error => rw [h1, h2] at h; cases h
      | ok rs =>
        rw [h1, h2] at h
        cases h
        exact .cons ⟨beams, h1, rfl⟩ (ih rs h2)

/-- The rows of two stacks made of the same looks, of bursts which differ in their echoes. -/
theorem rows_pairwise {argsort : List ℝ → List ℕ} {round : ℝ → ℤ} {j1 j2 : ℕ → ℂ} {c : Chain.Conf} {m1 m2 : ℕ → Chain.L1A} {s : Chain.Surf}
    {p1 p2 : ℕ} {looks : Chain.Looks} (hw : Chain.WellMade c m1 looks) (hm : ∀ id, silent (m2 id) = silent (m1 id)) {r1 r2 : Chain.Result}
    (h1 : Chain.surface argsort round j1 c m1 s p1 looks = .ok (some r1)) (h2 : Chain.surface argsort round j2 c m2 s p2 looks = .ok (some r2))
    (i : ℕ) (row1 row2 : Stack.Row ℝ (ℕ → ℂ)) (e1 : r1.gathered.rows[i]? = some row1) (e2 : r2.gathered.rows[i]? = some row2) :
    ∃ l ∈ looks, row1.burst = l.2.2 ∧ row2.burst = l.2.2 ∧ (∃ beams, Chain.azimuth c (m1 l.2.2) = .ok beams ∧ beams l.1 = some row1.beam) ∧
      ∃ beams, Chain.azimuth c (m2 l.2.2) = .ok beams ∧ beams l.1 = some row2.beam := by
  obtain ⟨es, q1, g1⟩ := surface_gather h1
  obtain ⟨fs, q2, g2⟩ := surface_gather h2
  have f1 := entries_get _ _ _ _ _ q1
  have f2 := entries_get _ _ _ _ _ q2
  have hlike : List.Forall₂ Likewise es fs := by
    rw [List.forall₂_iff_get]
    have l1 := f1.length_eq
    have l2 := f2.length_eq
    refine ⟨by omega, fun k hk1 hk2 => ?_⟩
    obtain ⟨_, _, x1⟩ := (List.forall₂_iff_get.1 f1).2 k (by omega) hk1
    obtain ⟨_, _, x2⟩ := (List.forall₂_iff_get.1 f2).2 k (by omega) hk2
    rw [x1, x2]
    have hs := hm (looks.get ⟨k, by omega⟩).2.2
    exact ⟨rfl, (congrArg Chain.L1A.angles hs :).symm, (congrArg Chain.L1A.doppler hs :).symm⟩
  have hwin := window_likewise argsort c.looks (π / 2) hlike
  unfold Stack.gather at g1 g2
  rw [← hwin] at g2
  cases hx : Stack.window argsort c.looks (π / 2) es with
  | error => rw [hx] at g1; cases g1
  | ok p =>
    rw [hx] at g1 g2
    obtain ⟨size, off⟩ := p
    dsimp only at g1 g2
    obtain ⟨x, hx1, hx2⟩ := loop_get _ _ _ _ _ _ _ _ g1 rfl (by simp) i row1 e1
    obtain ⟨y, hy1, hy2⟩ := loop_get _ _ _ _ _ _ _ _ g2 rfl (by simp) i row2 e2
    have hlt : i + off < es.length := (List.getElem?_eq_some_iff.1 hx1).1
    have hlt2 : i + off < fs.length := (List.getElem?_eq_some_iff.1 hy1).1
    have l1 := f1.length_eq
    obtain ⟨b1, z1, x1⟩ := (List.forall₂_iff_get.1 f1).2 (i + off) (by omega) hlt
    obtain ⟨b2, z2, x2⟩ := (List.forall₂_iff_get.1 f2).2 (i + off) (by omega) hlt2
    set l := looks.get ⟨i + off, by omega⟩ with hl
    have hmem : l ∈ looks := List.get_mem _ _
    have y1 : x = es.get ⟨i + off, hlt⟩ := by
      have := List.getElem?_eq_getElem hlt
      rw [hx1] at this
      exact Option.some.inj this
    have y2 : y = fs.get ⟨i + off, hlt2⟩ := by
      have := List.getElem?_eq_getElem hlt2
      rw [hy1] at this
      exact Option.some.inj this
    rw [y1, x1] at hx2
    rw [y2, x2] at hy2
    have hw2 : Chain.WellMade c m2 looks := by
      refine ⟨hw.1, fun l hl => ?_⟩
      have h1 : (m2 l.2.2).angles = (m1 l.2.2).angles := (congrArg Chain.L1A.angles (hm l.2.2) :)
      have h2 : Chain.azBurst c (m2 l.2.2) = Chain.azBurst c (m1 l.2.2) := (congrArg (Chain.azBurst c) (hm l.2.2) :)
      rw [h1, h2]
      exact hw.2 l hl
    have key : ∀ (junk : ℕ → ℂ) (m : ℕ → Chain.L1A) (b : Azimuth.Beams) (row : Stack.Row ℝ (ℕ → ℂ)), Chain.WellMade c m looks →
        Chain.azimuth c (m l.2.2) = .ok b → Stack.gatherRow (π / 2) ⟨l.1, l.2.1, Chain.stackBurst junk c l.2.2 (m l.2.2) b⟩ = .ok row →
        row.burst = l.2.2 ∧ b l.1 = some row.beam := by
      intro junk m b row hw hz hrow
      obtain ⟨w1, w2⟩ := hw.2 l hmem
      obtain ⟨br, hbr⟩ := Chain.written c (m l.2.2) l.1 hw.1 w1 w2 b hz
      unfold Stack.gatherRow at hrow
      simp only [Chain.stackBurst, List.getElem?_map] at hrow
      by_cases hi : l.1 < c.pulses
      · rw [List.getElem?_range hi] at hrow
        simp only [Option.map_some, hbr, Option.getD_some] at hrow
        split at hrow
        · rename_i e1 e2
          cases hrow
          simp only [Option.some.injEq] at e1
          subst e1
          exact ⟨rfl, hbr⟩
        · cases hrow
      · rw [List.getElem?_eq_none (show (List.range c.pulses).length ≤ l.1 by simpa using hi)] at hrow
        simp at hrow
    obtain ⟨k1, k2⟩ := key j1 m1 b1 row1 hw z1 hx2
    obtain ⟨k3, k4⟩ := key j2 m2 b2 row2 hw2 z2 hy2
    exact ⟨l, hmem, k1, k3, ⟨b1, z1, k2⟩, ⟨b2, z2, k4⟩⟩

/-- The file with echoes which are 1 in sample `p` of pulse `p` and 0 elsewhere. -/
noncomputable def Raw.impulse (r : Raw) : Raw :=
  { r with i := fun p s => if p = s then Calib.pow10 (-r.agc / 20) else 0, q := fun _ _ => 0 }

theorem impulse_wave (r : Raw) (p s : ℕ) : r.impulse.wave p s = if p = s then 1 else 0 := by
  show Calib.echo r.agc (if p = s then Calib.pow10 (-r.agc / 20) else 0) 0 = _
  unfold Calib.echo
  have hp : (Calib.pow10 (-r.agc / 20) : ℂ) ≠ 0 := by
    have : 0 < Calib.pow10 (-r.agc / 20) := by unfold Calib.pow10; positivity
    exact_mod_cast this.ne'
  split
  · simp only [Complex.ofReal_zero, mul_zero, add_zero]
    exact div_self hp
  · simp

/-- **C171.**  For any of the methods of azimuth processing: the looks of the records are weighted sums of the calibrated pulses of their bursts, with the same
weights for all samples and for all files which differ in the echoes only. -/
theorem looks_linear (c : Conf) (hn : 0 < c.pulses) (o : World) (ho : o.Steady) (alg : Surface.Alg) (file : ℕ → Raw) (n : ℕ)
    (prod : State → List Record) (hprod : prod = State.l1b ∨ prod = State.l1bs) :
    ∃ W : ℕ → ℕ → ℕ → ℂ, ∀ f : ℕ → Raw, (∀ id, (f id).quiet = (file id).quiet) → ∀ (k : ℕ) (rec : Record),
      (prod (process c o alg f n).state)[k]? = some rec → ∀ (i : ℕ) (row : Stack.Row ℝ (ℕ → ℂ)), rec.result.gathered.rows[i]? = some row →
      ¬ AfterGap c f row.burst → ∀ s, row.beam s = ∑ p ∈ Finset.range c.pulses, W k i p * (f row.burst).corrected c p s := by
  set c0 : Conf := { c with cal1 := false, cal2 := false } with hc0
  set g : ℕ → Raw := fun id => (file id).impulse with hg
  refine ⟨fun k i p => (((prod (process c0 o alg g n).state)[k]?.bind fun rec => rec.result.gathered.rows[i]?).map fun row => row.beam p).getD 0, ?_⟩
  intro f hf k rec hk i row hi hgap s
  have hq : ∀ id, (f id).quiet = (g id).quiet := fun id => (hf id).trans rfl
  set P : Record → Record → Prop := fun r1 r2 => r2.outline = r1.outline ∧ ∀ (i : ℕ) (row1 row2 : Stack.Row ℝ (ℕ → ℂ)),
      r1.result.gathered.rows[i]? = some row1 → r2.result.gathered.rows[i]? = some row2 → ¬ AfterGap c f row2.burst →
      ∀ s, row2.beam s = ∑ p ∈ Finset.range c.pulses, row1.beam p * (f row2.burst).corrected c p s with hP
  have hA : Alike (echoTwin (fun _ b1 b2 => silent b2 = silent b1) P (AfterGap c f))
      c0 { c0 with cal1 := c.cal1, cal2 := c.cal2 } o { o with junk := o.junk } g f := by
    refine alike_switched c0 c.cal1 c.cal2 (AfterGap c f) hn o ho o.junk g f hq _ _ (fun _ _ _ h => h) ?_ ?_ ?_
      (fun _ => rfl) ?_ ?_
    · intro id
      have : ∀ r : Raw, silent (fresh c0 id r) = silent (fresh c0 id r.quiet) := fun _ => rfl
      rw [this (f id), hq, ← this]
    · intro id b1 b2 h
      exact h
    · intro id b1 b2 angles trend h
      show ({ silent b2 with angles := angles, trend := trend } : Chain.L1A) = { silent b1 with angles := angles, trend := trend }
      rw [h]
    · intro fl m1 m2 p1 p2 looks r r' hm hw hk e1 e2 hr n loc sg
      refine ⟨?_, ?_⟩
      · show (⟨n, loc, outlineOf r', sg⟩ : Record) = ⟨n, loc, outlineOf r, sg⟩
        rw [hr]
      intro i row1 row2 i1 i2 hno s
      obtain ⟨x, ex, gx⟩ := Chain.surfaceAw_ok_some e1
      obtain ⟨y, ey, gy⟩ := Chain.surfaceAw_ok_some e2
      have i1 : x.gathered.rows[i]? = some row1 := by
        have i1 : r.gathered.rows[i]? = some row1 := i1
        rw [gx] at i1; exact i1
      have i2 : y.gathered.rows[i]? = some row2 := by
        have i2 : r'.gathered.rows[i]? = some row2 := i2
        rw [gy] at i2; exact i2
      obtain ⟨l, hl, b1, b2, ⟨beams1, z1, q1⟩, ⟨beams2, z2, q2⟩⟩ := rows_pairwise hw hm ex ey i row1 row2 i1 i2
      obtain ⟨k, _, hk1, w1, w2⟩ := hk l hl
      rw [b2] at hno ⊢
      have hk1 : k = 1 := hk1.resolve_right hno
      subst hk1
      have w1 : (m1 l.2.2).wfm = fun p s => if p = s then 1 else 0 := by
        have : (m1 l.2.2).wfm = (base c0 g 1 l.2.2).wfm := by rw [← w1]; rfl
        rw [this]
        show Calib.calibrate false false c.samples (g l.2.2).agc (g l.2.2).sig0Cal (g l.2.2).power (g l.2.2).phase ((g l.2.2).gprw c.table)
          (g l.2.2).wave = _
        rw [Calib.calibration_off]
        funext p s
        exact impulse_wave _ p s
      have w2 : (m2 l.2.2).wfm = (f l.2.2).corrected c := (congrArg Chain.L1A.wfm w2 :)
      obtain ⟨w, hw⟩ := azimuth_linear c0.chain (m1 l.2.2) l.1
      have v1 := hw _ rfl beams1 row1.beam z1 q1
      have v2 := hw _ (hm _) beams2 row2.beam z2 q2
      rw [v2, w2]
      refine Finset.sum_congr rfl fun p hp => ?_
      rw [v1, w1]
      simp only [mul_ite, mul_one, mul_zero]
      rw [Finset.sum_ite_eq' (Finset.range c0.chain.pulses) p w, if_pos (show p ∈ Finset.range c0.chain.pulses from hp)]
    · intro r1 r2 h
      exact (congrArg Record.counter h.1 :)
  have hgap' : ∀ id ∈ gapOf (process c0 o alg g n).state.ctl.trace, AfterGap c f id := by
    intro id hid
    have h := gap_is_late c0 o alg g n id hid
    have e : ∀ f : ℕ → Raw, AfterGap c0 f = AfterGap c f := fun _ => rfl
    rw [e, ← afterGap_quiet c g f hq] at h
    exact h
  have q := process_twin hA (a1 := alg) (a2 := alg) rfl n (open_quiet c0 g f hq n) (fun d _ s _ _ b s' _ f _ => trivial) hgap'
  have q' : List.Forall₂ P (prod (process c0 o alg g n).state) (prod (process c o alg f n).state) := by
    rcases hprod with rfl | rfl
    · exact q.state.l1b
    · exact q.state.l1bs
  have hlt := (List.getElem?_eq_some_iff.1 hk).1
  have hlt1 : k < (prod (process c0 o alg g n).state).length := by rw [q'.length_eq]; exact hlt
  have hrel := (List.forall₂_iff_get.1 q').2 k hlt1 hlt
  have e2 : (prod (process c o alg f n).state).get ⟨k, hlt⟩ = rec := by
    have := List.getElem?_eq_getElem hlt
    rw [hk] at this
    exact (Option.some.inj this).symm
  rw [e2] at hrel
  set rec1 := (prod (process c0 o alg g n).state).get ⟨k, hlt1⟩ with hrec1
  obtain ⟨ho1, hrel⟩ := hrel
  obtain ⟨row1, i1, _⟩ := outline_row ho1.symm i row hi
  rw [hrel i row1 row i1 hi hgap s]
  refine Finset.sum_congr rfl fun p _ => ?_
  have e1 : (prod (process c0 o alg g n).state)[k]? = some rec1 := List.getElem?_eq_getElem hlt1
  dsimp only
  rw [e1]
  show _ = ((rec1.result.gathered.rows[i]?).map fun row => row.beam p).getD 0 * _
  rw [i1]
  rfl

/-- A sample of the stack. -/
theorem stack_focused (c : Conf) (hn : 0 < c.pulses) (hz : 0 < c.zp) (o : World) (alg : Surface.Alg) (file : ℕ → Raw) (n : ℕ) (rec : Record)
    (hr : rec ∈ (process c o alg file n).state.l1b ∨ rec ∈ (process c o alg file n).state.l1bs) (i : ℕ) (row : Stack.Row ℝ (ℕ → ℂ))
    (hi : rec.result.gathered.rows[i]? = some row) : ∃ shift, rec.result.shifts[i]? = some shift ∧ ∀ j < c.samples * c.zp,
      (stackIq c rec)[i]?.bind (·[j]?) = some (focused c shift row.beam j) := by
  obtain ⟨bursts, s, p1, _⟩ := record_parts c o alg file n hn rec hr
  have hs : rec.result.shifts[i]? = some (Chain.shiftOf c.chain bursts s row) := by
    rw [p1, List.getElem?_map, hi]; rfl
  exact ⟨_, hs, fun j hj => stackAt_eq c hz rec i j hj row _ hi hs⟩

/-- **C171.**  The echoes of a file are `a` times those of a first and `b` times those of a second, all else being the same.  Then the runs make corresponding
records, and every complex sample of the stacks is `a` times that of the first and `b` times that of the second. -/
theorem stacks_superpose (c : Conf) (hn : 0 < c.pulses) (hz : 0 < c.zp) (o : World) (ho : o.Steady)
    (alg : Surface.Alg) (a b : ℝ) (f1 f2 f : ℕ → Raw) (hf : ∀ id, Mixed a b (f1 id) (f2 id) (f id))
    (prod : State → List Record) (hprod : prod = State.l1b ∨ prod = State.l1bs) (n k : ℕ) (rec : Record)
    (hk : (prod (process c o alg f n).state)[k]? = some rec) :
    ∃ rec1 rec2, (prod (process c o alg f1 n).state)[k]? = some rec1 ∧ (prod (process c o alg f2 n).state)[k]? = some rec2 ∧
      rec1.outline = rec.outline ∧ rec2.outline = rec.outline ∧
      ∀ (i : ℕ) (row : Stack.Row ℝ (ℕ → ℂ)), rec.result.gathered.rows[i]? = some row → ¬ AfterGap c f row.burst → ∀ j < c.samples * c.zp,
        ∃ z1 z2, (stackIq c rec1)[i]?.bind (·[j]?) = some z1 ∧ (stackIq c rec2)[i]?.bind (·[j]?) = some z2 ∧
          (stackIq c rec)[i]?.bind (·[j]?) = some (a * z1 + b * z2) := by
  have q1 := fun id => (mixed_quiet (hf id)).1
  have q2 := fun id => (mixed_quiet (hf id)).2
  obtain ⟨W, hW⟩ := looks_linear c hn o ho alg f n prod hprod
  obtain ⟨rec1, k1, o1⟩ := records_alike c hn o ho alg f f1 q1 prod hprod n k rec hk
  obtain ⟨rec2, k2, o2⟩ := records_alike c hn o ho alg f f2 q2 prod hprod n k rec hk
  refine ⟨rec1, rec2, k1, k2, o1, o2, fun i row hi hgap j hj => ?_⟩
  obtain ⟨row1, i1, b1, _⟩ := outline_row o1 i row hi
  obtain ⟨row2, i2, b2, _⟩ := outline_row o2 i row hi
  obtain ⟨x, s0, h0⟩ := stack_focused c hn hz o alg f n rec (mem_prod hprod hk) i row hi
  obtain ⟨x1, s1, h1⟩ := stack_focused c hn hz o alg f1 n rec1 (mem_prod hprod k1) i row1 i1
  obtain ⟨x2, s2, h2⟩ := stack_focused c hn hz o alg f2 n rec2 (mem_prod hprod k2) i row2 i2
  have e1 : rec1.result.shifts = rec.result.shifts := (congrArg (fun r : Record => r.result.shifts) o1 :)
  have e2 : rec2.result.shifts = rec.result.shifts := (congrArg (fun r : Record => r.result.shifts) o2 :)
  rw [e1, s0, Option.some.injEq] at s1
  rw [e2, s0, Option.some.injEq] at s2
  subst s1 s2
  refine ⟨_, _, h1 j hj, h2 j hj, ?_⟩
  rw [h0 j hj, ← focused_mix]
  congr 2
  funext s
  rw [hW f (fun _ => rfl) k rec hk i row hi hgap s,
    hW f1 q1 k rec1 k1 i row1 i1 (by rw [b1, afterGap_quiet c f f1 q1]; exact hgap) s,
    hW f2 q2 k rec2 k2 i row2 i2 (by rw [b2, afterGap_quiet c f f2 q2]; exact hgap) s, b1, b2, Finset.mul_sum, Finset.mul_sum, ← Finset.sum_add_distrib]
  refine Finset.sum_congr rfl fun p _ => ?_
  rw [corrected_mix c (hf _)]
  ring

/-- The looks that count for a column of the waveform. -/
def counted (c : Conf) (rec : Record) (col : ℕ) : List ℕ :=
  (List.range rec.result.gathered.rows.length).filter fun i =>
    decide (rec.result.masked.vector.getD i 0 ≠ 0) && (!c.avoidZeros || (rec.result.masked.mask.getD i []).getD col false)

/-- The power which a look gives to a column. -/
noncomputable def given (c : Conf) (rec : Record) (col i : ℕ) : ℝ :=
  if (rec.result.masked.mask.getD i []).getD col false = true then ‖stackAt c rec i col‖ ^ 2 else 0

/-- The waveform as the mean of the squares of the stack. -/
theorem waveform_formula (c : Conf) (hn : 0 < c.pulses) (hP : 2 ≤ c.samples * c.zp) (hoff : c.weighting = false) (o : World)
    (alg : Surface.Alg) (file : ℕ → Raw) (n : ℕ) (rec : Record)
    (hr : rec ∈ (process c o alg file n).state.l1b ∨ rec ∈ (process c o alg file n).state.l1bs) (col : ℕ) (hcol : col < c.samples * c.zp) :
    rec.result.out.waveform[col]? = some (if (counted c rec col).length = 0 then none
      else some (((counted c rec col).map (given c rec col)).sum / ((counted c rec col).length : ℝ))) := by
  obtain ⟨bursts, s, p1, p2, p3, p4⟩ := record_parts c o alg file n hn rec hr
  have hwf : Stack.WellFormed (Chain.maskConf c.chain) (Chain.maskInput c.chain bursts s rec.result.gathered.rows) := by
    refine ⟨p3, by simp [Chain.maskInput], ?_⟩
    intro r hr
    simp only [Chain.maskInput, List.mem_map] at hr
    obtain ⟨row, _, rfl⟩ := hr
    simp [Chain.compressed, Chain.maskConf]
  obtain ⟨m, m1, m2⟩ := Chain.masking_rows o.round (Chain.maskConf c.chain) _ hP hwf
  rw [p2, Except.ok.injEq] at m1
  subst m1
  have hlen : ∀ i < rec.result.gathered.rows.length, (rec.result.masked.mask.getD i []).length = c.samples * c.zp ∧
      (rec.result.masked.beams.getD i []).length = c.samples * c.zp ∧
      (rec.result.masked.beams.getD i []).getD col 0 = given c rec col i := by
    intro i hi
    obtain ⟨orig, mrow, prow, v, g1, g2, g3, g4, g5, g6, g7, _⟩ := m2 i hi
    rw [List.getD_eq_getElem?_getD, g2, List.getD_eq_getElem?_getD, g3]
    refine ⟨g5, g6, ?_⟩
    obtain ⟨k1, k2, k3⟩ := g7 col hcol
    unfold given
    rw [List.getD_eq_getElem?_getD (l := rec.result.masked.mask), g2, Option.getD_some, Option.getD_some]
    split
    · rename_i hk
      rw [k2 (k1.1 hk)]
      have hrow := List.getElem?_eq_getElem hi
      have g1' : orig = Chain.compressed c.chain bursts s rec.result.gathered.rows[i] := by
        have : (rec.result.gathered.rows.map (Chain.compressed c.chain bursts s))[i]? = some orig := g1
        rw [List.getElem?_map, hrow, Option.map_some, Option.some.injEq] at this
        exact this.symm
      unfold stackAt
      rw [stackIq_eq c rec _ p1, List.getD_eq_getElem?_getD (l := List.map _ _), List.getElem?_map, hrow, Option.map_some, Option.getD_some,
        List.getD_eq_getElem?_getD, List.getD_eq_getElem?_getD, List.getElem?_map, List.getElem?_range hcol, Option.map_some,
        Option.getD_some, g1', Chain.compressed]
      rw [List.getElem?_map, List.getElem?_range (show col < c.chain.samples * c.chain.zp from hcol), Option.map_some, Option.getD_some]
      rfl
    · rename_i hk
      exact k3 (fun h => hk (k1.2 h))
  rw [p4 hoff, Multilook.waveform_get _ _ _ _ ?_ col hcol]
  swap
  · intro b hb
    simp only [Chain.lookBeams, List.mem_map] at hb
    obtain ⟨x, hx, rfl⟩ := hb
    have hlt := List.snd_lt_of_mem_zipIdx hx
    rw [Nat.add_zero] at hlt
    exact ⟨(hlen x.2 hlt).1, (hlen x.2 hlt).2.1⟩
  have hpow : Multilook.powers c.avoidZeros (Chain.lookBeams rec.result.gathered.rows rec.result.masked) col =
      (counted c rec col).map (given c rec col) := by
    unfold Multilook.powers Chain.lookBeams
    rw [List.filter_map, List.map_map]
    have e1 : (Multilook.contributes c.avoidZeros col ∘ fun x : Stack.Row ℝ (ℕ → ℂ) × ℕ =>
        ({ vector := rec.result.masked.vector.getD x.2 0, mask := rec.result.masked.mask.getD x.2 [], power := rec.result.masked.beams.getD x.2 []
           look := x.1.look, doppler := x.1.doppler, pointing := x.1.pointing, beamAngle := x.1.beamAngle
           seqCount := x.1.lookCounter } : Multilook.Beam ℝ)) =
        (fun i => decide (rec.result.masked.vector.getD i 0 ≠ 0) && (!c.avoidZeros || (rec.result.masked.mask.getD i []).getD col false)) ∘ Prod.snd := rfl
    rw [e1]
    have e2 : ((fun b : Multilook.Beam ℝ => b.power.getD col 0) ∘ fun x : Stack.Row ℝ (ℕ → ℂ) × ℕ =>
        ({ vector := rec.result.masked.vector.getD x.2 0, mask := rec.result.masked.mask.getD x.2 [], power := rec.result.masked.beams.getD x.2 []
           look := x.1.look, doppler := x.1.doppler, pointing := x.1.pointing, beamAngle := x.1.beamAngle
           seqCount := x.1.lookCounter } : Multilook.Beam ℝ)) =
        (fun i => (rec.result.masked.beams.getD i []).getD col 0) ∘ Prod.snd := rfl
    rw [e2, ← List.map_map, ← List.filter_map, List.zipIdx_map_snd, ← List.range_eq_range']
    unfold counted
    refine List.map_congr_left fun i hi => ?_
    exact (hlen i (List.mem_range.1 (List.mem_filter.1 hi).1)).2.2
  rw [hpow, List.length_map]

theorem counted_outline (c : Conf) {r1 r2 : Record} (h : r2.outline = r1.outline) (col : ℕ) : counted c r2 col = counted c r1 col := by
  have h1 : r2.result.gathered.rows.length = r1.result.gathered.rows.length := by
    have : (r2.result.gathered.rows.map (fun row => ({ row with beam := fun _ => 0 } : Stack.Row ℝ (ℕ → ℂ)))).length =
        (r1.result.gathered.rows.map (fun row => ({ row with beam := fun _ => 0 } : Stack.Row ℝ (ℕ → ℂ)))).length :=
      (congrArg (fun r : Record => r.result.gathered.rows.length) h :)
    rwa [List.length_map, List.length_map] at this
  have h2 : r2.result.masked.mask = r1.result.masked.mask := (congrArg (fun r : Record => r.result.masked.mask) h :)
  have h3 : r2.result.masked.vector = r1.result.masked.vector := (congrArg (fun r : Record => r.result.masked.vector) h :)
  unfold counted
  rw [h1, h2, h3]

theorem stackAt_some {c : Conf} {rec : Record} {i j : ℕ} {z : ℂ} (h : (stackIq c rec)[i]?.bind (·[j]?) = some z) : stackAt c rec i j = z := by
  unfold stackAt
  rw [List.getD_eq_getElem?_getD, List.getD_eq_getElem?_getD]
  cases h1 : (stackIq c rec)[i]? with
  | none => rw [h1] at h; cases h
  | some l =>
    rw [h1, Option.bind_some] at h
    rw [Option.getD_some, h, Option.getD_some]

theorem sums_parallelogram (l : List ℕ) (f1 f2 f3 f4 : ℕ → ℝ) (h : ∀ i ∈ l, f3 i + f4 i = 2 * f1 i + 2 * f2 i) :
    (l.map f3).sum + (l.map f4).sum = 2 * (l.map f1).sum + 2 * (l.map f2).sum := by
  induction l with
  | nil => simp
  | cons a l ih =>
    simp only [List.map_cons, List.sum_cons]
    have h1 := h a (by simp)
    have h2 := ih (fun i hi => h i (by simp [hi]))
    linarith

/-- **C171.**  Two files with the same orbit and settings, the file of the sums and the file of the differences of their echoes: of each record, the samples of
the waveforms are undefined in all four products or in none, and the powers of the sums and of the differences together are twice those of the two files
together: the interference that one of them gains the other one loses. -/
theorem waveforms_parallelogram (c : Conf) (hn : 0 < c.pulses) (hz : 0 < c.zp) (hP : 2 ≤ c.samples * c.zp)
    (hoff : c.weighting = false) (o : World) (ho : o.Steady) (alg : Surface.Alg) (f1 f2 fs fd : ℕ → Raw)
    (hs : ∀ id, Mixed 1 1 (f1 id) (f2 id) (fs id)) (hd : ∀ id, Mixed 1 (-1) (f1 id) (f2 id) (fd id))
    (prod : State → List Record) (hprod : prod = State.l1b ∨ prod = State.l1bs) (n k : ℕ) (rec1 : Record)
    (hk : (prod (process c o alg f1 n).state)[k]? = some rec1) (hgap : ∀ id ∈ rec1.bursts, ¬ AfterGap c f1 id) :
    ∃ rec2 recS recD, (prod (process c o alg f2 n).state)[k]? = some rec2 ∧ (prod (process c o alg fs n).state)[k]? = some recS ∧
      (prod (process c o alg fd n).state)[k]? = some recD ∧ ∀ col < c.samples * c.zp,
      (rec1.result.out.waveform[col]? = some none ∧ rec2.result.out.waveform[col]? = some none ∧
        recS.result.out.waveform[col]? = some none ∧ recD.result.out.waveform[col]? = some none) ∨
      ∃ y1 y2 yS yD, rec1.result.out.waveform[col]? = some (some y1) ∧ rec2.result.out.waveform[col]? = some (some y2) ∧
        recS.result.out.waveform[col]? = some (some yS) ∧ recD.result.out.waveform[col]? = some (some yD) ∧
        yS + yD = 2 * y1 + 2 * y2 := by
  have q1 : ∀ id, (fs id).quiet = (f1 id).quiet := fun id => ((mixed_quiet (hs id)).1).symm
  have q2 : ∀ id, (fd id).quiet = (f1 id).quiet := fun id => ((mixed_quiet (hd id)).1).symm
  obtain ⟨recS, kS, oS⟩ := records_alike c hn o ho alg f1 fs q1 prod hprod n k rec1 hk
  obtain ⟨recD, kD, oD⟩ := records_alike c hn o ho alg f1 fd q2 prod hprod n k rec1 hk
  obtain ⟨r1, rec2, k1, k2, _, o2, hS⟩ := stacks_superpose c hn hz o ho alg 1 1 f1 f2 fs hs prod hprod n k recS kS
  obtain ⟨r1', r2', k1', k2', _, _, hD⟩ := stacks_superpose c hn hz o ho alg 1 (-1) f1 f2 fd hd prod hprod n k recD kD
  rw [hk, Option.some.injEq] at k1 k1'
  rw [k2, Option.some.injEq] at k2'
  subst k1 k1' k2'
  have o2 : rec2.outline = rec1.outline := o2.trans oS
  refine ⟨rec2, recS, recD, k2, kS, kD, fun col hcol => ?_⟩
  rw [waveform_formula c hn hP hoff o alg f1 n rec1 (mem_prod hprod hk) col hcol,
    waveform_formula c hn hP hoff o alg f2 n rec2 (mem_prod hprod k2) col hcol,
    waveform_formula c hn hP hoff o alg fs n recS (mem_prod hprod kS) col hcol,
    waveform_formula c hn hP hoff o alg fd n recD (mem_prod hprod kD) col hcol,
    counted_outline c o2, counted_outline c oS, counted_outline c oD]
  by_cases h0 : (counted c rec1 col).length = 0
  · left
    rw [if_pos h0, if_pos h0, if_pos h0, if_pos h0]
    exact ⟨rfl, rfl, rfl, rfl⟩
  · right
    rw [if_neg h0, if_neg h0, if_neg h0, if_neg h0]
    refine ⟨_, _, _, _, rfl, rfl, rfl, rfl, ?_⟩
    have hsum := sums_parallelogram (counted c rec1 col) (given c rec1 col) (given c rec2 col) (given c recS col) (given c recD col) (by
      intro i hi
      have hi' : i < rec1.result.gathered.rows.length := List.mem_range.1 (List.mem_filter.1 hi).1
      have hrow := List.getElem?_eq_getElem hi'
      have hg : ¬ AfterGap c f1 (rec1.result.gathered.rows[i]).burst :=
        hgap _ (List.mem_map.2 ⟨_, List.getElem_mem hi', rfl⟩)
      obtain ⟨rowS, iS, bS, _⟩ := outline_row oS i _ hrow
      obtain ⟨rowD, iD, bD, _⟩ := outline_row oD i _ hrow
      obtain ⟨z1, z2, t1, t2, t3⟩ := hS i rowS iS (by rw [bS, afterGap_quiet c f1 fs q1]; exact hg) col hcol
      obtain ⟨z1', z2', t1', t2', t3'⟩ := hD i rowD iD (by rw [bD, afterGap_quiet c f1 fd q2]; exact hg) col hcol
      rw [t1, Option.some.injEq] at t1'
      rw [t2, Option.some.injEq] at t2'
      subst t1' t2'
      have mS : recS.result.masked.mask = rec1.result.masked.mask := (congrArg (fun r : Record => r.result.masked.mask) oS :)
      have mD : recD.result.masked.mask = rec1.result.masked.mask := (congrArg (fun r : Record => r.result.masked.mask) oD :)
      have m2 : rec2.result.masked.mask = rec1.result.masked.mask := (congrArg (fun r : Record => r.result.masked.mask) o2 :)
      unfold given
      rw [mS, mD, m2, stackAt_some t1, stackAt_some t2, stackAt_some t3, stackAt_some t3']
      split
      · have := parallelogram_law_with_norm ℝ z1 z2
        have e1 : ((1 : ℝ) : ℂ) * z1 + ((1 : ℝ) : ℂ) * z2 = z1 + z2 := by push_cast; ring
        have e2 : ((1 : ℝ) : ℂ) * z1 + ((-1 : ℝ) : ℂ) * z2 = z1 - z2 := by push_cast; ring
        rw [e1, e2]
        nlinarith [this]
      · ring)
    rw [← add_div, hsum]
    ring

/-! ## The example -/

theorem demo_no_gap : ¬ AfterGap demoConf demoFile 0 := by
  rintro ⟨j, ⟨h, _⟩, _⟩
  omega

theorem bursts_get {rec : Record} {id : ℕ} (h : rec.bursts = [id]) : ∃ row, rec.result.gathered.rows[0]? = some row ∧ row.burst = id := by
  have h : rec.result.gathered.rows.map (·.burst) = [id] := h
  obtain ⟨row, t, e1, e2, _⟩ := List.map_eq_cons_iff.1 h
  exact ⟨row, by rw [e1]; rfl, e2⟩

/-- The hypotheses of C170 are met by the run of the example, which has one look. -/
example (alg : Surface.Alg) : ∃ rec row shift, (process demoConf (demoWorld realArg) alg demoFile 2).state.l1bs = [rec] ∧
    rec.result.gathered.rows[0]? = some row ∧ ∀ j < demoConf.samples * demoConf.zp,
      (stackIq demoConf rec)[0]?.bind (·[j]?) = some (focused demoConf shift (steered demoConf (demoFile 0) row.beamAngle) j) := by
  obtain ⟨s, rec, e, _, h2, _, _, h4, _⟩ := demo_run realArg realArg_isArgsort alg
  have hl : (process demoConf (demoWorld realArg) alg demoFile 2).state.l1bs = [rec] := by rw [e]; exact h2
  obtain ⟨row, hr, hb⟩ := bursts_get h4
  obtain ⟨shift, _, h⟩ := stack_from_echoes demoConf (by decide) (by decide) rfl (demoWorld realArg) (demo_steady _) alg demoFile 2 rec
    (Or.inr (by rw [hl]; simp)) 0 row hr (by rw [hb]; exact demo_no_gap)
  rw [hb] at h
  exact ⟨rec, row, shift, hl, hr, h⟩

/-- The echoes of the example and those of `strongFile` added, and subtracted. -/
noncomputable def sumFile (k : ℕ) : Raw := { demoFile k with i := fun _ _ => 1, q := fun _ _ => 3 }

/-- See `sumFile`. -/
noncomputable def differenceFile (k : ℕ) : Raw := { demoFile k with i := fun _ _ => 1, q := fun _ _ => -3 }

/-- The hypotheses of C171 are met by the files of the example: the sample 8 and the sample 72 give 160 together. -/
example (alg : Surface.Alg) : ∃ recS recD yS yD, (process demoConf (demoWorld realArg) alg sumFile 2).state.l1b[0]? = some recS ∧
    (process demoConf (demoWorld realArg) alg differenceFile 2).state.l1b[0]? = some recD ∧ recS.result.out.waveform[8]? = some (some yS) ∧
    recD.result.out.waveform[8]? = some (some yD) ∧ yS + yD = 160 := by
  obtain ⟨s, rec, e, h1, _, _, _, h4, h5⟩ := demo_run realArg realArg_isArgsort alg
  have hl : (process demoConf (demoWorld realArg) alg demoFile 2).state.l1b = [rec] := by rw [e]; exact h1
  obtain ⟨rec2, recS, recD, k2, kS, kD, h⟩ := waveforms_parallelogram demoConf (by decide) (by decide) (by decide) rfl (demoWorld realArg)
    (demo_steady _) alg demoFile strongFile sumFile differenceFile
    (fun id => ⟨rfl, rfl, by intro p s; simp [sumFile, demoFile, strongFile], by intro p s; simp [sumFile, demoFile, strongFile]⟩)
    (fun id => ⟨rfl, rfl, by intro p s; simp [differenceFile, demoFile, strongFile], by intro p s; simp [differenceFile, demoFile, strongFile]⟩)
    State.l1b (Or.inl rfl) 2 0 rec (by rw [hl]; rfl) (by rw [h4]; intro id hid; rw [List.mem_singleton.1 hid]; exact demo_no_gap)
  have q := (products_scale demoConf (by decide) (demoWorld realArg) (demo_steady _) alg demoFile strongFile (fun _ => rfl)
    (fun _ => 3 * Complex.I) 3 (by simp) (by intro id p s; simp [strongFile, demoFile]; ring) 2).2.1
  rw [hl] at q
  obtain ⟨r, t, hr, ht, e2⟩ := List.forall₂_cons_left_iff.1 q
  rw [e2] at k2
  have k2 : r = rec2 := Option.some.inj k2
  subst k2
  have h72 : r.result.out.waveform[8]? = some (some 72) := by
    rw [hr.2.1]
    unfold Chain.times
    rw [List.getElem?_map, h5]
    norm_num
  rcases h 8 (by decide) with ⟨h0, _⟩ | ⟨y1, y2, yS, yD, g1, g2, g3, g4, g5⟩
  · rw [h5] at h0
    cases h0
  · rw [h5, Option.some.injEq, Option.some.injEq] at g1
    rw [h72, Option.some.injEq, Option.some.injEq] at g2
    subst g1 g2
    exact ⟨recS, recD, yS, yD, kS, kD, g3, g4, by rw [g5]; norm_num⟩

end Dedop.Whole
