import Verif.Whole.Local
import Verif.Whole.Aim
import Verif.Whole.Late
import Verif.Calib.CalProps
import Verif.Calib.Sigma0

/-!
# Calibration removes the distortion of the instrument from the products (C154)
-/
namespace Dedop.Whole

open Real Process

/-! ## Specification -/

/-- The samples of the pulses of a record, in units of the input of the receiver. -/
noncomputable def Raw.wave (r : Raw) (p s : ℕ) : ℂ := Calib.echo r.agc (r.i p s) (r.q p s)

/-- The files say nothing about samples beyond the window: as elsewhere in numpy, positions are counted round. -/
def Raw.Cyclic (N : ℕ) (r : Raw) : Prop := ∀ p s, r.i p s = r.i p (s % N) ∧ r.q p s = r.q p (s % N)

/-- The factor by which the instrument changes a pulse, according to CAL1: its power differs from pulse to pulse, its phase turns, and
the attenuation is not quite the commanded one. -/
noncomputable def pulseChange (r : Raw) (p : ℕ) : ℂ :=
  Complex.exp (-(Complex.I * r.phase p)) * (√(Calib.pow10 ((r.agc - r.sig0Cal) / 10)) : ℝ) / (√(r.power p) : ℝ)

/-- The factor by which the instrument changes a frequency, according to CAL2; frequency 0 is in the middle of the table. -/
noncomputable def bandChange (c : Conf) (r : Raw) (k : ℕ) : ℂ :=
  (√(r.gprw c.table ((k + c.samples / 2) % c.samples)) : ℝ)

/-- `m` holds what the instrument makes of the echoes `t`, to the extent that it is to be calibrated, and in all else the same. -/
structure Distorts (c : Conf) (t m : Raw) : Prop where
  same : m.quiet = t.quiet
  power : c.cal1 = true → ∀ p, 0 < m.power p
  gain : c.cal2 = true → ∀ k < c.samples, 0 < m.gprw c.table k
  spectrum : ∀ p, ∀ k < c.samples, Calib.fft c.samples (m.wave p) k =
    Calib.fft c.samples (t.wave p) k * (if c.cal1 then pulseChange m p else 1) * (if c.cal2 then bandChange c m k else 1)
  cyclic : t.Cyclic c.samples ∧ m.Cyclic c.samples

/-! ## Lemmas -/

theorem ifft_cyclic (N : ℕ) (hN : 0 < N) (y : ℕ → ℂ) (s : ℕ) : Calib.ifft N y s = Calib.ifft N y (s % N) := by
  unfold Calib.ifft
  congr 1
  refine Finset.sum_congr rfl (fun k _ => ?_)
  congr 1
  have hs : (s : ℤ) = (s % N : ℕ) + (s / N : ℕ) * N := by
    have := Nat.mod_add_div s N
    have : ((s % N + N * (s / N) : ℕ) : ℤ) = s := by rw [this]
    push_cast at this ⊢
    linarith
  have hc : ∀ a b : ℤ, Signal.twiddle N a b = Signal.twiddle N b a := by
    intro a b
    unfold Signal.twiddle
    rw [mul_comm (a : ℂ)]
  rw [hc, hs, show -(((s % N : ℕ) : ℤ) + (s / N : ℕ) * N) = -((s % N : ℕ) : ℤ) + (-((s / N : ℕ) : ℤ)) * N by ring,
    Signal.twiddle_add_period N hN, hc]

theorem wave_cyclic {N : ℕ} {r : Raw} (h : r.Cyclic N) (p s : ℕ) : r.wave p s = r.wave p (s % N) := by
  unfold Raw.wave
  rw [(h p s).1, (h p s).2]

/-- The calibrations undo the distortion. -/
theorem restored {c : Conf} (hN : 0 < c.samples) {t m : Raw} (h : Distorts c t m) (p s : ℕ) :
    Calib.calibrate c.cal1 c.cal2 c.samples m.agc m.sig0Cal m.power m.phase (m.gprw c.table) m.wave p s = t.wave p s := by
  have hcy : ∀ s, Calib.calibrate c.cal1 c.cal2 c.samples m.agc m.sig0Cal m.power m.phase (m.gprw c.table) m.wave p s =
      Calib.calibrate c.cal1 c.cal2 c.samples m.agc m.sig0Cal m.power m.phase (m.gprw c.table) m.wave p (s % c.samples) := by
    intro s
    unfold Calib.calibrate Calib.cal2
    split
    · exact ifft_cyclic _ hN _ s
    · unfold Calib.cal1
      rw [wave_cyclic h.cyclic.2]
  rw [hcy, wave_cyclic h.cyclic.1 p s]
  have hs := Nat.mod_lt s hN
  rw [← Calib.ifft_fft c.samples (t.wave p) _ hs, ← Calib.ifft_fft c.samples
    (Calib.calibrate c.cal1 c.cal2 c.samples m.agc m.sig0Cal m.power m.phase (m.gprw c.table) m.wave p) _ hs]
  refine Calib.ifft_congr (fun k hk => ?_) _
  rw [Calib.calibration_switches _ _ _ _ _ _ _ _ _ _ _ hk, h.spectrum p k hk]
  have h1 : (if c.cal1 then pulseChange m p else 1) *
      (if c.cal1 then (√(m.power p) : ℝ) * Complex.exp (Complex.I * m.phase p) / (√(Calib.pow10 ((m.agc - m.sig0Cal) / 10)) : ℝ) else 1) = 1 := by
    cases hc : c.cal1 with
    | false => simp
    | true =>
      rw [if_pos rfl, if_pos rfl]
      have hp : ((√(m.power p) : ℝ) : ℂ) ≠ 0 := by exact_mod_cast (Real.sqrt_pos.2 (h.power hc p)).ne'
      have hq : ((√(Calib.pow10 ((m.agc - m.sig0Cal) / 10)) : ℝ) : ℂ) ≠ 0 := by
        exact_mod_cast (Real.sqrt_pos.2 (Calib.pow10_pos _)).ne'
      unfold pulseChange
      rw [Complex.exp_neg]
      field_simp
  have h2 : (if c.cal2 then bandChange c m k else 1) /
      (if c.cal2 then ((√(m.gprw c.table (Calib.centred c.samples k)) : ℝ) : ℂ) else 1) = 1 := by
    cases hc : c.cal2 with
    | false => simp
    | true =>
      rw [if_pos rfl, if_pos rfl]
      have hp : ((√(m.gprw c.table (Calib.centred c.samples k)) : ℝ) : ℂ) ≠ 0 := by
        exact_mod_cast (Real.sqrt_pos.2 (h.gain hc _ (Nat.mod_lt _ hN))).ne'
      exact div_self hp
  have : ∀ a b d x y : ℂ, b * x = 1 → d / y = 1 → a * b * d * x / y = a := by
    intro a b d x y e1 e2
    calc a * b * d * x / y = a * (b * x) * (d / y) := by ring
      _ = a := by rw [e1, e2]; ring
  exact this _ _ _ _ _ h1 h2

/-- A burst whose echoes and all else are those of another is the other. -/
theorem of_silent {a b : Chain.L1A} (h : silent a = silent b) (hw : a.wfm = b.wfm) : a = b := by
  have : ∀ x : Chain.L1A, x = { silent x with wfm := x.wfm } := fun _ => rfl
  rw [this a, this b, h, hw]

/-! ## C154 -/

/-- **C154.**  The products of a file with the echoes as the instrument has changed them, calibrated, are those of a file with the echoes as they
arrived, not calibrated: the runs take the same course, and corresponding records are equal.  Excepted are records with a burst that is
the first after a gap: it is calibrated twice. -/
theorem distortion_removed_partial (c : Conf) (hn : 0 < c.pulses) (hN : 0 < c.samples) (o : World) (ho : o.Steady) (alg : Surface.Alg)
    (arrived measured : ℕ → Raw) (hf : ∀ id, Distorts c (arrived id) (measured id)) (n : ℕ) :
    SameCourse (process { c with cal1 := false, cal2 := false } o alg arrived n) (process c o alg measured n) ∧
    List.Forall₂ (fun r1 r2 : Record => r2.outline = r1.outline ∧ ((∀ id ∈ r1.bursts, ¬ AfterGap c measured id) → r2 = r1))
      (process { c with cal1 := false, cal2 := false } o alg arrived n).state.l1b (process c o alg measured n).state.l1b ∧
    List.Forall₂ (fun r1 r2 : Record => r2.outline = r1.outline ∧ ((∀ id ∈ r1.bursts, ¬ AfterGap c measured id) → r2 = r1))
      (process { c with cal1 := false, cal2 := false } o alg arrived n).state.l1bs (process c o alg measured n).state.l1bs := by
  set c0 : Conf := { c with cal1 := false, cal2 := false } with hc0
  have hq : ∀ id, (measured id).quiet = (arrived id).quiet := fun id => (hf id).same
  have hA : Alike (echoTwin (fun _ b1 b2 => silent b2 = silent b1)
      (fun r1 r2 => r2.outline = r1.outline ∧ ((∀ id ∈ r1.bursts, ¬ AfterGap c measured id) → r2 = r1)) (AfterGap c measured))
      c0 { c0 with cal1 := c.cal1, cal2 := c.cal2 } o { o with junk := o.junk } arrived measured := by
    refine alike_switched c0 c.cal1 c.cal2 (AfterGap c measured) hn o ho o.junk arrived measured hq _ _ (fun _ _ _ h => h) ?_ ?_ ?_
      (fun _ => rfl) ?_ ?_
    · intro id
      have : ∀ r : Raw, silent (fresh c0 id r) = silent (fresh c0 id r.quiet) := fun _ => rfl
      rw [this (measured id), hq, ← this]
    · intro id b1 b2 h
      exact h
    · intro id b1 b2 angles trend h
      show ({ silent b2 with angles := angles, trend := trend } : Chain.L1A) = { silent b1 with angles := angles, trend := trend }
      rw [h]
    · intro f m1 m2 p1 p2 looks r r' hm hw hk e1 e2 hr n loc g
      constructor
      · show (⟨n, loc, outlineOf r', g⟩ : Record) = ⟨n, loc, outlineOf r, g⟩
        rw [hr]
      · intro hB
        have := surface_local_aw c0.weighting c0.pattern o.argsort o.round o.junk o.junk c0.chain m1 m2 f p1 p2 looks hw hm r r' e1 e2 ?_
        · rw [this]
        intro row hrow
        obtain ⟨x, ex, gx⟩ := Chain.surfaceAw_ok_some e1
        have hrow' : row ∈ x.gathered.rows := by rw [gx] at hrow; exact hrow
        obtain ⟨l, hl, hb, _⟩ := rows_from_looks _ _ _ _ _ _ _ _ _ ex row hrow'
        have hno := hB row.burst (List.mem_map_of_mem hrow)
        obtain ⟨k, _, hk1, b1, b2⟩ := hk l hl
        rw [hb] at hno ⊢
        have hk1 : k = 1 := hk1.resolve_right hno
        subst hk1
        refine of_silent (hm _) ?_
        have w1 : (m1 l.2.2).wfm = (base c0 arrived 1 l.2.2).wfm := by rw [← b1]; rfl
        have w2 : (m2 l.2.2).wfm = (base { c0 with cal1 := c.cal1, cal2 := c.cal2 } measured 1 l.2.2).wfm := by rw [← b2]; rfl
        rw [w1, w2]
        funext p s
        show Calib.calibrate c.cal1 c.cal2 c.samples (measured l.2.2).agc (measured l.2.2).sig0Cal (measured l.2.2).power (measured l.2.2).phase
          ((measured l.2.2).gprw c.table) (measured l.2.2).wave p s = Calib.calibrate false false c.samples (arrived l.2.2).agc
          (arrived l.2.2).sig0Cal (arrived l.2.2).power (arrived l.2.2).phase ((arrived l.2.2).gprw c.table) (arrived l.2.2).wave p s
        rw [restored hN (hf _), Calib.calibration_off]
    · intro r1 r2 h
      exact (congrArg Record.counter h.1 :)
  have hgap : ∀ id ∈ gapOf (process c0 o alg arrived n).state.ctl.trace, AfterGap c measured id := by
    intro id hid
    obtain ⟨j, ⟨h1, h2, h3⟩, h4⟩ := gap_is_late c0 o alg arrived n id hid
    have ht : ∀ i, (measured i).time = (arrived i).time := fun i => (congrArg Raw.time (hq i) :)
    have hu : ∀ i, Usable c0 arrived i ↔ Usable c measured i := by
      intro i
      have a : (measured i).lat = (arrived i).lat := (congrArg Raw.lat (hq i) :)
      have b : (measured i).lon = (arrived i).lon := (congrArg Raw.lon (hq i) :)
      unfold Usable
      rw [a, b]
    exact ⟨j, ⟨h1, (hu j).1 h2, fun i a b => mt (hu i).2 (h3 i a b)⟩, by rw [ht, ht]; exact h4⟩
  have q := process_twin hA (a1 := alg) (a2 := alg) rfl n (open_quiet c0 arrived measured hq n) (fun d _ s _ _ b s' _ f _ => trivial) hgap
  exact ⟨q.mono (fun s t h => h.ctl), q.state.l1b, q.state.l1bs⟩

/-! ## Example -/

/-- The echoes of the example as measured: halved and turned by CAL1, and the constant part tripled by CAL2. -/
noncomputable def measuredFile (k : ℕ) : Raw :=
  { demoFile k with
    i := fun _ _ => -3 / 2
    power := fun _ => 4
    phase := fun _ => π
    gprw := fun _ j => if j = 4 then 9 else j + 1 }

theorem demo_distorts (id : ℕ) : Distorts { demoConf with cal1 := true, cal2 := true } (demoFile id) (measuredFile id) := by
  refine ⟨rfl, fun _ _ => by norm_num [measuredFile], ?_, ?_, fun _ _ => ⟨rfl, rfl⟩, fun _ _ => ⟨rfl, rfl⟩⟩
  · intro _ k _
    show (0 : ℝ) < if k = 4 then 9 else (k : ℝ) + 1
    split
    · norm_num
    · positivity
  · intro p k hk
    have hk : k < 8 := hk
    have hw : (measuredFile id).wave p = fun s => (-3 / 2 : ℂ) * (demoFile id).wave p s := by
      funext s
      unfold Raw.wave Calib.echo
      simp [measuredFile, demoFile, Calib.pow10]
    have h0 : k ≠ 0 → Calib.fft 8 ((demoFile id).wave p) k = 0 := by
      intro h
      have := Signal.sum_twiddle 8 k 0 hk (by norm_num)
      rw [if_neg h] at this
      rw [← this]
      unfold Calib.fft
      refine Finset.sum_congr rfl (fun j _ => ?_)
      have h1 : (demoFile id).wave p j = 1 := by
        unfold Raw.wave Calib.echo
        simp [demoFile, Calib.pow10]
      have h2 : Signal.twiddle 8 (k : ℤ) (j : ℤ) = Signal.twiddle 8 (j : ℤ) (k : ℤ) := by
        unfold Signal.twiddle
        rw [mul_comm ((k : ℤ) : ℂ)]
      have h3 : Signal.twiddle 8 (j : ℤ) (-((0 : ℕ) : ℤ)) = 1 := by simp [Signal.twiddle]
      rw [h1, h2, h3]
      ring
    show Calib.fft 8 ((measuredFile id).wave p) k = Calib.fft 8 ((demoFile id).wave p) k * pulseChange (measuredFile id) p *
      bandChange { demoConf with cal1 := true, cal2 := true } (measuredFile id) k
    have hp : pulseChange (measuredFile id) p = -1 / 2 := by
      unfold pulseChange
      have h4 : √(4 : ℝ) = 2 := by rw [show (4 : ℝ) = 2 ^ 2 by norm_num]; exact Real.sqrt_sq (by norm_num)
      have e1 : Complex.exp (-(Complex.I * π)) = -1 := by
        rw [Complex.exp_neg, mul_comm, Complex.exp_pi_mul_I]
        norm_num
      simp only [measuredFile, demoFile, Calib.pow10, h4, e1]
      norm_num
    rw [hw, hp]
    have hl : Calib.fft 8 (fun s => (-3 / 2 : ℂ) * (demoFile id).wave p s) k = (-3 / 2 : ℂ) * Calib.fft 8 ((demoFile id).wave p) k := by
      unfold Calib.fft
      rw [Finset.mul_sum]
      exact Finset.sum_congr rfl (fun _ _ => by ring)
    rw [hl]
    by_cases hz : k = 0
    · subst hz
      have h9 : bandChange { demoConf with cal1 := true, cal2 := true } (measuredFile id) 0 = 3 := by
        show ((√(if (0 + 8 / 2) % 8 = 4 then 9 else ((((0 + 8 / 2) % 8 : ℕ) : ℝ) + 1)) : ℝ) : ℂ) = 3
        rw [if_pos (by norm_num), show (9 : ℝ) = 3 ^ 2 by norm_num, Real.sqrt_sq (by norm_num)]
        norm_num
      rw [h9]
      ring
    · rw [h0 hz]
      ring

/-- The hypotheses are met by the example: the product of the distorted echoes, calibrated, is that of the echoes of `demo_run`. -/
example (alg : Surface.Alg) : (measuredFile 0).wave 0 0 ≠ (demoFile 0).wave 0 0 ∧
    ∃ rec, (process demoConf (demoWorld realArg) alg demoFile 2).state.l1b = [rec] ∧ rec.result.out.waveform[8]? = some (some 8) ∧
      (process { demoConf with cal1 := true, cal2 := true } (demoWorld realArg) alg measuredFile 2).state.l1b = [rec] := by
  refine ⟨?_, ?_⟩
  · unfold Raw.wave Calib.echo
    simp [measuredFile, demoFile, Calib.pow10]
    norm_num
  obtain ⟨s, rec, e, h1, _, _, _, h4, h5⟩ := demo_run realArg realArg_isArgsort alg
  have q := (distortion_removed_partial { demoConf with cal1 := true, cal2 := true } (by decide) (by decide) (demoWorld realArg) (demo_steady _) alg demoFile measuredFile
    demo_distorts 2).2.1
  have hc : ({ ({ demoConf with cal1 := true, cal2 := true } : Conf) with cal1 := false, cal2 := false } : Conf) = demoConf := rfl
  rw [hc, e] at q
  rw [e]
  have q : List.Forall₂ _ s.l1b _ := q
  rw [h1] at q
  obtain ⟨r, t, hr, ht, e2⟩ := List.forall₂_cons_left_iff.1 q
  rw [List.forall₂_nil_left_iff.1 ht] at e2
  refine ⟨rec, h1, h5, ?_⟩
  rw [e2, hr.2]
  rw [h4]
  intro id hid
  rw [List.mem_singleton.1 hid]
  rintro ⟨j, ⟨hj, _⟩, _⟩
  omega

end Dedop.Whole
