import Verif.Whole.Aim
import Verif.Whole.Demo

/-!
# Directions of the looks and point targets in the products of a file (C147, C148)
-/
namespace Dedop.Whole

open Real Process

/-! ## Specification -/

/-- All elements of the list but at most one. -/
def AllButOne {A : Type} (P : A → Prop) (l : List A) : Prop :=
  ∀ (i j : ℕ) (x y : A), i < j → l[i]? = some x → l[j]? = some y → P x ∨ P y

/-- Distance of the satellite from the place. -/
noncomputable def distanceTo (c : Conf) (r : Raw) (X : Surface.V) : ℝ := ‖(burst c r).sat - X‖

/-- Position in the window of the record, in samples, of the echo of a point at the place, which is at angle `a` from the velocity:
the time the echo takes, and the Doppler frequency over the slope of the chirp. -/
noncomputable def echoPosition (c : Conf) (r : Raw) (X : Surface.V) (a : ℝ) : ℝ :=
  (2 * distanceTo c r X / c.c + 2 * (‖r.vel‖ * cos a) / c.wavelength / (c.bandwidth / c.pulseLength) - delay c r) / c.t0

/-- The record holds the echo, of amplitude `A`, of a point at the place `X`, which is at angle `a` from the velocity: the phase
of a pulse is that of twice the distance at its time, and within a pulse the position in the window is a frequency. -/
def TargetEcho (c : Conf) (r : Raw) (X : Surface.V) (a : ℝ) (A : ℂ) : Prop :=
  ∀ p i, p < c.pulses → i < c.samples →
    Calib.echo r.agc (r.i p i) (r.q p i) = A *
      Complex.exp (-(Complex.I * (2 * π * (2 * (distanceTo c r X - ‖r.vel‖ * cos a * (c.pri * p)) / c.wavelength) : ℝ))) *
      Complex.exp (Complex.I * (2 * π * (echoPosition c r X a * i / c.samples) : ℝ))

/-- The file holds the echoes of a point at `X` wherever `X` is in view; they are inside the windows with a margin of half a sample,
with powers from `lo` to `hi`, and the look angle is within the bounds of the configuration. -/
def HoldsTarget (c : Conf) (file : ℕ → Raw) (n : ℕ) (X : Surface.V) (lo hi : ℝ) : Prop :=
  ∀ id < n, ∀ a, InView c file X id a → 0 < a ∧ a < π ∧
    (∃ A : ℂ, TargetEcho c (file id) X a A ∧ lo ≤ ‖A‖ ^ 2 ∧ ‖A‖ ^ 2 ≤ hi) ∧
    |echoPosition c (file id) X a| < ((c.samples : ℝ) - 1) / 2 ∧
    ∀ l h d, c.angleMin = some l → c.angleMax = some h → doppler c (file id) = some d → l < π / 2 + d - a ∧ π / 2 + d - a < h

/-! ## C147 -/

theorem allButOne_of_count {A : Type} (P : A → Prop) (l : List A)
    (h : l.countP (fun x => @decide (¬ P x) (Classical.propDecidable _)) ≤ 1) : AllButOne P l := by
  classical
  intro i j x y hij hx hy
  by_contra hn
  push Not at hn
  have h1 : [x, y].Sublist l := by
    obtain ⟨hi, rfl⟩ := List.getElem?_eq_some_iff.1 hx
    obtain ⟨hj, rfl⟩ := List.getElem?_eq_some_iff.1 hy
    have e1 : [l[i]].Sublist (l.take j) := by
      rw [List.singleton_sublist]
      exact List.mem_take_iff_getElem.2 ⟨i, by omega, rfl⟩
    have e2 : [l[j]].Sublist (l.drop j) := by
      rw [List.singleton_sublist]
      exact List.mem_drop_iff_getElem.2 ⟨0, by simpa using hj, by simp⟩
    have := e1.append e2
    rw [List.take_append_drop] at this
    exact this
  have h2 := h1.countP_le (p := fun x => @decide (¬ P x) (Classical.propDecidable _))
  have h3 : [x, y].countP (fun x => @decide (¬ P x) (Classical.propDecidable _)) = 2 := by
    simp [hn.1, hn.2]
  omega

theorem AllButOne.prefix {A : Type} {P : A → Prop} {l m : List A} (h : AllButOne P l) (hm : m <+: l) : AllButOne P m := by
  obtain ⟨t, rfl⟩ := hm
  intro i j x y hij hx hy
  refine h i j x y hij ?_ ?_
  · rw [List.getElem?_append_left (List.getElem?_eq_some_iff.1 hx).1]; exact hx
  · rw [List.getElem?_append_left (List.getElem?_eq_some_iff.1 hy).1]; exact hy

theorem process_aim (c : Conf) (o : World) (alg : Surface.Alg) (file : ℕ → Raw) (n : ℕ) :
    ∃ its : List (Item ℝ), (∀ i ∈ itemIds its, i < n) ∧ Bounded c file (process c o alg file n).state ∧
      Born c o file (itemIds its) (process c o alg file n).state.l1b := by
  unfold process
  cases h : Reader.openDataset c.bounds (positions file n) with
  | error e =>
    refine ⟨[], by simp [itemIds], ?_, ?_⟩
    · simp [Bounded, Outcome.state, start, astray]
    · intro rec hrec; simp [Outcome.state, start] at hrec
  | ok d =>
    obtain ⟨h1, h2⟩ := items_usable file n d h
    exact ⟨items file n d, fun i hi => (h2 i hi).1, run_aim alg (h1.imp (fun h => Nat.ne_of_lt h))⟩

/-- **C147.**  The looks of a record in either product were formed in the direction of the place given in the record, as seen from the
position of the satellite at the time of their bursts, and within the limits of view.  If the surfaces are adapted to a target, this
holds for all records but at most one (that which was moved). -/
theorem looks_aimed (c : Conf) (o : World) (alg : Surface.Alg) (file : ℕ → Raw) (n : ℕ) :
    AllButOne (Record.Aimed c file) (process c o alg file n).state.l1b ∧
    AllButOne (Record.Aimed c file) (process c o alg file n).state.l1bs ∧
    (c.focusing = false → ∀ rec, rec ∈ (process c o alg file n).state.l1b ∨ rec ∈ (process c o alg file n).state.l1bs →
      rec.Aimed c file) := by
  obtain ⟨its, _, hb, _⟩ := process_aim c o alg file n
  obtain ⟨_, _, _, _, hp, _⟩ := process_products c o alg file n
  unfold Bounded astray at hb
  have h1 : AllButOne (Record.Aimed c file) (process c o alg file n).state.l1b := by
    refine allButOne_of_count _ _ ?_
    refine le_trans (le_of_eq ?_) (hb.trans ?_)
    · congr 1
      funext x
      congr
    · split <;> omega
  refine ⟨h1, h1.prefix hp.second, ?_⟩
  intro hf rec hrec
  rw [if_neg (by simp [hf])] at hb
  have hmem : rec ∈ (process c o alg file n).state.l1b := hrec.elim id (fun h => hp.second.subset h)
  have h0 := List.countP_eq_zero.1 (Nat.le_zero.1 hb) rec hmem
  simpa using h0

/-- The run of the example writes a record. -/
example (alg : Surface.Alg) : ∃ s rec, process demoConf (demoWorld realArg) alg demoFile 2 = .finished s ∧ s.l1b = [rec] ∧
    rec.bursts = [0] ∧ rec.Aimed demoConf demoFile := by
  obtain ⟨s, rec, h1, h2, _, _, _, h3, _⟩ := demo_run realArg realArg_isArgsort alg
  refine ⟨s, rec, h1, h2, h3, ?_⟩
  have := (looks_aimed demoConf (demoWorld realArg) alg demoFile 2).2.2 rfl rec
  rw [h1] at this
  exact this (Or.inl (by show rec ∈ s.l1b; rw [h2]; simp))

/-! ## C148 -/

theorem calibrated_off (c : Conf) (file : ℕ → Raw) (h1 : c.cal1 = false) (h2 : c.cal2 = false) (k id : ℕ) :
    base c file k id = fresh c id (file id) := by
  induction k with
  | zero => rfl
  | succ k ih =>
    rw [base_succ, ih]
    unfold calibrated
    rw [h1, h2, Calib.calibration_off]

theorem distance_of (c : Conf) (r : Raw) (index : ℕ) (s : Chain.Surf) (X : Surface.V) (hs : s.pos = X.ofLp) :
    Chain.distance s (fresh c index r) = distanceTo c r X := by
  unfold Chain.distance distanceTo
  rw [hs, dist_eq_norm]
  rfl

theorem position_of (c : Conf) (r : Raw) (index : ℕ) (s : Chain.Surf) (X : Surface.V) (hs : s.pos = X.ofLp) (a : ℝ) :
    Chain.position c.chain s (fresh c index r) a = echoPosition c r X a := by
  unfold Chain.position Chain.delay echoPosition
  rw [distance_of c r index s X hs]
  rfl

theorem echo_of (c : Conf) (r : Raw) (index : ℕ) (s : Chain.Surf) (X : Surface.V) (hs : s.pos = X.ofLp) (a : ℝ) (A : ℂ)
    (h : TargetEcho c r X a A) : Chain.PointEcho c.chain s (fresh c index r) a A := by
  intro p i hp hi
  have := h p i hp hi
  rw [position_of c r index s X hs, distance_of c r index s X hs]
  exact this

/-- **C148.**  If a file holds the echoes of a point at a place, then, with the exact azimuth processing and the Doppler and slant range
corrections, without calibrations and adaption to a target, every record in either product for that place has its largest sample in
the middle of the waveform, between the smallest and the largest power of the echoes, times the gain of the coherent sums. -/
theorem target_in_centre (c : Conf) (o : World) (ha : Stack.IsArgsort o.argsort) (hround : ∀ x, |(o.round x : ℝ) - x| ≤ 1 / 2)
    (alg : Surface.Alg) (file : ℕ → Raw) (n : ℕ) (h1 : c.cal1 = false) (h2 : c.cal2 = false) (he : c.exactMethod = true)
    (hd : c.dopplerOn = true) (hsl : c.slantOn = true) (hf : c.focusing = false) (hoff : c.weighting = false)
    (hp : 0 < c.pulses) (hs2 : 2 ≤ c.samples) (hz : 0 < c.zp) (hc : c.c ≠ 0) (ht0 : 0 < c.t0) (hlk : 2 ≤ c.looks) (X : Surface.V) (lo hi : ℝ)
    (hX : HoldsTarget c file n X lo hi) (rec : Record)
    (hrec : rec ∈ (process c o alg file n).state.l1b ∨ rec ∈ (process c o alg file n).state.l1bs) (hloc : rec.loc.surf = X) :
    ∃ x, rec.result.out.waveform[c.zp * c.samples / 2]? = some (some x) ∧
      lo * Chain.gain c.chain ≤ x ∧ x ≤ hi * Chain.gain c.chain ∧
      ∀ k y, rec.result.out.waveform[k]? = some (some y) → k ≠ c.zp * c.samples / 2 → y ≤ hi * Chain.gain c.chain ∧
        (0 < lo → Chain.gain c.chain ≠ 0 → y < hi * Chain.gain c.chain) := by
  obtain ⟨its, hids, _, hb⟩ := process_aim c o alg file n
  obtain ⟨_, _, _, _, hprod, _⟩ := process_products c o alg file n
  have hmem : rec ∈ (process c o alg file n).state.l1b := hrec.elim id (fun h => hprod.second.subset h)
  obtain ⟨s2, ⟨hm, hi2, hk, w, rest, f, fs, r, g, e1, e2, e3, e4, rfl⟩, hsight⟩ := hb rec hmem
  rw [hoff, Chain.weighting_off] at e3
  have hw : w ∈ s2.ctl.surfaces := by rw [e1]; simp
  have hfoc : f.focused = false := by
    have := hsight.few
    unfold moves at this
    rw [if_neg (by simp [hf]), e2, moved_cons] at this
    by_contra hn
    rw [if_pos (by simpa using hn)] at this
    omega
  have hpos : (place f).pos = X.ofLp := congrArg WithLp.ofLp hloc
  have hwm : Chain.WellMade c.chain s2.mem (looksOf w) := ⟨hp, fun l hl => hm.looks w hw l hl⟩
  obtain ⟨r1, r2, r3⟩ := rows_of_surface o.argsort ha o.round o.junk c.chain s2.mem (place f) s2.closest (looksOf w) hwm r e3
  have hlen : c.looks / 2 ≤ (looksOf w).length := by
    have := r1.length_le
    simp only [List.length_map] at this
    exact r2.trans this
  -- the amplitude of the echo in each burst
  have hsees : ∀ l ∈ looksOf w, ∀ a, InView c file X l.2.2 a → (s2.mem l.2.2).angles[l.1]? = some a → ∀ A : ℂ,
      TargetEcho c (file l.2.2) X a A → Chain.Sees c.chain (place f) (s2.mem l.2.2) l.1 A := by
    intro l hl a hv hang A hA
    obtain ⟨k1, k2, k3⟩ := (hk w hw).2 _ (mem_looksOf hl)
    have hn : l.2.2 < n := hids _ ((hk w hw).1.subset (mem_looksOf hl))
    have hbody : body (s2.mem l.2.2) = fresh c l.2.2 (file l.2.2) := by
      rw [hm.bodies _ k1, calibrated_off c file h1 h2]
    obtain ⟨t1, t2, _, t3, t4⟩ := hX _ hn a hv
    obtain ⟨o1, o2⟩ := hm.looks w hw l hl
    refine ⟨lt_of_lt_of_le o1 o2.1, ?_, a, hang, t1, t2, ?_, Or.inl he, ?_, ?_⟩
    · have : (body (s2.mem l.2.2)).t0 = c.t0 := by rw [hbody]; rfl
      exact (this ▸ ht0 : 0 < (body (s2.mem l.2.2)).t0)
    · have : Chain.PointEcho c.chain (place f) (body (s2.mem l.2.2)) a A := by
        rw [hbody]; exact echo_of c _ _ _ X hpos a A hA
      exact this
    · have : |Chain.position c.chain (place f) (body (s2.mem l.2.2)) a| < ((c.samples : ℝ) - 1) / 2 := by
        rw [hbody, position_of c _ _ _ X hpos]; exact t3
      exact this
    · intro l' h' e1 e2
      obtain ⟨_, q, d, _, hd', _⟩ := hv
      have hdop : (s2.mem l.2.2).doppler = d := by
        have : (body (s2.mem l.2.2)).doppler = d := by
          rw [hbody]
          show (doppler c (file l.2.2)).getD 0 = d
          rw [hd']; rfl
        exact this
      rw [hdop]
      exact t4 l' h' d e1 e2 hd'
  have hA : ∀ id, ∃ A : ℂ, ∀ l ∈ looksOf w, l.2.2 = id → Chain.Sees c.chain (place f) (s2.mem l.2.2) l.1 A ∧ lo ≤ ‖A‖ ^ 2 ∧ ‖A‖ ^ 2 ≤ hi := by
    intro id
    by_cases hex : ∃ l ∈ looksOf w, l.2.2 = id
    · obtain ⟨l0, hl0, rfl⟩ := hex
      obtain ⟨a, p1, p2⟩ := hsight.aim 0 w f (by rw [e1]; rfl) (by rw [e2]; rfl) hfoc l0 hl0
      have hloc' : f.loc.surf = X := hloc
      rw [hloc'] at p2
      have hn : l0.2.2 < n := hids _ ((hk w hw).1.subset (mem_looksOf hl0))
      obtain ⟨_, _, ⟨A, a1, a2, a3⟩, _⟩ := hX _ hn a p2
      refine ⟨A, ?_⟩
      intro l hl hid
      obtain ⟨b, p3, p4⟩ := hsight.aim 0 w f (by rw [e1]; rfl) (by rw [e2]; rfl) hfoc l hl
      rw [hloc'] at p4
      have hab : b = a := by
        have q1 := p4.1
        rw [hid, p2.1] at q1
        exact (Option.some.inj q1).symm
      subst hab
      exact ⟨hsees l hl b p4 p3 A (by rw [hid]; exact a1), a2, a3⟩
    · exact ⟨0, fun l hl hid => absurd ⟨l, hl, hid⟩ hex⟩
  choose A hA using hA
  have hne : looksOf w ≠ [] := by
    intro h0
    rw [h0] at hlen
    simp only [List.length_nil] at hlen
    omega
  obtain ⟨r', x, p1, p2⟩ := Chain.point_peaks_in_centre o.argsort ha o.round hround o.junk c.chain s2.mem (place f) s2.closest (looksOf w)
    A hp hs2 hz (by show 1 ≤ c.looks; omega) hc hd hsl hne hlen (fun l hl => (hA _ l hl rfl).1) lo hi (fun l hl => (hA _ l hl rfl).2)
  rw [e3] at p1
  cases p1
  exact ⟨x, p2⟩

/-- The echoes of the example are those of a point below the satellite. -/
theorem demo_target : HoldsTarget demoConf demoFile 2 !₂[0, 13, 0] 1 1 := by
  intro id _ a hv
  have hsat : (burst demoConf (demoFile id)).sat = !₂[0, 15, 0] := demo_burst.1
  have hdel : delay demoConf (demoFile id) = 4 := demo_delay
  have hsub : (!₂[0, 15, 0] : Surface.V) - !₂[0, 13, 0] = !₂[0, 2, 0] := by
    ext k; fin_cases k <;> simp <;> norm_num
  have hdist : distanceTo demoConf (demoFile id) !₂[0, 13, 0] = 2 := by
    unfold distanceTo
    rw [hsat, hsub, EuclideanSpace.norm_eq]
    simp [Fin.sum_univ_three]
  have ha : a = π / 2 := by
    obtain ⟨h1, _⟩ := hv
    unfold Surface.beamAngle at h1
    rw [hsat] at h1
    split at h1
    · cases h1
    · have hz : (∑ i, ((!₂[0, 13, 0] - !₂[0, 15, 0] : Surface.V)).ofLp i * (demoFile id).vel.ofLp i) = 0 := by
        simp [Fin.sum_univ_three, demoFile]
      rw [hz, zero_div] at h1
      unfold Geo.npArccos at h1
      split at h1
      · cases h1; exact arccos_zero
      · cases h1
  have hpos : echoPosition demoConf (demoFile id) !₂[0, 13, 0] a = 0 := by
    unfold echoPosition
    rw [hdist, hdel, ha, cos_pi_div_two]
    simp [demoConf]
    norm_num
  have hpi := pi_pos
  refine ⟨by rw [ha]; linarith, by rw [ha]; linarith, ⟨1, ?_, by simp, by simp⟩, ?_, ?_⟩
  · intro p i _ _
    rw [hpos, hdist, ha, cos_pi_div_two]
    have e1 : Calib.echo (demoFile id).agc ((demoFile id).i p i) ((demoFile id).q p i) = 1 := by
      simp [Calib.echo, demoFile, Calib.pow10]
    rw [e1]
    have e2 : Complex.exp (-(Complex.I * ((2 * π * (2 * (2 - ‖(demoFile id).vel‖ * 0 * (demoConf.pri * p)) / demoConf.wavelength) : ℝ) : ℂ))) = 1 := by
      rw [Complex.exp_eq_one_iff]
      refine ⟨-4, ?_⟩
      simp [demoConf]
      ring
    rw [e2]
    simp
  · rw [hpos]
    simp [demoConf]
  · intro l h d h1
    cases h1

example (alg : Surface.Alg) : ∃ s rec, process demoConf (demoWorld realArg) alg demoFile 2 = .finished s ∧ s.l1b = [rec] ∧
    ∃ x, rec.result.out.waveform[2 * 8 / 2]? = some (some x) ∧ 1 * Chain.gain demoConf.chain ≤ x ∧ x ≤ 1 * Chain.gain demoConf.chain := by
  obtain ⟨s, rec, h1, h2, _, _, h3, _, _⟩ := demo_run realArg realArg_isArgsort alg
  refine ⟨s, rec, h1, h2, ?_⟩
  have := target_in_centre demoConf (demoWorld realArg) realArg_isArgsort (by
      intro x
      show |((⌊x + 1 / 2⌋ : ℤ) : ℝ) - x| ≤ 1 / 2
      rw [abs_le]
      constructor
      · linarith [Int.lt_floor_add_one (x + 1 / 2)]
      · linarith [Int.floor_le (x + 1 / 2)]) alg demoFile 2 rfl rfl rfl rfl rfl rfl rfl (by decide) (by decide) (by decide)
    (by simp [demoConf]) (by simp [demoConf]) (by decide) !₂[0, 13, 0] 1 1 demo_target rec
    (by rw [h1]; exact Or.inl (by show rec ∈ s.l1b; rw [h2]; simp)) (by rw [h3]; exact (demo_surf alg).1)
  obtain ⟨x, a, b, d, _⟩ := this
  exact ⟨x, a, b, d⟩

end Dedop.Whole
