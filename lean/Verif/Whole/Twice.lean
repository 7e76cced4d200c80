import Verif.Whole.Demo
import Verif.Whole.Distorted

/-!
# A burst after a gap has the wrong power in the product (C154)

Three bursts with gaps between them, as in `Demo`.  The record made of the second one differs from what it should be.
-/
namespace Dedop.Whole

open Real Process

/-- The configuration of `Demo` with or without CAL1.  Used in the counterexample only. -/
noncomputable def gapConf (b : Bool) : Conf := { demoConf with cal1 := b }

/-- The file of `Demo` with another amplitude and CAL1 power 4.  Used in the counterexample only. -/
noncomputable def gapFile (v : ℝ) (k : ℕ) : Raw := { demoFile k with i := fun _ _ => v, power := fun _ => 4 }

/-- Nothing fails; the call is cancelled in the fifth iteration.  Used in the counterexample only. -/
noncomputable def gapWorld (argsort : List ℝ → List ℕ) : World := { demoWorld argsort with cancelled := fun k => k == 4 }

/-- The surface made by a burst. -/
noncomputable def gapSurf (b : Bool) (v : ℝ) (k : ℕ) (alg : Surface.Alg) : Surface.Surf :=
  Surface.makeSurf (gapConf b).surface (Surface.storeFirst (gapConf b).surface alg.loc (burst (gapConf b) (gapFile v k)))

/-- Burst `k` with the given samples. -/
noncomputable def gapL1A (b : Bool) (v : ℝ) (k : ℕ) (W : ℕ → ℕ → ℂ) : Chain.L1A :=
  { fresh (gapConf b) k (gapFile v k) with wfm := W }

/-- Burst `k` with the given samples and its beam. -/
noncomputable def gapBeam (b : Bool) (v : ℝ) (k : ℕ) (W : ℕ → ℕ → ℂ) : Chain.L1A := { gapL1A b v k W with angles := [π / 2], trend := 1 }

variable (b : Bool) (v : ℝ)

theorem gap_surf (k : ℕ) (alg : Surface.Alg) : (gapSurf b v k alg).loc.surf = !₂[0, 13, 0] ∧ (gapSurf b v k alg).loc.win = 4 := demo_surf alg

theorem gap_angle (k : ℕ) (alg : Surface.Alg) (w : Beams.View ℝ) :
    angle (burst (gapConf b) (gapFile v k)) w [gapSurf b v k alg] 0 = π / 2 := demo_angle alg w

theorem gap_beam (k : ℕ) (W : ℕ → ℕ → ℂ) : (gapBeam b v k W).angles = [π / 2] ∧ (gapBeam b v k W).velocity = 1 ∧ (gapBeam b v k W).pri = 1 ∧
    (gapBeam b v k W).doppler = 0 ∧ (gapBeam b v k W).t0 = 1 ∧ (gapBeam b v k W).winDelay = 4 ∧ (gapBeam b v k W).sat = ![0, 15, 0] ∧
    (gapBeam b v k W).wfm = W := by
  obtain ⟨h1, h2, h3, h4, h5, h6, h7, _⟩ := demo_beam
  exact ⟨h1, h2, h3, h4, h5, h6, h7, rfl⟩

theorem gap_distance (k : ℕ) (W : ℕ → ℕ → ℂ) (alg : Surface.Alg) : Chain.distance (place (gapSurf b v k alg)) (gapBeam b v k W) = 2 :=
  demo_distance alg

theorem gap_record (argsort : List ℝ → List ℕ) (ha : Stack.IsArgsort argsort) (k : ℕ) (W : ℕ → ℕ → ℂ) (A : ℝ) (hA : 0 < A) (hW : ∀ p s, W p s = A)
    (alg : Surface.Alg) (mem : ℕ → Chain.L1A) (hm : mem k = gapBeam b v k W) (cl : ℕ) :
    ∃ r, Chain.surface argsort (fun x => ⌊x + 1 / 2⌋) (fun _ => 0) demoConf.chain mem (place (gapSurf b v k alg)) cl [(0, 0, k)] = .ok (some r) ∧
      r.out.waveform[8]? = some (some (A ^ 2 * 8)) := by
  obtain ⟨b1, b2, b3, b4, b5, b6, b7, b8⟩ := gap_beam b v k W
  have hpos : Chain.position demoConf.chain (place (gapSurf b v k alg)) (gapBeam b v k W) (π / 2) = 0 := by
    unfold Chain.position Chain.delay Chain.dopplerFreq
    rw [gap_distance, b2, b5, b6, Real.cos_pi_div_two]
    simp [Conf.chain, demoConf]
    norm_num
  have hsees : Chain.Sees demoConf.chain (place (gapSurf b v k alg)) (gapBeam b v k W) 0 (A * Complex.exp (Complex.I * (2 * π * (2 * 2 / 1) : ℝ))) := by
    have hpi := Real.pi_pos
    refine ⟨by simp [Conf.chain, demoConf], by rw [b5]; norm_num, π / 2, by rw [b1]; rfl, by linarith, by linarith, ?_, Or.inl rfl, ?_, ?_⟩
    · intro p i _ _
      rw [b8, hW, hpos, gap_distance, b2, b3, Real.cos_pi_div_two, mul_assoc, mul_assoc, ← Complex.exp_add, ← Complex.exp_add]
      simp [Conf.chain, demoConf]
    · rw [hpos]
      norm_num [Conf.chain, demoConf]
    · intro lo hi hlo _
      simp [Chain.maskConf, Conf.chain, demoConf] at hlo
  have hg : Chain.gain demoConf.chain = 8 := by
    unfold Chain.gain
    simp [Conf.chain, demoConf]
    norm_num
  obtain ⟨r, h1, h2, _⟩ := Chain.point_peak_exact argsort ha (fun x => ⌊x + 1 / 2⌋)
    (by
      intro x
      have h1 := Int.floor_le (x + 1 / 2)
      have h2 := Int.lt_floor_add_one (x + 1 / 2)
      rw [abs_le]; constructor <;> linarith)
    (fun _ => 0) demoConf.chain mem (place (gapSurf b v k alg)) cl [(0, 0, k)] (fun _ => A * Complex.exp (Complex.I * (2 * π * (2 * 2 / 1) : ℝ)))
    (by simp [Conf.chain, demoConf]) (by simp [Conf.chain, demoConf]) (by simp [Conf.chain, demoConf]) (by simp [Conf.chain, demoConf])
    (by simp [Conf.chain, demoConf]) rfl rfl (by simp) (by simp [Conf.chain, demoConf])
    (by
      intro l hl
      rw [List.mem_singleton] at hl
      subst hl
      dsimp only
      rw [hm]
      exact hsees)
    (A ^ 2) (by positivity)
    (by
      intro l _
      rw [norm_mul, mul_comm Complex.I, Complex.norm_exp_ofReal_mul_I, Complex.norm_real, Real.norm_of_nonneg hA.le, mul_one])
    (by simp [Conf.chain, demoConf])
  rw [hg] at h2
  refine ⟨r, h1, ?_⟩
  simpa [Conf.chain, demoConf] using h2

theorem gap_sigma0 (argsort : List ℝ → List ℕ) (ha : Stack.IsArgsort argsort) (k : ℕ) (W : ℕ → ℕ → ℂ) (alg : Surface.Alg) (mem : ℕ → Chain.L1A)
    (hm : mem k = gapBeam b v k W) (cl : ℕ) (r : Chain.Result)
    (h : Chain.surface argsort (fun x => ⌊x + 1 / 2⌋) (fun _ => 0) demoConf.chain mem (place (gapSurf b v k alg)) cl [(0, 0, k)] = .ok (some r)) :
    r.gathered.rows.map (·.burst) = [k] ∧ ∃ g, sigma0 (gapConf b) (gapFile v) mem (gapSurf b v k alg) r = some g := by
  obtain ⟨b1, b2, b3, b4, b5, b6, b7, b8⟩ := gap_beam b v k W
  have hw : Chain.WellMade demoConf.chain mem [(0, 0, k)] := by
    refine ⟨by simp [Conf.chain, demoConf], ?_⟩
    intro l hl
    rw [List.mem_singleton] at hl
    subst hl
    dsimp only
    rw [hm]
    refine ⟨by rw [b1]; simp, ?_⟩
    simp [Azimuth.TrendOk, Chain.azBurst, gapBeam, Conf.chain, demoConf]
  obtain ⟨h1, h2, _⟩ := rows_of_surface argsort ha _ _ _ mem _ cl _ hw r h
  have h3 : r.gathered.rows.map (·.burst) = [k] := by
    rw [List.map_cons, List.map_nil] at h1
    rcases List.sublist_cons_iff.1 h1 with h1 | ⟨t, e, h1⟩
    · rw [List.sublist_nil, List.map_eq_nil_iff] at h1
      rw [h1] at h2
      simp [Conf.chain, demoConf] at h2
    · rw [e, List.sublist_nil.1 h1]
  refine ⟨h3, ?_⟩
  have hlen : r.gathered.rows ≠ [] := by
    intro h0
    rw [h0] at h3
    simp at h3
  have hb : ∀ row ∈ r.gathered.rows, row.burst = k := by
    intro row hrow
    have : row.burst ∈ r.gathered.rows.map (·.burst) := List.mem_map_of_mem hrow
    rw [h3] at this
    simpa using this
  obtain ⟨fs, m, hs, _⟩ := Calib.sigma0_mean (gapConf b).radar ⟨by simp [Conf.radar, gapConf, demoConf], by simp [Conf.radar, gapConf, demoConf],
    by simp [Conf.radar, gapConf, demoConf], by simp [Conf.radar, gapConf, demoConf], by simp [Conf.radar, gapConf, demoConf],
    by simp [Conf.radar, gapConf, demoConf]⟩
    (((r.gathered.rows[r.gathered.closest]?).map (fun row => (gapFile v row.burst).agc)).getD 0)
    (r.gathered.rows.map (fun row =>
      ⟨Signal.rangeSatSurf (Chain.geo (gapConf b).chain (place (gapSurf b v k alg)) (mem row.burst) row), (mem row.burst).velocity,
        (mem row.burst).pri⟩))
    (by
      intro l hl
      obtain ⟨row, hrow, rfl⟩ := List.mem_map.1 hl
      rw [hb row hrow, hm]
      refine ⟨?_, by rw [b2]; norm_num, by rw [b3]; norm_num⟩
      unfold Signal.rangeSatSurf Chain.geo place
      dsimp only
      rw [b7, (gap_surf b v k alg).1]
      apply Real.sqrt_pos.2
      norm_num
      positivity)
    (by simpa using hlen)
  exact ⟨(fs, m), hs⟩

theorem gap_input (n k c : ℕ) (hs : Bool) (P : List (Pk ℝ × Bool)) (R : List (Item ℝ)) (sp tp : ℤ) (tr : List Event) (ss : List Surface.Surf)
    (alg' : Surface.Alg) (mem : ℕ → Chain.L1A) (cl : ℕ) (l1 l2 : List Record) (su : List (Beams.Surf (Pk ℝ))) (inp : Option (Pk ℝ)) :
    ∃ tr' mem', inputPhase (gapConf b) (gapFile v)
        ⟨⟨n, true, false, some (-1), some (gapFile v k).time, false, false, hs, inp,
        .record ⟨k + 1, (gapFile v (k + 1)).time⟩ :: R, su, P, c, sp, tp, tr⟩, ss, mem, alg', cl, l1, l2⟩ =
      .ok (false, ⟨⟨n, true, false, some (-1), none, true, false, true, some ⟨k + 1, (gapFile v (k + 1)).time⟩,
        R, su, P, c, sp, tp, tr'⟩, ss, mem', alg', cl, l1, l2⟩) ∧
      mem' k = mem k ∧ mem' (k + 1) = calibrated (gapConf b) (gapFile v (k + 1)) (fresh (gapConf b) (k + 1) (gapFile v (k + 1))) := by
  refine ⟨?tr, ?mem, ?h1, ?h2, ?h3⟩
  case h1 =>
    unfold inputPhase
    dsimp only
    rw [if_neg (by simp), if_neg (by simp)]
    unfold readNext Process.readNext
    dsimp only [St.log]
    unfold handlePacket
    dsimp only [St.log]
    rw [if_neg]
    simp only [inTime, decide_eq_true_eq, gapFile, gapConf, demoFile, demoConf]
    push_cast
    norm_num
    linarith
  case h2 =>
    rw [Function.update_of_ne (by omega), Function.update_of_ne (by omega)]
  case h3 =>
    rw [Function.update_self, Function.update_self]

theorem gap_loop (n k c : ℕ) (hs : Bool) (P : List (Pk ℝ × Bool)) (hP : ∀ x ∈ P, x.2 = true) (R : List (Item ℝ)) (sp tp : ℤ)
    (ht : Beams.trend 2 sp tp 1 = 1) (tr : List Event) (alg alg' : Surface.Alg) (mem : ℕ → Chain.L1A) (W : ℕ → ℕ → ℂ)
    (hm : mem k = gapL1A b v k W) (cl : ℕ) (l1 l2 : List Record) (inp : Option (Pk ℝ)) :
    ∃ tr' mem', packetLoop (gapConf b) (gapFile v) [] (P ++ [(⟨k, (gapFile v k).time⟩, false)])
        ⟨⟨n, true, true, some (-1), none, true, false, true, inp,
        R, [⟨k, [], [], []⟩], P ++ [(⟨k, (gapFile v k).time⟩, false)], c, sp, tp, tr⟩, [gapSurf b v k alg], mem, alg', cl, l1, l2⟩ =
      .ok ⟨⟨n, true, true, some (-1), none, true, false, true, inp,
        R, [⟨k, [0], [0], [⟨k, (gapFile v k).time⟩]⟩], P ++ [(⟨k, (gapFile v k).time⟩, true)], c, 1, 1, tr'⟩,
        [gapSurf b v k alg], mem', alg', cl, l1, l2⟩ ∧ mem' k = gapBeam b v k W ∧ ∀ j, j ≠ k → mem' j = mem j := by
  have hskip : ∀ (P : List (Pk ℝ × Bool)) (done todo : List (Pk ℝ × Bool)) (s : State), (∀ x ∈ P, x.2 = true) →
      packetLoop (gapConf b) (gapFile v) done (P ++ todo) s = packetLoop (gapConf b) (gapFile v) (done ++ P) todo s := by
    intro P
    induction P with
    | nil => intro done todo s _; simp
    | cons x P ih =>
      intro done todo s h
      obtain ⟨p, f⟩ := x
      have hf : f = true := h _ (List.mem_cons_self ..)
      subst hf
      rw [List.cons_append, packetLoop, ih _ _ _ (fun x hx => h x (List.mem_cons_of_mem _ hx)), List.append_assoc]
      rfl
  have hout : Beams.beamAngles (gapConf b).pulses (view (arccos (1 / 4)) (some 0))
      (fun x : Beams.Surf (Pk ℝ) × ℕ => angle (burst (gapConf b) (gapFile v k)) (view (arccos (1 / 4)) (some 0)) [gapSurf b v k alg] x.2)
      (fun x => x.1.counter) (fun x => x.2 == 0) [(⟨k, [], [], []⟩, 0)] = ⟨true, [π / 2], [k]⟩ := by
    have hs : Beams.locationSeen (view (arccos (1 / 4)) (some 0)) (π / 2) = true := by
      unfold Beams.locationSeen view
      have h1 : arccos (1 / 4) ≤ π / 2 := Real.arccos_le_pi_div_two.2 (by norm_num)
      simp only [decide_eq_true_eq]
      constructor <;> linarith
    unfold Beams.beamAngles Beams.anglesLoop
    dsimp only
    rw [gap_angle, if_pos hs]
    rfl
  have hq : qMin (gapConf b) ‖(gapFile v k).vel‖ = .ok (arccos (1 / 4)) := demo_qMin
  have hd : doppler (gapConf b) (gapFile v k) = some 0 := demo_doppler
  have hf : Function.update mem k { mem k with angles := [π / 2], trend := 1 } k = gapBeam b v k W := by
    rw [Function.update_self, hm]
    rfl
  have houter : Beams.outer 2 1 1 (⟨k, (gapFile v k).time⟩ : Pk ℝ) 0 0 [k] [⟨k, [], [], []⟩] = [⟨k, [0], [0], [⟨k, (gapFile v k).time⟩]⟩] := by
    simp only [Beams.outer, Beams.inner, List.drop_zero, if_true, List.take_zero, List.nil_append]
    rfl
  refine ⟨?tr, Function.update mem k { mem k with angles := [π / 2], trend := 1 }, ?h1, hf, fun j hj => Function.update_of_ne hj _ _⟩
  case h1 =>
    rw [hskip P [] _ _ hP]
    unfold packetLoop burstBeams
    dsimp only
    rw [hq, hd]
    dsimp only [List.zipIdx_cons, List.zipIdx_nil]
    rw [hout]
    dsimp only
    rw [show (gapConf b).pulses = 2 from rfl, show [π / 2].length = 1 from rfl, ht, houter]
    rfl

theorem gap_step (argsort : List ℝ → List ℕ) (ha : Stack.IsArgsort argsort) (n k c : ℕ) (hn : (gapWorld argsort).cancelled n = false) (hs : Bool)
    (P : List (Pk ℝ × Bool)) (hP : ∀ x ∈ P, x.2 = true ∧ x.1.counter ≠ k) (R : List (Item ℝ)) (sp tp : ℤ) (ht : Beams.trend 2 sp tp 1 = 1)
    (tr : List Event) (alg alg' : Surface.Alg) (mem : ℕ → Chain.L1A) (W : ℕ → ℕ → ℂ) (A : ℝ) (hA : 0 < A) (hW : ∀ p s, W p s = A)
    (hm : mem k = gapL1A b v k W) (cl : ℕ) (l1 l2 : List Record) :
    ∃ tr' mem' cl' rec, step (gapConf b) (gapWorld argsort) (gapFile v)
        ⟨⟨n, true, false, some (-1), some (gapFile v k).time, false, false, hs, some ⟨k, (gapFile v k).time⟩,
        .record ⟨k + 1, (gapFile v (k + 1)).time⟩ :: R, [⟨k, [], [], []⟩], P ++ [(⟨k, (gapFile v k).time⟩, false)], c, sp, tp, tr⟩,
        [gapSurf b v k alg], mem, alg', cl, l1, l2⟩ =
      .ok ⟨⟨n + 1, true, false, some (-1), none, false, true, true, some ⟨k + 1, (gapFile v (k + 1)).time⟩,
        R, [], [(⟨k, (gapFile v k).time⟩, true)], c, 1, 1, tr'⟩, [], mem', alg', cl', l1 ++ [rec], l2 ++ [rec]⟩ ∧
      rec.bursts = [k] ∧ rec.result.out.waveform[8]? = some (some (A ^ 2 * 8)) ∧
      mem' (k + 1) = calibrated (gapConf b) (gapFile v (k + 1)) (fresh (gapConf b) (k + 1) (gapFile v (k + 1))) := by
  obtain ⟨tr1, mem1, h1, h2, h2'⟩ := gap_input b v (n + 1) k c hs (P ++ [(⟨k, (gapFile v k).time⟩, false)]) R sp tp (tr ++ [.iteration])
    [gapSurf b v k alg] alg' mem cl l1 l2 [⟨k, [], [], []⟩] (some ⟨k, (gapFile v k).time⟩)
  rw [hm] at h2
  obtain ⟨tr2, mem2, h3, h4, h4'⟩ := gap_loop b v (n + 1) k c true P (fun x hx => (hP x hx).1) R sp tp ht tr1 alg alg' mem1 W h2 cl l1 l2
    (some ⟨k + 1, (gapFile v (k + 1)).time⟩)
  obtain ⟨r, h5, h6⟩ := gap_record b v argsort ha k W A hA hW alg mem2 h4 cl
  obtain ⟨h7, g, h8⟩ := gap_sigma0 b v argsort ha k W alg mem2 h4 cl r h5
  have hdrop : (P ++ [((⟨k, (gapFile v k).time⟩ : Pk ℝ), true)]).dropWhile (fun x => x.1.counter != k) = [(⟨k, (gapFile v k).time⟩, true)] := by
    rw [List.dropWhile_append_of_pos]
    · simp
    · intro x hx
      simpa using (hP x hx).2
  refine ⟨?tr, mem2, ?cl, ⟨k, (gapSurf b v k alg).loc, r, g⟩, ?h, h7, h6, by rw [h4' _ (by omega), h2']⟩
  case h =>
    unfold step
    have hb : beginIteration (gapWorld argsort)
        ⟨⟨n, true, false, some (-1), some (gapFile v k).time, false, false, hs, some ⟨k, (gapFile v k).time⟩,
        .record ⟨k + 1, (gapFile v (k + 1)).time⟩ :: R, [⟨k, [], [], []⟩], P ++ [(⟨k, (gapFile v k).time⟩, false)], c, sp, tp, tr⟩,
        [gapSurf b v k alg], mem, alg', cl, l1, l2⟩ =
        ⟨⟨n + 1, true, false, some (-1), some (gapFile v k).time, false, false, hs, some ⟨k, (gapFile v k).time⟩,
        .record ⟨k + 1, (gapFile v (k + 1)).time⟩ :: R, [⟨k, [], [], []⟩], P ++ [(⟨k, (gapFile v k).time⟩, false)], c, sp, tp,
        tr ++ [.iteration]⟩, [gapSurf b v k alg], mem, alg', cl, l1, l2⟩ := by
      unfold beginIteration
      dsimp only
      rw [hn]
      rfl
    rw [hb, h1]
    dsimp only
    unfold surfacePhase State.begun
    dsimp only
    rw [if_pos (Or.inr (Or.inr rfl)), h3]
    dsimp only
    unfold finishSurface
    dsimp only
    have hl : looksOf (⟨k, [0], [0], [⟨k, (gapFile v k).time⟩]⟩ : Beams.Surf (Pk ℝ)) = [(0, 0, k)] := rfl
    rw [hl]
    have h5' : Chain.surfaceAw (gapConf b).weighting (gapConf b).pattern (gapWorld argsort).argsort (gapWorld argsort).round
        (gapWorld argsort).junk (gapConf b).chain mem2 (place (gapSurf b v k alg)) cl [(0, 0, k)] = .ok (some r) := by
      rw [show (gapConf b).weighting = false from rfl, Chain.weighting_off]
      exact h5
    rw [h5']
    dsimp only
    rw [h8]
    dsimp only
    unfold writeSurface
    rw [show ∀ x, (gapWorld argsort).l1bFails x = none from fun _ => rfl]
    dsimp only
    unfold writeL1bs
    rw [show (gapWorld argsort).skipL1bs = false from rfl, show ∀ x, (gapWorld argsort).l1bsFails x = none from fun _ => rfl]
    dsimp only [St.log]
    rw [if_neg (by simp)]
    dsimp only
    unfold clearOld Process.clearOld
    dsimp only
    have hcons : ∃ y ys, P ++ [((⟨k, (gapFile v k).time⟩ : Pk ℝ), true)] = y :: ys := by
      cases P with
      | nil => exact ⟨_, _, rfl⟩
      | cons y ys => exact ⟨_, _, rfl⟩
    obtain ⟨y, ys, hy⟩ := hcons
    rw [hy]
    dsimp only
    rw [← hy, hdrop]
    rfl

theorem gap_run (argsort : List ℝ → List ℕ) (ha : Stack.IsArgsort argsort) (alg : Surface.Alg) (A1 A2 : ℝ) (hA1 : 0 < A1) (hA2 : 0 < A2)
    (h1 : ∀ k p s, (calibrated (gapConf b) (gapFile v k) (fresh (gapConf b) k (gapFile v k))).wfm p s = A1)
    (h2 : ∀ k p s, (calibrated (gapConf b) (gapFile v k) (calibrated (gapConf b) (gapFile v k) (fresh (gapConf b) k (gapFile v k)))).wfm p s = A2) :
    ∃ s r0 r1, process (gapConf b) (gapWorld argsort) alg (gapFile v) 3 = .finished s ∧ s.l1b = [r0, r1] ∧ s.l1bs = [r0, r1] ∧
      r0.bursts = [0] ∧ r0.result.out.waveform[8]? = some (some (A1 ^ 2 * 8)) ∧
      r1.bursts = [1] ∧ r1.result.out.waveform[8]? = some (some (A2 ^ 2 * 8)) := by
  have hitems : ∃ d, Reader.openDataset (gapConf b).bounds (positions (gapFile v) 3) = .ok d ∧
      items (gapFile v) 3 d = [.record ⟨0, (gapFile v 0).time⟩, .record ⟨1, (gapFile v 1).time⟩, .record ⟨2, (gapFile v 2).time⟩] := by
    refine ⟨⟨none, 0, 3, 0⟩, rfl, ?_⟩
    unfold items Reader.iterate positions
    simp [List.range', Reader.checkRoi, Reader.isValid, gapFile, demoFile, List.range_succ]
  have hs1 : ∃ tr alg' mem, step (gapConf b) (gapWorld argsort) (gapFile v)
        (start alg [.record ⟨0, (gapFile v 0).time⟩, .record ⟨1, (gapFile v 1).time⟩, .record ⟨2, (gapFile v 2).time⟩]) =
      .ok ⟨⟨1, true, false, some (-1), some (gapFile v 0).time, false, false, false, some ⟨0, (gapFile v 0).time⟩,
        [.record ⟨1, (gapFile v 1).time⟩, .record ⟨2, (gapFile v 2).time⟩], [⟨0, [], [], []⟩], [(⟨0, (gapFile v 0).time⟩, false)], 1, -1, -1, tr⟩,
        [gapSurf b v 0 alg], mem, alg', 0, [], []⟩ ∧
      mem 0 = calibrated (gapConf b) (gapFile v 0) (fresh (gapConf b) 0 (gapFile v 0)) := by
    refine ⟨_, _, _, rfl, rfl⟩
  obtain ⟨d, e1, e2⟩ := hitems
  obtain ⟨tr1, alg1, mem1, s1, m1⟩ := hs1
  obtain ⟨tr2, mem2, cl2, r0, s2, k2, w2, m2⟩ := gap_step b v argsort ha 1 0 1 rfl false [] (by simp) [.record ⟨2, (gapFile v 2).time⟩] (-1) (-1)
    (by decide) tr1 alg alg1 mem1 _ A1 hA1 (h1 0) m1 0 [] []
  have hs3 : ∃ tr mem alg2, step (gapConf b) (gapWorld argsort) (gapFile v)
        ⟨⟨2, true, false, some (-1), none, false, true, true, some ⟨1, (gapFile v 1).time⟩,
        [.record ⟨2, (gapFile v 2).time⟩], [], [(⟨0, (gapFile v 0).time⟩, true)], 1, 1, 1, tr2⟩, [], mem2, alg1, cl2, [r0], [r0]⟩ =
      .ok ⟨⟨3, true, false, some (-1), some (gapFile v 1).time, false, false, true, some ⟨1, (gapFile v 1).time⟩,
        [.record ⟨2, (gapFile v 2).time⟩], [⟨1, [], [], []⟩], [(⟨0, (gapFile v 0).time⟩, true)] ++ [(⟨1, (gapFile v 1).time⟩, false)], 2, 1, 1, tr⟩,
        [gapSurf b v 1 alg1], mem, alg2, cl2, [r0], [r0]⟩ ∧ mem 1 = calibrated (gapConf b) (gapFile v 1) (mem2 1) := by
    exact ⟨_, Function.update mem2 1 (calibrated (gapConf b) (gapFile v 1) (mem2 1)), _, rfl, Function.update_self (1 : ℕ) (calibrated (gapConf b) (gapFile v 1) (mem2 1)) mem2⟩
  obtain ⟨tr3, mem3, alg3, s3, m3⟩ := hs3
  rw [m2] at m3
  obtain ⟨tr4, mem4, cl4, r1, s4, k4, w4, m4⟩ := gap_step b v argsort ha 3 1 2 rfl true [(⟨0, (gapFile v 0).time⟩, true)] (by simp) [] 1 1
    (by decide) tr3 alg1 alg3 mem3 _ A2 hA2 (h2 1) m3 cl2 [r0] [r0]
  have hs5 : ∃ s, step (gapConf b) (gapWorld argsort) (gapFile v)
        ⟨⟨4, true, false, some (-1), none, false, true, true, some ⟨2, (gapFile v 2).time⟩,
        [], [], [(⟨1, (gapFile v 1).time⟩, true)], 2, 1, 1, tr4⟩, [], mem4, alg3, cl4, [r0, r1], [r0, r1]⟩ = .ok s ∧
      s.l1b = [r0, r1] ∧ s.l1bs = [r0, r1] ∧ s.ctl.running = false := ⟨_, rfl, rfl, rfl, rfl⟩
  obtain ⟨s, s5, l5, l6, hrun⟩ := hs5
  refine ⟨{ s with ctl := s.ctl.log .closed }, r0, r1, ?_, l5, l6, k2, w2, k4, w4⟩
  unfold process
  rw [e1]
  dsimp only
  rw [e2]
  rw [show 3 * ([Item.record (⟨0, (gapFile v 0).time⟩ : Pk ℝ), .record ⟨1, (gapFile v 1).time⟩, .record ⟨2, (gapFile v 2).time⟩]).length + 2 = 11 from rfl]
  rw [run, if_pos (by rfl), s1]
  dsimp only
  rw [run, if_pos (by rfl)]
  rw [List.nil_append] at s2
  erw [s2]
  dsimp only
  rw [run, if_pos (by rfl)]
  erw [s3]
  dsimp only
  rw [run, if_pos (by rfl)]
  erw [s4]
  dsimp only
  rw [run, if_pos (by rfl)]
  erw [s5]
  dsimp only
  rw [run, if_neg (by rw [hrun]; simp)]
  rfl

/-! ## Violation -/

theorem gap_wave (k p s : ℕ) : (gapFile v k).wave p s = v := by
  unfold Raw.wave Calib.echo
  simp [gapFile, demoFile, Calib.pow10]

theorem gap_cal (k : ℕ) (x : Chain.L1A) (y : ℝ) (h : ∀ p s, x.wfm p s = y) (p s : ℕ) : (calibrated (gapConf true) (gapFile v k) x).wfm p s = (2 * y : ℝ) := by
  unfold calibrated Calib.calibrate Calib.cal2 Calib.cal1
  dsimp only
  rw [if_neg (by simp [gapConf, demoConf]), if_pos (show (gapConf true).cal1 = true from rfl), h]
  have h4 : √(4 : ℝ) = 2 := by rw [show (4 : ℝ) = 2 ^ 2 by norm_num]; exact Real.sqrt_sq (by norm_num)
  simp only [gapFile, demoFile, Calib.pow10, h4]
  simp
  ring

theorem gap_distorts (id : ℕ) : Distorts (gapConf true) (gapFile 1 id) (gapFile (1 / 2) id) := by
  refine ⟨rfl, fun _ _ => by norm_num [gapFile], fun h => by simp [gapConf, demoConf] at h, ?_, fun _ _ => ⟨rfl, rfl⟩, fun _ _ => ⟨rfl, rfl⟩⟩
  intro p k hk
  have hp : pulseChange (gapFile (1 / 2) id) p = 1 / 2 := by
    unfold pulseChange
    have h4 : √(4 : ℝ) = 2 := by rw [show (4 : ℝ) = 2 ^ 2 by norm_num]; exact Real.sqrt_sq (by norm_num)
    simp only [gapFile, demoFile, Calib.pow10, h4]
    norm_num
  rw [if_pos (show (gapConf true).cal1 = true from rfl), if_neg (by simp [gapConf, demoConf]), hp, mul_one]
  have hw : (gapFile (1 / 2) id).wave p = fun s => (1 / 2 : ℂ) * (gapFile 1 id).wave p s := by
    funext s
    rw [gap_wave, gap_wave]
    norm_num
  rw [hw]
  unfold Calib.fft
  rw [Finset.sum_mul]
  exact Finset.sum_congr rfl (fun _ _ => by ring)

/-- **C154 is violated.**  A file of three bursts with gaps between them, measured with half the amplitude, which CAL1 says: with calibration the first
record of both products is right, and the second, made of the burst after the gap, has four times the power it would have had without
distortion and calibration. -/
theorem distortion_removed_violated (alg : Surface.Alg) :
    ∃ (c : Conf) (o : World) (arrived measured : ℕ → Raw) (n : ℕ), 0 < c.pulses ∧ 0 < c.samples ∧ (∀ id, Distorts c (arrived id) (measured id)) ∧
      ∃ s t r0 r1 q0 q1 y, process { c with cal1 := false, cal2 := false } o alg arrived n = .finished s ∧ process c o alg measured n = .finished t ∧
        s.l1b = [r0, r1] ∧ t.l1b = [q0, q1] ∧ s.l1bs = [r0, r1] ∧ t.l1bs = [q0, q1] ∧
        q0.result.out.waveform[8]? = r0.result.out.waveform[8]? ∧
        r1.result.out.waveform[8]? = some (some y) ∧ q1.result.out.waveform[8]? = some (some (4 * y)) ∧ 0 < y := by
  have hf : ∀ (b : Bool) (v : ℝ) (k p s : ℕ), (fresh (gapConf b) k (gapFile v k)).wfm p s = v := fun b v k p s => gap_wave v k p s
  have hoff : ∀ (k : ℕ) (x : Chain.L1A), (calibrated (gapConf false) (gapFile 1 k) x).wfm = x.wfm := by
    intro k x
    unfold calibrated
    rw [show (gapConf false).cal1 = false from rfl, show (gapConf false).cal2 = false from rfl, Calib.calibration_off]
  obtain ⟨s, r0, r1, a1, a2, a3, a4, a5, a6, a7⟩ := gap_run false 1 realArg realArg_isArgsort alg 1 1 (by norm_num) (by norm_num)
    (fun k p s => by rw [hoff, hf]) (fun k p s => by rw [hoff, hoff, hf])
  obtain ⟨t, q0, q1, b1, b2, b3, b4, b5, b6, b7⟩ := gap_run true (1 / 2) realArg realArg_isArgsort alg 1 2 (by norm_num) (by norm_num)
    (fun k p s => by rw [gap_cal _ _ _ (1 / 2) (hf true _ k)]; norm_num)
    (fun k p s => by rw [gap_cal _ _ _ 1 (fun p s => by rw [gap_cal _ _ _ (1 / 2) (hf true _ k)]; norm_num)]; norm_num)
  refine ⟨gapConf true, gapWorld realArg, gapFile 1, gapFile (1 / 2), 3, by decide, by decide, gap_distorts, s, t, r0, r1, q0, q1, 8, a1, b1, a2, b2, a3, b3,
    by rw [a5, b5], ?_, ?_, by norm_num⟩
  · rw [a7]; norm_num
  · rw [b7]; norm_num

end Dedop.Whole
