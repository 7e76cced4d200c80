import Verif.Whole.Props
import Verif.Chain.Props
import Verif.Calib.Sigma0
import Verif.Calib.CalProps
import Verif.Geo.Props

/-!
# A run which meets the hypotheses of the theorems about the whole processor

Two bursts with a gap between them.  The first makes a surface below it, which is written when the gap is found; then
the call is cancelled.
-/
namespace Dedop.Whole

open Real Process

/-- A sphere of radius 10; two pulses of eight samples.  Used in the examples only. -/
noncomputable def demoConf : Conf where
  cst := ⟨10, 10, 0⟩
  c := 1
  secInDay := 86400
  earthRadius := 10
  freq := 1
  wavelength := 1
  pulses := 2
  samples := 8
  pri := 1
  bri := 1
  t0 := 1
  meanAlt := 5
  pulseLength := 1
  bandwidth := 1
  powerTx := 1
  antennaGain := 1
  ratioTrc := 1
  ptrWidth := 1
  focusing := false
  latT := 0
  lonT := 0
  altT := 0
  cal1 := false
  cal2 := false
  table := 0
  zp := 2
  looks := 2
  window := fun _ => 1
  exactMethod := true
  dopplerOn := true
  slantOn := true
  maskOn := false
  avoidZeros := true
  angleMin := none
  angleMax := none
  weighting := false
  pattern := ⟨none, none, none⟩
  bounds := ⟨none, none, none, none⟩

/-- Burst `k` at time `100 k`, at longitude 90 degrees and altitude 5, flying north, with the echo of a point in the middle of the
window. -/
noncomputable def demoFile (k : ℕ) : Raw where
  time := 100 * k
  days := 0
  secs := 100 * k
  lat := 0
  lon := 90
  alt := 5
  altRate := 0
  vel := !₂[0, 0, 1]
  roll := 0
  pitch := 0
  yaw := 0
  pitchSat := 0
  cogCor := 0
  range := 2
  agc := 0
  sig0Cal := 0
  i := fun _ _ => 1
  q := fun _ _ => 0
  power := fun _ => 1
  phase := fun _ => 0
  gprw := fun _ _ => 1

/-- Nothing fails; the call is cancelled at the start of the third iteration. -/
noncomputable def demoWorld (argsort : List ℝ → List ℕ) : World where
  argsort := argsort
  round := fun x => ⌊x + 1 / 2⌋
  junk := fun _ => 0
  cancelled := fun k => k == 2
  l1bFails := fun _ => none
  l1bsFails := fun _ => none
  finishFails := none
  skipL1bs := false

theorem demo_radians : radians (demoFile 0).lon = π / 2 := by
  show 90 * π / 180 = π / 2
  ring

theorem demo_ecef (alt : ℝ) : Surface.ecef demoConf.surface 0 (π / 2) alt = !₂[0, 10 + alt, 0] := by
  unfold Surface.ecef Geo.lla2ecef
  simp [Conf.surface, demoConf]

theorem demo_delay : delay demoConf (demoFile 0) = 4 := by
  show (2 + Real.cos 0 * 0) * 2 / 1 = (4 : ℝ)
  norm_num

theorem demo_radians_lat : radians (demoFile 0).lat = 0 := by
  show 0 * π / 180 = 0
  ring

theorem demo_burst : (burst demoConf (demoFile 0)).sat = !₂[0, 15, 0] ∧ (burst demoConf (demoFile 0)).win = 4 ∧
    (burst demoConf (demoFile 0)).lat = 0 ∧ (burst demoConf (demoFile 0)).lon = π / 2 := by
  refine ⟨?_, demo_delay, demo_radians_lat, demo_radians⟩
  show Surface.ecef demoConf.surface (radians (demoFile 0).lat) (radians (demoFile 0).lon) 5 = _
  rw [demo_radians, demo_radians_lat, demo_ecef]
  norm_num

theorem demo_vel : ‖(demoFile 0).vel‖ = 1 := by
  rw [EuclideanSpace.norm_eq]
  simp [demoFile, Fin.sum_univ_three]

theorem demo_norm (x : ℝ) (h0 : 0 ≤ x) (h : x ≤ π / 2) : Surface.norm demoConf.surface x = x := by
  have := Real.pi_pos
  obtain ⟨s, h1, _, _, _, h2⟩ := Geo.normalize_partial Real.pi_pos x
  unfold Surface.norm
  show (Geo.normalize id π (⌈|x| / (2 * π)⌉₊ + 2) x).getD x = x
  rw [h1, h2 (by linarith) (by linarith)]
  rfl

/-- The surface made by the first burst. -/
noncomputable def demoSurf (alg : Surface.Alg) : Surface.Surf :=
  Surface.makeSurf demoConf.surface (Surface.storeFirst demoConf.surface alg.loc (burst demoConf (demoFile 0)))

theorem demo_surf (alg : Surface.Alg) : (demoSurf alg).loc.surf = !₂[0, 13, 0] ∧ (demoSurf alg).loc.win = 4 := by
  obtain ⟨h1, h2, h3, h4⟩ := demo_burst
  refine ⟨?_, h2⟩
  show Surface.ecef demoConf.surface (Surface.norm demoConf.surface (burst demoConf (demoFile 0)).lat)
    (Surface.norm demoConf.surface (burst demoConf (demoFile 0)).lon) (5 - (burst demoConf (demoFile 0)).win * 1 / 2) = _
  have := Real.pi_pos
  rw [h3, h4, h2, demo_norm 0 le_rfl (by linarith), demo_norm (π / 2) (by linarith) le_rfl, demo_ecef]
  norm_num

theorem demo_doppler : doppler demoConf (demoFile 0) = some 0 := by
  have h : Surface.ecef demoConf.surface (radians (demoFile 0).lat) (radians (demoFile 0).lon) ((demoFile 0).alt - demoConf.meanAlt) -
      (burst demoConf (demoFile 0)).sat = !₂[0, -5, 0] := by
    rw [demo_radians, demo_radians_lat, demo_ecef, demo_burst.1]
    apply Surface.vec_ext <;> simp [demoFile, demoConf] <;> norm_num
  unfold doppler
  rw [h]
  unfold Calib.dopplerAngle
  have hc : Calib.cross (Calib.cross !₂[0, -5, 0] (demoFile 0).vel) !₂[0, -5, 0] = !₂[0, 0, 25] := by
    unfold Calib.cross
    apply Surface.vec_ext <;> simp [demoFile]
    norm_num
  rw [hc]
  have ha : Geo.angleBetween id (demoFile 0).vel !₂[0, 0, 25] = some 0 := by
    have hn : ‖(!₂[0, 0, 25] : Surface.V)‖ = 25 := by
      rw [EuclideanSpace.norm_eq]
      simp [Fin.sum_univ_three]
    unfold Geo.angleBetween
    rw [demo_vel, hn]
    rw [if_neg (by norm_num)]
    simp [demoFile, Fin.sum_univ_three, Geo.npArccos]
  rw [ha]
  have := Real.pi_pos
  simp

theorem demo_qMin : qMin demoConf ‖(demoFile 0).vel‖ = .ok (arccos (1 / 4)) := by
  rw [demo_vel]
  unfold qMin
  have h : demoConf.c / demoConf.pri / 4 / demoConf.freq / 1 = 1 / 4 := by simp [demoConf]
  rw [h, if_neg (by simp [demoConf]), if_neg (by norm_num), if_pos (by norm_num)]

theorem demo_angle (alg : Surface.Alg) (v : Beams.View ℝ) : angle (burst demoConf (demoFile 0)) v [demoSurf alg] 0 = π / 2 := by
  unfold angle
  have h : Surface.beamAngle (demoSurf alg).loc.surf (burst demoConf (demoFile 0)).sat (burst demoConf (demoFile 0)).vel = some (π / 2) := by
    rw [(demo_surf alg).1, demo_burst.1]
    show Surface.beamAngle _ _ (demoFile 0).vel = _
    unfold Surface.beamAngle
    have hn : ‖(!₂[0, 13, 0] : Surface.V) - !₂[0, 15, 0]‖ = 2 := by
      rw [EuclideanSpace.norm_eq]
      simp only [Fin.sum_univ_three]
      simp
      rw [show ((13 : ℝ) - 15) ^ 2 = 2 ^ 2 by norm_num, Real.sqrt_sq (by norm_num)]
    rw [hn, demo_vel, if_neg (by norm_num)]
    simp [demoFile, Fin.sum_univ_three, Geo.npArccos]
  simp [h]

theorem demo_items : ∃ d, Reader.openDataset demoConf.bounds (positions demoFile 2) = .ok d ∧
    items demoFile 2 d = [.record ⟨0, (demoFile 0).time⟩, .record ⟨1, (demoFile 1).time⟩] := by
  refine ⟨⟨none, 0, 2, 0⟩, rfl, ?_⟩
  unfold items Reader.iterate positions
  simp [List.range', Reader.checkRoi, Reader.isValid, demoFile, List.range_succ]

/-- The first burst before the beams are formed. -/
noncomputable def demoL1A : Chain.L1A := calibrated demoConf (demoFile 0) (fresh demoConf 0 (demoFile 0))

/-- The first burst with its beam. -/
noncomputable def demoBeam : Chain.L1A := { demoL1A with angles := [π / 2], trend := 1 }

theorem demo_step1 (argsort : List ℝ → List ℕ) (alg : Surface.Alg) :
    ∃ tr alg' mem, step demoConf (demoWorld argsort) demoFile
        (start alg [.record ⟨0, (demoFile 0).time⟩, .record ⟨1, (demoFile 1).time⟩]) =
      .ok ⟨⟨1, true, false, some (-1), some (demoFile 0).time, false, false, false, some ⟨0, (demoFile 0).time⟩,
        [.record ⟨1, (demoFile 1).time⟩], [⟨0, [], [], []⟩], [(⟨0, (demoFile 0).time⟩, false)], 1, -1, -1, tr⟩,
        [demoSurf alg], mem, alg', 0, [], []⟩ ∧ mem 0 = demoL1A ∧ acceptedOf tr = [0] := by
  refine ⟨_, _, _, rfl, rfl, rfl⟩

theorem demo_input2 (tr : List Event) (alg : Surface.Alg) (alg' : Surface.Alg) (mem : ℕ → Chain.L1A) :
    ∃ tr' mem', inputPhase demoConf demoFile
        ⟨⟨2, true, false, some (-1), some (demoFile 0).time, false, false, false, some ⟨0, (demoFile 0).time⟩,
        [.record ⟨1, (demoFile 1).time⟩], [⟨0, [], [], []⟩], [(⟨0, (demoFile 0).time⟩, false)], 1, -1, -1, tr⟩,
        [demoSurf alg], mem, alg', 0, [], []⟩ =
      .ok (false, ⟨⟨2, true, false, some (-1), none, true, false, true, some ⟨1, (demoFile 1).time⟩,
        [], [⟨0, [], [], []⟩], [(⟨0, (demoFile 0).time⟩, false)], 1, -1, -1, tr'⟩,
        [demoSurf alg], mem', alg', 0, [], []⟩) ∧ mem' 0 = mem 0 ∧ acceptedOf tr' = acceptedOf tr := by
  refine ⟨?tr, ?mem, ?h1, ?h2, ?h3⟩
  case h1 =>
    unfold inputPhase
    dsimp only
    rw [if_neg (by simp), if_neg (by simp)]
    unfold readNext Process.readNext
    dsimp only [St.log]
    unfold handlePacket
    dsimp only [St.log]
    rw [if_neg]
    simp only [inTime, decide_eq_true_eq, demoFile, demoConf]
    norm_num
  case h2 => rfl
  case h3 => simp [acceptedOf]

theorem demo_azimuth : ∃ beams, Chain.azimuth demoConf.chain demoBeam = .ok beams := ⟨_, rfl⟩

theorem demo_loop (tr : List Event) (alg : Surface.Alg) (alg' : Surface.Alg) (mem : ℕ → Chain.L1A) (hm : mem 0 = demoL1A) :
    ∃ tr' mem', packetLoop demoConf demoFile [] [(⟨0, (demoFile 0).time⟩, false)]
        ⟨⟨2, true, true, some (-1), none, true, false, true, some ⟨1, (demoFile 1).time⟩,
        [], [⟨0, [], [], []⟩], [(⟨0, (demoFile 0).time⟩, false)], 1, -1, -1, tr⟩,
        [demoSurf alg], mem, alg', 0, [], []⟩ =
      .ok ⟨⟨2, true, true, some (-1), none, true, false, true, some ⟨1, (demoFile 1).time⟩,
        [], [⟨0, [0], [0], [⟨0, (demoFile 0).time⟩]⟩], [(⟨0, (demoFile 0).time⟩, true)], 1, 1, 1, tr'⟩,
        [demoSurf alg], mem', alg', 0, [], []⟩ ∧ mem' 0 = demoBeam ∧ acceptedOf tr' = acceptedOf tr := by
  have hout : Beams.beamAngles demoConf.pulses (view (arccos (1 / 4)) (some 0))
      (fun x : Beams.Surf (Pk ℝ) × ℕ => angle (burst demoConf (demoFile 0)) (view (arccos (1 / 4)) (some 0)) [demoSurf alg] x.2)
      (fun x => x.1.counter) (fun x => x.2 == 0) [(⟨0, [], [], []⟩, 0)] = ⟨true, [π / 2], [0]⟩ := by
    have hs : Beams.locationSeen (view (arccos (1 / 4)) (some 0)) (π / 2) = true := by
      unfold Beams.locationSeen view
      have h1 : arccos (1 / 4) ≤ π / 2 := Real.arccos_le_pi_div_two.2 (by norm_num)
      simp only [decide_eq_true_eq]
      constructor <;> linarith
    unfold Beams.beamAngles Beams.anglesLoop
    dsimp only
    rw [demo_angle, if_pos hs]
    rfl
  have hf : Function.update mem 0 { mem 0 with angles := [π / 2], trend := 1 } 0 = demoBeam := by
    rw [Function.update_self, hm]
    rfl
  refine ⟨?tr, Function.update mem 0 { mem 0 with angles := [π / 2], trend := 1 }, ?h1, hf, ?h2⟩
  case h1 =>
    unfold packetLoop burstBeams
    dsimp only
    rw [demo_qMin, demo_doppler]
    dsimp only [List.zipIdx_cons, List.zipIdx_nil]
    rw [hout]
    rfl
  case h2 => simp [acceptedOf, St.log]

theorem demo_beam : demoBeam.angles = [π / 2] ∧ demoBeam.velocity = 1 ∧ demoBeam.pri = 1 ∧ demoBeam.doppler = 0 ∧ demoBeam.t0 = 1 ∧
    demoBeam.winDelay = 4 ∧ demoBeam.sat = ![0, 15, 0] ∧ ∀ p i, demoBeam.wfm p i = 1 := by
  refine ⟨rfl, demo_vel, rfl, ?_, rfl, demo_delay, ?_, ?_⟩
  · show (doppler demoConf (demoFile 0)).getD 0 = 0
    rw [demo_doppler]
    rfl
  · show (burst demoConf (demoFile 0)).sat.ofLp = _
    rw [demo_burst.1]
  · intro p i
    show Calib.calibrate false false 8 0 0 (fun _ => 1) (fun _ => 0) (fun _ => 1) (fun _ _ => Calib.echo 0 1 0) p i = 1
    rw [Calib.calibration_off]
    unfold Calib.echo Calib.pow10
    simp

theorem demo_distance (alg : Surface.Alg) : Chain.distance (place (demoSurf alg)) demoBeam = 2 := by
  unfold Chain.distance
  rw [demo_beam.2.2.2.2.2.2.1]
  show dist (WithLp.toLp 2 ![0, 15, 0] : EuclideanSpace ℝ (Fin 3)) (WithLp.toLp 2 (demoSurf alg).loc.surf.ofLp) = 2
  rw [(demo_surf alg).1, EuclideanSpace.dist_eq]
  simp only [Fin.sum_univ_three]
  simp [Real.dist_eq]
  rw [show ((15 : ℝ) - 13) ^ 2 = 2 ^ 2 by norm_num, Real.sqrt_sq (by norm_num)]

/-- The record of the surface: the sample in the centre has 8 times the power of the echoes. -/
theorem demo_record (argsort : List ℝ → List ℕ) (ha : Stack.IsArgsort argsort) (alg : Surface.Alg) (mem : ℕ → Chain.L1A)
    (hm : mem 0 = demoBeam) :
    ∃ r, Chain.surface argsort (fun x => ⌊x + 1 / 2⌋) (fun _ => 0) demoConf.chain mem (place (demoSurf alg)) 0 [(0, 0, 0)] = .ok (some r) ∧
      r.out.waveform[8]? = some (some 8) := by
  obtain ⟨b1, b2, b3, b4, b5, b6, b7, b8⟩ := demo_beam
  have hpos : Chain.position demoConf.chain (place (demoSurf alg)) demoBeam (π / 2) = 0 := by
    unfold Chain.position Chain.delay Chain.dopplerFreq
    rw [demo_distance, b2, b5, b6, Real.cos_pi_div_two]
    simp [Conf.chain, demoConf]
    norm_num
  have hsees : Chain.Sees demoConf.chain (place (demoSurf alg)) demoBeam 0 (Complex.exp (Complex.I * (2 * π * (2 * 2 / 1) : ℝ))) := by
    have hpi := Real.pi_pos
    refine ⟨by simp [Conf.chain, demoConf], by rw [b5]; norm_num, π / 2, by rw [b1]; rfl, by linarith, by linarith, ?_, Or.inl rfl, ?_, ?_⟩
    · intro p i _ _
      rw [b8, hpos, demo_distance, b2, b3, Real.cos_pi_div_two, ← Complex.exp_add, ← Complex.exp_add]
      simp [Conf.chain, demoConf]
    · rw [hpos]
      norm_num [Conf.chain, demoConf]
    · intro lo hi hlo _
      simp [Chain.maskConf, Conf.chain, demoConf] at hlo
  have hg : Chain.gain demoConf.chain = 8 := by
    unfold Chain.gain
    simp [Conf.chain, demoConf]
    norm_num
  obtain ⟨r, h1, h2, _⟩ := Chain.point_peak_exact argsort ha (fun x => ⌊x + 1 / 2⌋)
    (by
      intro x
      have h1 := Int.floor_le (x + 1 / 2)
      have h2 := Int.lt_floor_add_one (x + 1 / 2)
      rw [abs_le]; constructor <;> linarith)
    (fun _ => 0) demoConf.chain mem (place (demoSurf alg)) 0 [(0, 0, 0)] (fun _ => Complex.exp (Complex.I * (2 * π * (2 * 2 / 1) : ℝ)))
    (by simp [Conf.chain, demoConf]) (by simp [Conf.chain, demoConf]) (by simp [Conf.chain, demoConf]) (by simp [Conf.chain, demoConf])
    (by simp [Conf.chain, demoConf]) rfl rfl (by simp) (by simp [Conf.chain, demoConf])
    (by
      intro l hl
      rw [List.mem_singleton] at hl
      subst hl
      rw [hm]
      exact hsees)
    1 (by norm_num)
    (by
      intro l _
      rw [mul_comm Complex.I, Complex.norm_exp_ofReal_mul_I]
      norm_num)
    (by simp [Conf.chain, demoConf])
  rw [hg] at h2
  refine ⟨r, h1, ?_⟩
  simpa [Conf.chain, demoConf] using h2

theorem demo_sigma0 (argsort : List ℝ → List ℕ) (ha : Stack.IsArgsort argsort) (alg : Surface.Alg) (mem : ℕ → Chain.L1A)
    (hm : mem 0 = demoBeam) (r : Chain.Result)
    (h : Chain.surface argsort (fun x => ⌊x + 1 / 2⌋) (fun _ => 0) demoConf.chain mem (place (demoSurf alg)) 0 [(0, 0, 0)] = .ok (some r)) :
    r.gathered.rows.map (·.burst) = [0] ∧ ∃ g, sigma0 demoConf demoFile mem (demoSurf alg) r = some g := by
  have hw : Chain.WellMade demoConf.chain mem [(0, 0, 0)] := by
    refine ⟨by simp [Conf.chain, demoConf], ?_⟩
    intro l hl
    rw [List.mem_singleton] at hl
    subst hl
    rw [hm]
    refine ⟨by rw [demo_beam.1]; simp, ?_⟩
    simp [Azimuth.TrendOk, Chain.azBurst, demoBeam, Conf.chain, demoConf]
  obtain ⟨h1, h2, _⟩ := rows_of_surface argsort ha _ _ _ mem _ 0 _ hw r h
  have h3 : r.gathered.rows.map (·.burst) = [0] := by
    rw [List.map_cons, List.map_nil] at h1
    rcases List.sublist_cons_iff.1 h1 with h1 | ⟨t, e, h1⟩
    · rw [List.sublist_nil, List.map_eq_nil_iff] at h1
      rw [h1] at h2
      simp [Conf.chain, demoConf] at h2
    · rw [e, List.sublist_nil.1 h1]
  refine ⟨h3, ?_⟩
  have hlen : r.gathered.rows ≠ [] := by
    intro h0
    rw [h0] at h3
    simp at h3
  have hb : ∀ row ∈ r.gathered.rows, row.burst = 0 := by
    intro row hrow
    have : row.burst ∈ r.gathered.rows.map (·.burst) := List.mem_map_of_mem hrow
    rw [h3] at this
    simpa using this
  obtain ⟨fs, m, hs, _⟩ := Calib.sigma0_mean demoConf.radar ⟨by simp [Conf.radar, demoConf], by simp [Conf.radar, demoConf],
    by simp [Conf.radar, demoConf], by simp [Conf.radar, demoConf], by simp [Conf.radar, demoConf], by simp [Conf.radar, demoConf]⟩
    (((r.gathered.rows[r.gathered.closest]?).map (fun row => (demoFile row.burst).agc)).getD 0)
    (r.gathered.rows.map (fun row =>
      ⟨Signal.rangeSatSurf (Chain.geo demoConf.chain (place (demoSurf alg)) (mem row.burst) row), (mem row.burst).velocity,
        (mem row.burst).pri⟩))
    (by
      intro l hl
      obtain ⟨row, hrow, rfl⟩ := List.mem_map.1 hl
      rw [hb row hrow, hm]
      obtain ⟨b1, b2, b3, b4, b5, b6, b7, b8⟩ := demo_beam
      refine ⟨?_, by rw [b2]; norm_num, by rw [b3]; norm_num⟩
      unfold Signal.rangeSatSurf Chain.geo place
      dsimp only
      rw [b7, (demo_surf alg).1]
      apply Real.sqrt_pos.2
      norm_num
      positivity)
    (by simpa using hlen)
  exact ⟨(fs, m), hs⟩

theorem demo_step2 (argsort : List ℝ → List ℕ) (ha : Stack.IsArgsort argsort) (tr : List Event) (alg : Surface.Alg) (alg' : Surface.Alg)
    (mem : ℕ → Chain.L1A) (hm : mem 0 = demoL1A) :
    ∃ tr' mem' cl rec, step demoConf (demoWorld argsort) demoFile
        ⟨⟨1, true, false, some (-1), some (demoFile 0).time, false, false, false, some ⟨0, (demoFile 0).time⟩,
        [.record ⟨1, (demoFile 1).time⟩], [⟨0, [], [], []⟩], [(⟨0, (demoFile 0).time⟩, false)], 1, -1, -1, tr⟩,
        [demoSurf alg], mem, alg', 0, [], []⟩ =
      .ok ⟨⟨2, true, false, some (-1), none, false, true, true, some ⟨1, (demoFile 1).time⟩,
        [], [], [(⟨0, (demoFile 0).time⟩, true)], 1, 1, 1, tr'⟩,
        [], mem', alg', cl, [rec], [rec]⟩ ∧ rec.counter = 0 ∧ rec.loc = (demoSurf alg).loc ∧ rec.bursts = [0] ∧
        rec.result.out.waveform[8]? = some (some 8) ∧ acceptedOf tr' = acceptedOf tr := by
  obtain ⟨tr1, mem1, h1, h2, a1⟩ := demo_input2 (tr ++ [.iteration]) alg alg' mem
  rw [hm] at h2
  obtain ⟨tr2, mem2, h3, h4, a2⟩ := demo_loop tr1 alg alg' mem1 h2
  obtain ⟨r, h5, h6⟩ := demo_record argsort ha alg mem2 h4
  obtain ⟨h7, g, h8⟩ := demo_sigma0 argsort ha alg mem2 h4 r h5
  refine ⟨?tr, mem2, ?cl, ⟨0, (demoSurf alg).loc, r, g⟩, ?h, rfl, rfl, h7, h6, ?a⟩
  case h =>
    unfold step
    show (match inputPhase demoConf demoFile ⟨⟨2, true, false, some (-1), some (demoFile 0).time, false, false, false, some ⟨0, (demoFile 0).time⟩,
        [.record ⟨1, (demoFile 1).time⟩], [⟨0, [], [], []⟩], [(⟨0, (demoFile 0).time⟩, false)], 1, -1, -1, tr ++ [.iteration]⟩,
        [demoSurf alg], mem, alg', 0, [], []⟩ with
      | .error x => .error x
      | .ok (true, s) => .ok s
      | .ok (false, s) =>
        match surfacePhase demoConf (demoWorld argsort) demoFile s with
        | .error x => .error x
        | .ok s => endPhase s : Out State) = _
    rw [h1]
    dsimp only
    unfold surfacePhase State.begun
    dsimp only
    rw [if_pos (Or.inr (Or.inr rfl)), h3]
    dsimp only
    unfold finishSurface
    dsimp only
    have hl : looksOf (⟨0, [0], [0], [⟨0, (demoFile 0).time⟩]⟩ : Beams.Surf (Pk ℝ)) = [(0, 0, 0)] := rfl
    rw [hl]
    have h5' : Chain.surfaceAw demoConf.weighting demoConf.pattern (demoWorld argsort).argsort (demoWorld argsort).round
        (demoWorld argsort).junk demoConf.chain mem2 (place (demoSurf alg)) 0 [(0, 0, 0)] = .ok (some r) := by
      rw [show demoConf.weighting = false from rfl, Chain.weighting_off]
      exact h5
    rw [h5']
    dsimp only
    rw [h8]
    rfl
  case a =>
    have h0 : acceptedOf (tr ++ [.iteration]) = acceptedOf tr := by simp [acceptedOf]
    rw [← h0, ← a1, ← a2]
    simp [acceptedOf, St.log]

theorem demo_step3 (argsort : List ℝ → List ℕ) (tr : List Event) (alg' : Surface.Alg) (mem : ℕ → Chain.L1A) (cl : ℕ) (rec : Record) :
    ∃ s, step demoConf (demoWorld argsort) demoFile
        ⟨⟨2, true, false, some (-1), none, false, true, true, some ⟨1, (demoFile 1).time⟩,
        [], [], [(⟨0, (demoFile 0).time⟩, true)], 1, 1, 1, tr⟩, [], mem, alg', cl, [rec], [rec]⟩ = .ok s ∧
      s.l1b = [rec] ∧ s.l1bs = [rec] ∧ s.ctl.running = false ∧ acceptedOf s.ctl.trace = acceptedOf tr ++ [1] :=
  ⟨_, rfl, rfl, rfl, rfl, by
    show acceptedOf (((((tr ++ [.iteration]) ++ [.cancelSeen]) ++ [.calibrated 1]) ++ [.accepted 1]) ++ [.created 1]) = _
    simp [acceptedOf]⟩

/-- The run ends normally after both bursts; both products have one record, made of the first burst, with a waveform that peaks in the
centre. -/
theorem demo_run_full (argsort : List ℝ → List ℕ) (ha : Stack.IsArgsort argsort) (alg : Surface.Alg) :
    ∃ s rec, process demoConf (demoWorld argsort) alg demoFile 2 = .finished s ∧ s.l1b = [rec] ∧ s.l1bs = [rec] ∧
      rec.counter = 0 ∧ rec.loc = (demoSurf alg).loc ∧ rec.bursts = [0] ∧ rec.result.out.waveform[8]? = some (some 8) ∧
      acceptedOf s.ctl.trace = [0, 1] := by
  obtain ⟨d, h1, h2⟩ := demo_items
  obtain ⟨tr, alg', mem, h3, hm, a1⟩ := demo_step1 argsort alg
  obtain ⟨tr2, mem2, cl, rec, h4, h5, h6, h7, h8, a2⟩ := demo_step2 argsort ha tr alg alg' mem hm
  obtain ⟨s, h9, h10, h11, h12, a3⟩ := demo_step3 argsort tr2 alg' mem2 cl rec
  refine ⟨{ s with ctl := s.ctl.log .closed }, rec, ?_, h10, h11, h5, h6, h7, h8, ?_⟩
  swap
  · rw [a2, a1] at a3
    simpa [acceptedOf, St.log] using a3
  unfold process
  rw [h1]
  dsimp only
  rw [h2]
  rw [show 3 * ([Item.record (⟨0, (demoFile 0).time⟩ : Pk ℝ), .record ⟨1, (demoFile 1).time⟩]).length + 2 = 8 from rfl]
  rw [run, if_pos (by rfl), h3]
  dsimp only
  rw [run, if_pos (by rfl), h4]
  dsimp only
  rw [run, if_pos (by rfl), h9]
  dsimp only
  rw [run, if_neg (by rw [h12]; simp)]
  rfl

theorem demo_run (argsort : List ℝ → List ℕ) (ha : Stack.IsArgsort argsort) (alg : Surface.Alg) :
    ∃ s rec, process demoConf (demoWorld argsort) alg demoFile 2 = .finished s ∧ s.l1b = [rec] ∧ s.l1bs = [rec] ∧
      rec.counter = 0 ∧ rec.loc = (demoSurf alg).loc ∧ rec.bursts = [0] ∧ rec.result.out.waveform[8]? = some (some 8) := by
  obtain ⟨s, rec, h1, h2, h3, h4, h5, h6, h7, _⟩ := demo_run_full argsort ha alg
  exact ⟨s, rec, h1, h2, h3, h4, h5, h6, h7⟩

/-- An order for `np.argsort` on the reals, by insertion. -/
noncomputable def realArg (l : List ℝ) : List ℕ := by
  classical exact (List.range l.length).insertionSort (fun i j => l.getD i 0 ≤ l.getD j 0)

theorem realArg_isArgsort : Stack.IsArgsort realArg := by
  classical
  intro l
  refine ⟨List.perm_insertionSort _ _, ?_⟩
  have : Std.Total (fun i j : ℕ => l.getD i 0 ≤ l.getD j 0) := ⟨fun i j => le_total _ _⟩
  have : IsTrans ℕ (fun i j : ℕ => l.getD i 0 ≤ l.getD j 0) := ⟨fun _ _ _ => le_trans⟩
  exact List.pairwise_insertionSort _ _

theorem demo_base (k id : ℕ) : base demoConf demoFile k id = fresh demoConf id (demoFile id) := by
  induction k with
  | zero => rfl
  | succ k ih =>
    unfold base at ih ⊢
    rw [Function.iterate_succ_apply', ih]
    unfold calibrated
    rw [show demoConf.cal1 = false from rfl, show demoConf.cal2 = false from rfl, Calib.calibration_off]

/-- The bound of C143 is reached in this run: the energy is 16, the padding 2, the largest sample 8. -/
theorem demo_energy (n : ℕ) : EnergyBound demoConf demoFile n 16 := by
  have h : ∀ k i, Chain.energy demoConf.chain (base demoConf demoFile k i) ≤ 16 := by
    intro k i
    rw [demo_base]
    have hw : ∀ p s, (fresh demoConf i (demoFile i)).wfm p s = 1 := by
      intro p s
      show Calib.echo 0 1 0 = 1
      simp [Calib.echo, Calib.pow10]
    unfold Chain.energy
    simp only [hw]
    have : ∀ p, demoConf.chain.window p = 1 := fun _ => rfl
    simp only [this]
    rw [show demoConf.chain.pulses = 2 from rfl, show demoConf.chain.samples = 8 from rfl]
    norm_num
  exact fun i _ => ⟨h 1 i, h 2 i⟩

/-- The hypotheses of C141 to C143 hold of this run, and the products are not empty. -/
example (alg : Surface.Alg) :
    ∃ s rec, process demoConf (demoWorld realArg) alg demoFile 2 = .finished s ∧ s.l1b = [rec] ∧ s.l1bs = [rec] ∧
      rec.bursts = [0] ∧ Usable demoConf demoFile 0 ∧ 0 < demoConf.pulses ∧ demoConf.weighting = false ∧ EnergyBound demoConf demoFile 2 16 ∧
      rec.result.out.waveform[8]? = some (some (16 / (demoConf.zp : ℝ))) := by
  obtain ⟨s, rec, h1, h2, h3, h4, h5, h6, h7⟩ := demo_run realArg realArg_isArgsort alg
  refine ⟨s, rec, h1, h2, h3, h6, ?_, by simp [demoConf], rfl, demo_energy 2, ?_⟩
  · have := record_sources demoConf (demoWorld realArg) realArg_isArgsort alg demoFile 2 (by simp [demoConf]) rec
      (by rw [h1]; left; show rec ∈ s.l1b; rw [h2]; simp)
    exact (this.2.1 0 (by rw [h6]; simp)).2
  · rw [h7]
    norm_num [demoConf]

end Dedop.Whole
