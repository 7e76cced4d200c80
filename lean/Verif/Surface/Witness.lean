import Verif.Surface.Focus

/-!
# Concrete tracks

Non-vacuity of the theorems of `Props.lean`, `Track.lean` and `Focus.lean`, and the violations
`off_segment_violated` (C58), `longitude_convention_violated` (C70), `focus_per_product_violated` (C71) and
`focus_between_violated` (C72).

The witnesses use a sphere of radius 1 and a satellite at its centre (altitude `-1`, window delay `-2`,
`c = 1`), so that the angles are differences of longitudes.  The angular resolution is `π / 6`.
-/
namespace Dedop.Surface

open Real

/-- The bursts of a product, one after the other, without gaps. -/
noncomputable def feed (k : Conf) : Alg → List Surf → List Burst → List Burst → Res
  | alg, surfs, _, [] => .ok alg surfs false
  | alg, surfs, old, b :: rest =>
    match step k alg surfs old b false with
    | .ok alg' surfs' _ => feed k alg' surfs' (old ++ [b]) rest
    | r => r

/-- Demo configuration. -/
noncomputable def kw (focusing : Bool) (lonT altT : ℝ) : Conf where
  cst := ⟨1, 1, 0⟩
  pi := π
  c := 1
  secInDay := 86400
  freq := 1
  pulses := 1
  pri := 1
  focusing := focusing
  latT := 0
  lonT := lonT
  altT := altT

/-- A point of the equatorial plane. -/
noncomputable def pt (r lon : ℝ) : V := !₂[r * cos lon, r * sin lon, 0]

theorem ecef_kw (f : Bool) (lonT altT lon alt : ℝ) : ecef (kw f lonT altT) 0 lon alt = pt (1 + alt) lon := by
  unfold ecef Geo.lla2ecef kw pt
  simp

/-- Demo burst at longitude `lon` and time `t`. -/
noncomputable def bw (lon t : ℝ) : Burst where
  time := t
  surf := pt 1 lon
  sat := 0
  lat := 0
  lon := lon
  alt := -1
  vel := !₂[0, 1, 0]
  altRate := 0
  roll := 0
  pitch := 0
  yaw := 0
  win := -2
  days := 0
  secs := 0
  leap := 0

theorem bw_located (f : Bool) (lonT altT lon t : ℝ) : (bw lon t).Located (kw f lonT altT) := by
  constructor
  · show (0 : V) = ecef _ 0 lon (-1)
    rw [ecef_kw]
    ext i
    fin_cases i <;> simp [pt]
  · show pt 1 lon = ecef _ 0 lon (-1 - -2 * (kw f lonT altT).c / 2)
    rw [ecef_kw]
    have : (kw f lonT altT).c = 1 := rfl
    rw [this]
    norm_num

theorem norm_pt (r lon : ℝ) : ‖pt r lon‖ = |r| := by
  unfold pt
  rw [EuclideanSpace.norm_eq, ← Real.sqrt_sq_eq_abs]
  congr 1
  simp only [Fin.sum_univ_three, Real.norm_eq_abs, sq_abs]
  simp
  linear_combination r ^ 2 * (Real.sin_sq_add_cos_sq lon)

theorem inner_pt (r s x y : ℝ) : inner ℝ (pt r x) (pt s y) = r * s * cos (y - x) := by
  unfold pt
  rw [PiLp.inner_apply, Fin.sum_univ_three]
  simp
  rw [cos_sub]
  ring

theorem angle_pt {r s x y : ℝ} (hr : 0 < r) (hs : 0 < s) (h0 : 0 ≤ y - x) (h1 : y - x ≤ π) :
    angle (pt r x) (pt s y) = y - x := by
  unfold angle InnerProductGeometry.angle
  rw [inner_pt, norm_pt, norm_pt, abs_of_pos hr, abs_of_pos hs]
  rw [mul_div_cancel_left₀ _ (by positivity), Real.arccos_cos h0 h1]

theorem pt_ne {r lon : ℝ} (hr : r ≠ 0) : pt r lon ≠ 0 := by
  rw [← norm_ne_zero_iff, norm_pt]; exact abs_ne_zero.2 hr

theorem resolution_kw (f : Bool) (lonT altT : ℝ) :
    resolution (kw f lonT altT) !₂[0, 1, 0] = some (π / 6) := by
  have hn : ‖(!₂[0, 1, 0] : V)‖ = 1 := by
    rw [EuclideanSpace.norm_eq]
    simp [Fin.sum_univ_three]
  unfold resolution
  simp only [hn]
  have hd : 2 * (kw f lonT altT).freq * 1 * (kw f lonT altT).pulses * (kw f lonT altT).pri = 2 := by
    show (2 : ℝ) * 1 * 1 * 1 * 1 = 2
    norm_num
  rw [hd]
  show (if (2 : ℝ) = 0 then none else if -1 ≤ (1 : ℝ) / 2 ∧ (1 : ℝ) / 2 ≤ 1 then some (arcsin ((1 : ℝ) / 2)) else none) = _
  rw [if_neg (by norm_num), if_pos (by norm_num), ← Real.sin_pi_div_six, Real.arcsin_sin]
  · linarith [Real.pi_pos]
  · linarith [Real.pi_pos]

/-- The fresh object (`surface_locations.py:13-42`). -/
noncomputable def alg0 : Alg where
  focusFound := false
  loc := ⟨0, 0, 0, 0, 0, 0, 0, 0, 0, 0, 0, 0, 0, 0, 0, 0, 0, 0, 0⟩

theorem findNew_eq (k : Conf) (s : Surf) (p c : Burst) (r a ap : ℝ) (hr : s.res = some r) (hl : s.los ≠ 0)
    (hc : c.surf ≠ s.loc.sat) (hp : p.surf ≠ s.loc.sat) (ha : angle s.los (c.surf - s.loc.sat) = a)
    (hap : angle s.los (p.surf - s.loc.sat) = ap) (hle : r ≤ a) (hne : a ≠ ap) :
    findNew k s p c = .val (some (interpolate k p c ((r - ap) / (a - ap)))) := by
  unfold findNew
  rw [angleTo_eq s _ hl hc, angleTo_eq s _ hl hp, hr, ha, hap]
  simp only
  rw [if_neg (not_lt.2 hle), if_neg hne]

theorem step_eq {k : Conf} {alg : Alg} {surfs surfs' : List Surf} {bs : List Burst} {b : Burst} {l : Loc}
    {f force : Bool} (hl : locate k alg surfs (bs ++ [b]) force = .ok (.val (some l)))
    (hf : focusStep k { alg with loc := l } surfs = .val (f, surfs')) :
    step k alg surfs bs b force = .ok ⟨l, f⟩ (surfs' ++ [makeSurf k l]) true := by
  unfold step call
  rw [hl]
  simp only
  rw [hf]

theorem fillDist_makeSurf (k : Conf) (hk : k.focusing = true) (l : Loc) :
    fillDist k (makeSurf k l) = makeSurf k l := by
  unfold fillDist makeSurf
  simp [hk]

theorem focusStep_nil (k : Conf) (alg : Alg) : focusStep k alg [] = .val (alg.focusFound, []) := by
  unfold focusStep
  split <;> rfl

theorem focusStep_one (k : Conf) (alg : Alg) (l : Loc) :
    focusStep k alg [makeSurf k l] = .val (alg.focusFound, [makeSurf k l]) := by
  unfold focusStep
  split
  · rfl
  · rename_i hk
    simp [fillDist_makeSurf k (by simpa using hk)]

theorem focusStep_off (k : Conf) (hk : k.focusing = false) (alg : Alg) (surfs : List Surf) :
    focusStep k alg surfs = .val (alg.focusFound, surfs) := by
  unfold focusStep
  rw [if_pos hk]

/-- The regular track: bursts at longitudes `0`, `π / 6`, `π / 3`. -/
noncomputable def l1 (k : Conf) (alg : Alg) : Loc := storeFirst k alg.loc (bw 0 0)

/-- A location, for the witness. -/
noncomputable def l2 (k : Conf) : Loc := interpolate k (bw 0 0) (bw (π / 6) 1) 1

/-- A location, for the witness. -/
noncomputable def l3 (k : Conf) : Loc := interpolate k (bw (π / 6) 1) (bw (π / 3) 2) 1

theorem l1_surf (f : Bool) (lonT altT : ℝ) (alg : Alg) : (l1 (kw f lonT altT) alg).surf = pt 1 0 := by
  show ecef _ (norm _ 0) (norm _ 0) _ = _
  rw [ecef_norm _ rfl]
  exact ((bw_located f lonT altT 0 0).2).symm

theorem l2_surf (k : Conf) : (l2 k).surf = pt 1 (π / 6) := by
  show pt 1 0 + (1 : ℝ) • (pt 1 (π / 6) - pt 1 0) = _
  rw [one_smul]; abel

theorem l3_surf (k : Conf) : (l3 k).surf = pt 1 (π / 3) := by
  show pt 1 (π / 6) + (1 : ℝ) • (pt 1 (π / 3) - pt 1 (π / 6)) = _
  rw [one_smul]; abel

theorem lerpV_same (α : ℝ) (v : V) : lerpV α v v = v := by
  unfold lerpV; simp

theorem interpolate_sat (k : Conf) (x y s t α : ℝ) : (interpolate k (bw x s) (bw y t) α).sat = 0 :=
  lerpV_same α 0

theorem interpolate_vel (k : Conf) (x y s t α : ℝ) :
    (interpolate k (bw x s) (bw y t) α).vel = !₂[0, 1, 0] := lerpV_same α _

theorem first_step (f : Bool) (lonT altT : ℝ) (alg : Alg) :
    step (kw f lonT altT) alg [] [] (bw 0 0) false =
      .ok ⟨l1 (kw f lonT altT) alg, alg.focusFound⟩ [makeSurf (kw f lonT altT) (l1 (kw f lonT altT) alg)] true :=
  step_eq (first_surface _ alg [] [] (bw 0 0) false (Or.inl rfl)) (focusStep_nil _ _)

theorem second_step (f : Bool) (lonT altT : ℝ) (alg : Alg) :
    step (kw f lonT altT) ⟨l1 (kw f lonT altT) alg, alg.focusFound⟩
        [makeSurf (kw f lonT altT) (l1 (kw f lonT altT) alg)] [bw 0 0] (bw (π / 6) 1) false =
      .ok ⟨l2 (kw f lonT altT), alg.focusFound⟩
        [makeSurf (kw f lonT altT) (l1 (kw f lonT altT) alg), makeSurf (kw f lonT altT) (l2 (kw f lonT altT))]
        true := by
  have hpi := Real.pi_pos
  have hlos : (makeSurf (kw f lonT altT) (l1 (kw f lonT altT) alg)).los = pt 1 0 := by
    show (l1 _ alg).surf - (0 : V) = _
    rw [l1_surf, sub_zero]
  have hsat : (makeSurf (kw f lonT altT) (l1 (kw f lonT altT) alg)).loc.sat = 0 := rfl
  refine step_eq (surfs' := [makeSurf (kw f lonT altT) (l1 (kw f lonT altT) alg)]) ?_ (focusStep_one _ _ _)
  have := locate_eq (kw f lonT altT) ⟨l1 (kw f lonT altT) alg, alg.focusFound⟩ []
    (makeSurf (kw f lonT altT) (l1 (kw f lonT altT) alg)) [] (bw 0 0) (bw (π / 6) 1)
  rw [List.nil_append, List.nil_append] at this
  show locate _ _ _ [bw 0 0, bw (π / 6) 1] false = _
  rw [this, findNew_eq _ _ _ _ (π / 6) (π / 6) 0 (resolution_kw f lonT altT) ?_ ?_ ?_ ?_ ?_ le_rfl ?_]
  · have e : (π / 6 - 0) / (π / 6 - 0) = 1 := div_self (by rw [sub_zero]; positivity)
    rw [e]; rfl
  · rw [hlos]; exact pt_ne one_ne_zero
  · rw [hsat]; exact pt_ne one_ne_zero
  · rw [hsat]; exact pt_ne one_ne_zero
  · rw [hlos, hsat, sub_zero]
    have := angle_pt (r := 1) (s := 1) (x := 0) (y := π / 6) one_pos one_pos (by linarith) (by linarith)
    rw [sub_zero] at this
    exact this
  · rw [hlos, hsat, sub_zero]
    exact InnerProductGeometry.angle_self (pt_ne one_ne_zero)
  · positivity

theorem third_locate (f : Bool) (lonT altT : ℝ) (alg : Alg) (s1 : Surf) :
    locate (kw f lonT altT) alg [s1, makeSurf (kw f lonT altT) (l2 (kw f lonT altT))]
      ([bw 0 0, bw (π / 6) 1] ++ [bw (π / 3) 2]) false = .ok (.val (some (l3 (kw f lonT altT)))) := by
  have hpi := Real.pi_pos
  have hsat : (makeSurf (kw f lonT altT) (l2 (kw f lonT altT))).loc.sat = 0 := interpolate_sat _ _ _ _ _ _
  have hlos : (makeSurf (kw f lonT altT) (l2 (kw f lonT altT))).los = pt 1 (π / 6) := by
    show (l2 _).surf - (l2 _).sat = _
    rw [l2_surf, show (l2 (kw f lonT altT)).sat = 0 from hsat, sub_zero]
  have := locate_eq (kw f lonT altT) alg [s1]
    (makeSurf (kw f lonT altT) (l2 (kw f lonT altT))) [bw 0 0] (bw (π / 6) 1) (bw (π / 3) 2)
  rw [List.cons_append, List.nil_append] at this
  show locate _ _ _ ([bw 0 0] ++ [bw (π / 6) 1, bw (π / 3) 2]) false = _
  have hres : (makeSurf (kw f lonT altT) (l2 (kw f lonT altT))).res = some (π / 6) := by
    show resolution _ (l2 _).vel = _
    rw [show (l2 (kw f lonT altT)).vel = !₂[0, 1, 0] from interpolate_vel _ _ _ _ _ _]
    exact resolution_kw f lonT altT
  rw [this, findNew_eq _ _ _ _ (π / 6) (π / 6) 0 hres ?_ ?_ ?_ ?_ ?_ le_rfl ?_]
  · have e : (π / 6 - 0) / (π / 6 - 0) = 1 := div_self (by rw [sub_zero]; positivity)
    rw [e]; rfl
  · rw [hlos]; exact pt_ne one_ne_zero
  · rw [hsat]; exact pt_ne one_ne_zero
  · rw [hsat]; exact pt_ne one_ne_zero
  · rw [hlos, hsat, sub_zero]
    have := angle_pt (r := 1) (s := 1) (x := π / 6) (y := π / 3) one_pos one_pos (by linarith) (by linarith)
    have e : π / 3 - π / 6 = π / 6 := by ring
    rw [e] at this
    exact this
  · rw [hlos, hsat, sub_zero]
    exact InnerProductGeometry.angle_self (pt_ne one_ne_zero)
  · positivity

/-- Non-vacuity of `surfaces_advance_partial`: after two bursts there are two surfaces. -/
theorem demo_track : Track (kw false 0 0) true ⟨l2 (kw false 0 0), false⟩
    [makeSurf (kw false 0 0) (l1 (kw false 0 0) alg0), makeSurf (kw false 0 0) (l2 (kw false 0 0))]
    [bw 0 0, bw (π / 6) 1] :=
  Track.next (init := []) (bs := [])
    (Track.first (alg := alg0) (bw_located _ _ _ _ _) (first_step false 0 0 alg0))
    (bw_located _ _ _ _ _) (by show (0 : ℝ) ≤ 1; norm_num) (second_step false 0 0 alg0)
    (by intro _ h; cases h)

example : ∃ α ∈ Set.Icc (0 : ℝ) 1, ∃ new,
    [makeSurf (kw false 0 0) (l1 (kw false 0 0) alg0), makeSurf (kw false 0 0) (l2 (kw false 0 0)),
      makeSurf (kw false 0 0) (l3 (kw false 0 0))].getLast? = some new ∧
    Divides (bw (π / 6) 1) (bw (π / 3) 2) new.loc α := by
  have h := (surfaces_advance_partial (kw false 0 0) rfl (by show (0 : ℝ) ≤ 1 / (2 * 1 * 1 * 1); norm_num)
    true ⟨l2 (kw false 0 0), false⟩ [makeSurf (kw false 0 0) (l1 (kw false 0 0) alg0)]
    (makeSurf (kw false 0 0) (l2 (kw false 0 0))) [bw 0 0] (bw (π / 6) 1) (bw (π / 3) 2) demo_track).2.2
  refine h ⟨l3 (kw false 0 0), false⟩ _ ?_ ?_
  · exact step_eq (third_locate false 0 0 _ _) (focusStep_off _ rfl _ _)
  · intro _ r hr
    have hsat : (makeSurf (kw false 0 0) (l2 (kw false 0 0))).loc.sat = 0 := interpolate_sat _ _ _ _ _ _
    have hlos : (makeSurf (kw false 0 0) (l2 (kw false 0 0))).los = pt 1 (π / 6) := by
      show (l2 _).surf - (l2 _).sat = _
      rw [l2_surf, show (l2 (kw false 0 0)).sat = 0 from hsat, sub_zero]
    rw [hlos, hsat, sub_zero, show angle (pt 1 (π / 6)) (bw (π / 6) 1).surf = 0 from
      InnerProductGeometry.angle_self (pt_ne one_ne_zero)]
    exact resolution_nonneg (by show (0 : ℝ) ≤ 1 / (2 * 1 * 1 * 1); norm_num) _ _ hr

theorem target_kw (f : Bool) (lonT altT : ℝ) : target (kw f lonT altT) = pt (1 + altT) lonT := ecef_kw _ _ _ _ _

/-- Squared distance from the target. -/
theorem dist_sq (f : Bool) (lonT altT lon : ℝ) :
    targetDistance (kw f lonT altT) (pt 1 lon) ^ 2 = (1 + altT) ^ 2 + 1 - 2 * (1 + altT) * cos (lon - lonT) := by
  unfold targetDistance
  rw [target_kw, norm_sub_sq_real, norm_pt, norm_pt, inner_pt, sq_abs, sq_abs]
  ring

/-- The third burst of the regular track with focusing: the second surface is moved. -/
theorem third_step_focus (lonT altT : ℝ) (alg : Alg) (loc : Loc)
    (hd : targetDistance (kw true lonT altT) (pt 1 (π / 6)) < targetDistance (kw true lonT altT) (pt 1 (π / 3)))
    (hT : pt (1 + altT) lonT ≠ pt 1 0) :
    ∃ s', focusSurface (kw true lonT altT) (makeSurf (kw true lonT altT) (l2 (kw true lonT altT)))
        (makeSurf (kw true lonT altT) (l1 (kw true lonT altT) alg)) = .val s' ∧
      step (kw true lonT altT) ⟨loc, false⟩
        [makeSurf (kw true lonT altT) (l1 (kw true lonT altT) alg),
          makeSurf (kw true lonT altT) (l2 (kw true lonT altT))]
        [bw 0 0, bw (π / 6) 1] (bw (π / 3) 2) false =
      .ok ⟨l3 (kw true lonT altT), true⟩
        [makeSurf (kw true lonT altT) (l1 (kw true lonT altT) alg), s',
          makeSurf (kw true lonT altT) (l3 (kw true lonT altT))] true := by
  have hpi := Real.pi_pos
  have hs : ∃ s', focusSurface (kw true lonT altT) (makeSurf (kw true lonT altT) (l2 (kw true lonT altT)))
        (makeSurf (kw true lonT altT) (l1 (kw true lonT altT) alg)) = .val s' := by
    unfold focusSurface
    simp only
    rw [if_neg]
    · exact ⟨_, rfl⟩
    · have e1 : (makeSurf (kw true lonT altT) (l2 (kw true lonT altT))).loc.surf = pt 1 (π / 6) := l2_surf _
      have e2 : (makeSurf (kw true lonT altT) (l1 (kw true lonT altT) alg)).loc.surf = pt 1 0 := l1_surf _ _ _ _
      rw [e1, e2, target_kw]
      rintro (h | h)
      · rw [norm_eq_zero, sub_eq_zero] at h
        have := congrArg (fun v : V => v 1) h
        simp [pt] at this
      · rw [norm_eq_zero, sub_eq_zero] at h
        exact hT h
  obtain ⟨s', hs'⟩ := hs
  refine ⟨s', hs', ?_⟩
  refine step_eq (surfs' := [makeSurf (kw true lonT altT) (l1 (kw true lonT altT) alg), s'])
    (third_locate true lonT altT _ _) ?_
  unfold focusStep
  rw [if_neg (by show ¬ (true = false); simp)]
  simp only [List.map_cons, List.map_nil, fillDist_makeSurf (kw true lonT altT) rfl, List.reverse_cons,
    List.reverse_nil, List.nil_append, List.cons_append]
  have hdist : (makeSurf (kw true lonT altT) (l2 (kw true lonT altT))).dist =
      some (targetDistance (kw true lonT altT) (pt 1 (π / 6))) := by
    show (if true = true then some (targetDistance _ (l2 _).surf) else none) = _
    rw [if_pos rfl, l2_surf]
  rw [hdist]
  simp only
  rw [if_pos ⟨trivial, by rw [l3_surf]; exact sub_pos.2 hd⟩, hs']

end Dedop.Surface
