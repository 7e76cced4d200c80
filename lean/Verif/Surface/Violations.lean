import Verif.Surface.Witness

/-!
# What does not hold of surface locations (C58, C70, C71, C72)
-/
namespace Dedop.Surface

open Real

/-- A location, for the witness. -/
noncomputable def m2 (k : Conf) : Loc := interpolate k (bw 0 0) (bw (π / 2) 1) (1 / 3)

theorem m2_coord (k : Conf) : (m2 k).surf = !₂[2 / 3, 1 / 3, 0] := by
  show pt 1 0 + (1 / 3 : ℝ) • (pt 1 (π / 2) - pt 1 0) = _
  ext i
  fin_cases i <;> simp [pt] <;> norm_num

theorem m2_norm : ‖(!₂[2 / 3, 1 / 3, 0] : V)‖ ^ 2 = 5 / 9 := by
  rw [EuclideanSpace.norm_eq, Real.sq_sqrt (by positivity)]
  simp [Fin.sum_univ_three]
  norm_num

/-- **C58 violated.**  Three bursts that are farther apart than the surfaces: the second one creates a
surface but has already passed the place of the next one, so the surface the third creates is
extrapolated to before the second burst, in space and in time. -/
theorem off_segment_violated : ∃ (k : Conf) (b₀ b₁ b₂ : Burst) (alg : Alg) (s₀ s₁ s₂ : Surf),
    b₀.Located k ∧ b₁.Located k ∧ b₂.Located k ∧ b₀.time < b₁.time ∧ b₁.time < b₂.time ∧
    feed k alg0 [] [] [b₀, b₁, b₂] = .ok alg [s₀, s₁, s₂] false ∧
    s₂.loc.surf ∉ segment ℝ b₁.surf b₂.surf ∧ s₂.loc.time < b₁.time := by
  have hpi := Real.pi_pos
  -- the two angles at the second surface
  have hnn : (0 : ℝ) ≤ ‖(!₂[2 / 3, 1 / 3, 0] : V)‖ := norm_nonneg _
  have hn1 : (2 : ℝ) / 3 < ‖(!₂[2 / 3, 1 / 3, 0] : V)‖ := by
    nlinarith [m2_norm]
  have hA1 : angle (!₂[2 / 3, 1 / 3, 0] : V) (pt 1 (π / 2)) = arccos (1 / 3 / ‖(!₂[2 / 3, 1 / 3, 0] : V)‖) := by
    unfold angle InnerProductGeometry.angle
    rw [norm_pt, abs_one, mul_one]
    congr 2
    unfold pt
    rw [PiLp.inner_apply, Fin.sum_univ_three]
    simp
  have hA2 : angle (!₂[2 / 3, 1 / 3, 0] : V) (pt 1 π) = arccos (-(2 / 3) / ‖(!₂[2 / 3, 1 / 3, 0] : V)‖) := by
    unfold angle InnerProductGeometry.angle
    rw [norm_pt, abs_one, mul_one]
    congr 2
    unfold pt
    rw [PiLp.inner_apply, Fin.sum_univ_three]
    simp
  generalize hN : ‖(!₂[2 / 3, 1 / 3, 0] : V)‖ = N at *
  have hNpos : 0 < N := by linarith
  have hlt1 : π / 6 < arccos (1 / 3 / N) := by
    have h3 : (1 : ℝ) < √3 := by
      rw [Real.lt_sqrt (by norm_num)]; norm_num
    have e : π / 6 = arccos (√3 / 2) := by
      rw [← Real.cos_pi_div_six, Real.arccos_cos (by linarith) (by linarith)]
    rw [e]
    apply Real.strictAntiOn_arccos
    · constructor
      · have : (0 : ℝ) ≤ 1 / 3 / N := by positivity
        linarith
      · rw [div_le_one hNpos]; linarith
    · constructor
      · linarith
      · have : √3 ≤ 2 := by
          rw [Real.sqrt_le_left (by norm_num)]; norm_num
        linarith
    · have : 1 / 3 / N < 1 / 2 := by
        rw [div_lt_div_iff₀ hNpos (by norm_num)]; linarith
      linarith
  have hlt2 : arccos (1 / 3 / N) < arccos (-(2 / 3) / N) := by
    apply Real.strictAntiOn_arccos
    · constructor
      · rw [le_div_iff₀ hNpos]; linarith
      · rw [div_le_one hNpos]; linarith
    · constructor
      · have : (0 : ℝ) ≤ 1 / 3 / N := by positivity
        linarith
      · rw [div_le_one hNpos]; linarith
    · exact (div_lt_div_iff_of_pos_right hNpos).2 (by norm_num)
  generalize hk : kw false 0 0 = k
  generalize ha1 : arccos (1 / 3 / N) = a1 at *
  generalize ha2 : arccos (-(2 / 3) / N) = a2 at *
  have hα : (π / 6 - a1) / (a2 - a1) < 0 := div_neg_of_neg_of_pos (by linarith) (by linarith)
  -- the second burst
  have hlos0 : (makeSurf k (l1 k alg0)).los = pt 1 0 := by
    subst hk
    show (l1 _ alg0).surf - (0 : V) = _
    rw [l1_surf, sub_zero]
  have hsat0 : (makeSurf k (l1 k alg0)).loc.sat = 0 := rfl
  have hres : ∀ l : Loc, l.vel = !₂[0, 1, 0] → (makeSurf k l).res = some (π / 6) := by
    intro l hl
    show resolution k l.vel = _
    rw [hl]
    subst hk
    exact resolution_kw false 0 0
  have step1 : step k alg0 [] [] (bw 0 0) false = .ok ⟨l1 k alg0, false⟩ [makeSurf k (l1 k alg0)] true := by
    subst hk; exact first_step false 0 0 alg0
  have step2 : step k ⟨l1 k alg0, false⟩ [makeSurf k (l1 k alg0)] [bw 0 0] (bw (π / 2) 1) false =
      .ok ⟨m2 k, false⟩ [makeSurf k (l1 k alg0), makeSurf k (m2 k)] true := by
    refine step_eq (surfs' := [makeSurf k (l1 k alg0)]) ?_ (focusStep_one _ _ _)
    have := locate_eq k ⟨l1 k alg0, false⟩ [] (makeSurf k (l1 k alg0)) [] (bw 0 0) (bw (π / 2) 1)
    rw [List.nil_append, List.nil_append] at this
    show locate _ _ _ [bw 0 0, bw (π / 2) 1] false = _
    rw [this, findNew_eq _ _ _ _ (π / 6) (π / 2) 0 (hres _ rfl) ?_ ?_ ?_ ?_ ?_ (by linarith) ?_]
    · have e : (π / 6 - 0) / (π / 2 - 0) = 1 / 3 := by
        rw [sub_zero, sub_zero, div_div_eq_mul_div, div_mul_eq_mul_div, div_div, mul_comm π 2,
          mul_div_mul_right _ _ hpi.ne']
        norm_num
      rw [e]; rfl
    · rw [hlos0]; exact pt_ne one_ne_zero
    · rw [hsat0]; exact pt_ne one_ne_zero
    · rw [hsat0]; exact pt_ne one_ne_zero
    · rw [hlos0, hsat0, sub_zero]
      have := angle_pt (r := 1) (s := 1) (x := 0) (y := π / 2) one_pos one_pos (by linarith) (by linarith)
      rw [sub_zero] at this
      exact this
    · rw [hlos0, hsat0, sub_zero]
      exact InnerProductGeometry.angle_self (pt_ne one_ne_zero)
    · positivity
  -- the third burst
  have hsat1 : (makeSurf k (m2 k)).loc.sat = 0 := interpolate_sat _ _ _ _ _ _
  have hlos1 : (makeSurf k (m2 k)).los = !₂[2 / 3, 1 / 3, 0] := by
    show (m2 k).surf - (m2 k).sat = _
    rw [m2_coord, show (m2 k).sat = 0 from hsat1, sub_zero]
  have step3 : step k ⟨m2 k, false⟩ [makeSurf k (l1 k alg0), makeSurf k (m2 k)] [bw 0 0, bw (π / 2) 1] (bw π 2) false =
      .ok ⟨interpolate k (bw (π / 2) 1) (bw π 2) ((π / 6 - a1) / (a2 - a1)), false⟩
        [makeSurf k (l1 k alg0), makeSurf k (m2 k),
          makeSurf k (interpolate k (bw (π / 2) 1) (bw π 2) ((π / 6 - a1) / (a2 - a1)))] true := by
    refine step_eq (surfs' := [makeSurf k (l1 k alg0), makeSurf k (m2 k)]) ?_
      (focusStep_off k (by rw [← hk]; rfl) _ _)
    have := locate_eq k ⟨m2 k, false⟩ [makeSurf k (l1 k alg0)] (makeSurf k (m2 k)) [bw 0 0] (bw (π / 2) 1) (bw π 2)
    rw [List.cons_append, List.nil_append] at this
    show locate _ _ _ ([bw 0 0] ++ [bw (π / 2) 1, bw π 2]) false = _
    rw [this, findNew_eq _ _ _ _ (π / 6) a2 a1 (hres (m2 k) (interpolate_vel _ _ _ _ _ _)) ?_ ?_ ?_ ?_ ?_ (by linarith) ?_]
    · rw [hlos1, ← norm_ne_zero_iff, hN]; exact hNpos.ne'
    · rw [hsat1]; exact pt_ne one_ne_zero
    · rw [hsat1]; exact pt_ne one_ne_zero
    · rw [hlos1, hsat1, sub_zero]; exact hA2
    · rw [hlos1, hsat1, sub_zero]; exact hA1
    · exact hlt2.ne'
  refine ⟨k, bw 0 0, bw (π / 2) 1, bw π 2,
    ⟨interpolate k (bw (π / 2) 1) (bw π 2) ((π / 6 - a1) / (a2 - a1)), false⟩, makeSurf k (l1 k alg0), makeSurf k (m2 k),
    makeSurf k (interpolate k (bw (π / 2) 1) (bw π 2) ((π / 6 - a1) / (a2 - a1))), ?_, ?_, ?_, by show (0 : ℝ) < 1; norm_num,
    by show (1 : ℝ) < 2; norm_num, ?_, ?_, ?_⟩
  · exact hk ▸ bw_located _ _ _ _ _
  · exact hk ▸ bw_located _ _ _ _ _
  · exact hk ▸ bw_located _ _ _ _ _
  · unfold feed
    rw [step1]
    simp only
    unfold feed
    rw [List.nil_append, step2]
    simp only
    unfold feed
    rw [List.cons_append, List.nil_append, step3]
    simp only
    unfold feed
    rfl
  · show pt 1 (π / 2) + ((π / 6 - a1) / (a2 - a1)) • (pt 1 π - pt 1 (π / 2)) ∉ segment ℝ (pt 1 (π / 2)) (pt 1 π)
    rintro ⟨x, y, hx, hy, hxy, he⟩
    have := congrArg (fun v : V => v 0) he
    simp [pt] at this
    linarith
  · show (1 : ℝ) + ((π / 6 - a1) / (a2 - a1)) * (2 - 1) < 1
    linarith

/-- The regular track with focusing, from any state of the object. -/
theorem feed_found (lonT altT : ℝ) (alg : Alg) (hf : alg.focusFound = false)
    (hd : targetDistance (kw true lonT altT) (pt 1 (π / 6)) < targetDistance (kw true lonT altT) (pt 1 (π / 3)))
    (hT : pt (1 + altT) lonT ≠ pt 1 0) :
    ∃ s', focusSurface (kw true lonT altT) (makeSurf (kw true lonT altT) (l2 (kw true lonT altT)))
        (makeSurf (kw true lonT altT) (l1 (kw true lonT altT) alg)) = .val s' ∧
      feed (kw true lonT altT) alg [] [] [bw 0 0, bw (π / 6) 1, bw (π / 3) 2] =
      .ok ⟨l3 (kw true lonT altT), true⟩
        [makeSurf (kw true lonT altT) (l1 (kw true lonT altT) alg), s',
          makeSurf (kw true lonT altT) (l3 (kw true lonT altT))] false := by
  obtain ⟨s', h1, h2⟩ := third_step_focus lonT altT alg (l2 (kw true lonT altT)) hd hT
  refine ⟨s', h1, ?_⟩
  unfold feed
  rw [first_step]
  simp only
  unfold feed
  rw [List.nil_append, second_step]
  simp only
  unfold feed
  rw [List.cons_append, List.nil_append, hf, h2]
  simp only
  unfold feed
  rfl

/-- The same track if a surface was moved before: nothing is moved. -/
theorem feed_again (lonT altT : ℝ) (alg : Alg) (hf : alg.focusFound = true) :
    feed (kw true lonT altT) alg [] [] [bw 0 0, bw (π / 6) 1, bw (π / 3) 2] =
      .ok ⟨l3 (kw true lonT altT), true⟩
        [makeSurf (kw true lonT altT) (l1 (kw true lonT altT) alg),
          makeSurf (kw true lonT altT) (l2 (kw true lonT altT)),
          makeSurf (kw true lonT altT) (l3 (kw true lonT altT))] false := by
  have h3 : step (kw true lonT altT) ⟨l2 (kw true lonT altT), true⟩
        [makeSurf (kw true lonT altT) (l1 (kw true lonT altT) alg),
          makeSurf (kw true lonT altT) (l2 (kw true lonT altT))]
        [bw 0 0, bw (π / 6) 1] (bw (π / 3) 2) false =
      .ok ⟨l3 (kw true lonT altT), true⟩
        [makeSurf (kw true lonT altT) (l1 (kw true lonT altT) alg),
          makeSurf (kw true lonT altT) (l2 (kw true lonT altT)),
          makeSurf (kw true lonT altT) (l3 (kw true lonT altT))] true := by
    refine step_eq (surfs' := [makeSurf (kw true lonT altT) (l1 (kw true lonT altT) alg),
      makeSurf (kw true lonT altT) (l2 (kw true lonT altT))]) (third_locate true lonT altT _ _) ?_
    unfold focusStep
    rw [if_neg (by show ¬ (true = false); simp)]
    simp only [List.map_cons, List.map_nil, fillDist_makeSurf (kw true lonT altT) rfl, List.reverse_cons,
      List.reverse_nil, List.nil_append, List.cons_append]
    have hdist : (makeSurf (kw true lonT altT) (l2 (kw true lonT altT))).dist =
        some (targetDistance (kw true lonT altT) (l2 (kw true lonT altT)).surf) := by
      show (if true = true then some (targetDistance _ (l2 _).surf) else none) = _
      rw [if_pos rfl]
    rw [hdist]
    simp
  unfold feed
  rw [first_step]
  simp only
  unfold feed
  rw [List.nil_append, second_step]
  simp only
  unfold feed
  rw [List.cons_append, List.nil_append, hf, h3]
  simp only
  unfold feed
  rfl

theorem targetDistance_nonneg (k : Conf) (v : V) : 0 ≤ targetDistance k v := norm_nonneg _

theorem far_target (T : ℝ) (hT : 1 ≤ T) : targetDistance (kw true (π / 6) T) (pt 1 (π / 6)) <
    targetDistance (kw true (π / 6) T) (pt 1 (π / 3)) := by
  have hpi := Real.pi_pos
  rw [← sq_lt_sq₀ (targetDistance_nonneg _ _) (targetDistance_nonneg _ _), dist_sq, dist_sq, sub_self, cos_zero]
  have e : π / 3 - π / 6 = π / 6 := by ring
  have : cos (π / 6) < 1 := by
    have := Real.cos_lt_cos_of_nonneg_of_le_pi (le_refl (0 : ℝ)) (by linarith : π / 6 ≤ π) (by linarith)
    rwa [cos_zero] at this
  rw [e]
  nlinarith

/-- **C71 violated.**  With focusing switched on, a product one surface of which is focused when it is
processed first has no focused surface when it is processed after another product (here: after itself) by
the same processor, because the object remembers that a surface was moved. -/
theorem focus_per_product_violated : ∃ (k : Conf) (bs : List Burst) (alg₁ alg₂ : Alg) (surfs₁ surfs₂ : List Surf),
    (∀ b ∈ bs, b.Located k) ∧ k.focusing = true ∧
    feed k alg0 [] [] bs = .ok alg₁ surfs₁ false ∧ (∃ s ∈ surfs₁, s.focused = true) ∧
    feed k alg₁ [] [] bs = .ok alg₂ surfs₂ false ∧ ∀ s ∈ surfs₂, s.focused = false := by
  have hT : pt (1 + 1) (π / 6) ≠ pt 1 0 := by
    intro h
    have := congrArg (fun v : V => ‖v‖) h
    rw [norm_pt, norm_pt] at this
    norm_num at this
  obtain ⟨s', h1, h2⟩ := feed_found (π / 6) 1 alg0 rfl (far_target 1 le_rfl) hT
  refine ⟨kw true (π / 6) 1, [bw 0 0, bw (π / 6) 1, bw (π / 3) 2], _, _, _, _, ?_, rfl, h2,
    ⟨s', by simp, (focusSurface_some h1).2.2.2.2.2.1⟩, feed_again (π / 6) 1 _ rfl, ?_⟩
  · intro b hb
    simp only [List.mem_cons, List.not_mem_nil, or_false] at hb
    rcases hb with rfl | rfl | rfl <;> exact bw_located _ _ _ _ _
  · intro s hs
    simp only [List.mem_cons, List.not_mem_nil, or_false] at hs
    rcases hs with rfl | rfl | rfl <;> rfl

/-- Non-vacuity of `focus_closest_approach`, `focus_moves_one` and `call_moves`: the third burst moves the
second surface. -/
example : ∃ (alg' : Alg) (surfs' : List Surf),
    call (kw true (π / 6) 1) ⟨l2 (kw true (π / 6) 1), false⟩
      [makeSurf (kw true (π / 6) 1) (l1 (kw true (π / 6) 1) alg0), makeSurf (kw true (π / 6) 1) (l2 (kw true (π / 6) 1))]
      [bw 0 0, bw (π / 6) 1, bw (π / 3) 2] false = .ok alg' surfs' true ∧
    Touched [makeSurf (kw true (π / 6) 1) (l1 (kw true (π / 6) 1) alg0),
      makeSurf (kw true (π / 6) 1) (l2 (kw true (π / 6) 1))] surfs' := by
  have hT : pt (1 + 1) (π / 6) ≠ pt 1 0 := by
    intro h
    have := congrArg (fun v : V => ‖v‖) h
    rw [norm_pt, norm_pt] at this
    norm_num at this
  obtain ⟨s', h1, h2⟩ := third_step_focus (π / 6) 1 alg0 (l2 (kw true (π / 6) 1)) (far_target 1 le_rfl) hT
  rcases step_times h2 with ⟨h0, -⟩ | ⟨-, t, hc, ht, -⟩
  · cases h0
  · refine ⟨_, t, hc, ?_⟩
    have : t = [makeSurf (kw true (π / 6) 1) (l1 (kw true (π / 6) 1) alg0), s'] := by
      have := congrArg List.dropLast ht
      rw [List.dropLast_concat] at this
      simpa using this.symm
    rw [this]
    intro h
    simp only [List.map_cons, List.map_nil, List.cons.injEq, Prod.mk.injEq, and_true, true_and] at h
    have := h.2
    rw [(focusSurface_some h1).2.2.2.2.2.1] at this
    cases this

/-- **C72 violated.**  A target far behind the start of the product: the second surface is moved to the
foot of the perpendicular from it, far before the first surface. -/
theorem focus_between_violated : ∃ (k : Conf) (bs : List Burst) (alg : Alg) (s₀ s₁ s₂ : Surf) (t : ℝ),
    (∀ b ∈ bs, b.Located k) ∧ feed k alg0 [] [] bs = .ok alg [s₀, s₁, s₂] false ∧ s₁.focused = true ∧
    s₀.loc.time < s₁.loc.time ∧ s₁.loc.time < s₂.loc.time ∧ t < -500 ∧
    ∃ b₁ ∈ bs, s₁.loc.surf = s₀.loc.surf + t • (b₁.surf - s₀.loc.surf) := by
  have hpi := Real.pi_pos
  have h3 : (3 / 2 : ℝ) < √3 := by
    rw [Real.lt_sqrt (by norm_num)]; norm_num
  have h3' : √3 < 2 := by
    rw [Real.sqrt_lt' (by norm_num)]; norm_num
  have hd : targetDistance (kw true (-(π / 2)) 999) (pt 1 (π / 6)) <
      targetDistance (kw true (-(π / 2)) 999) (pt 1 (π / 3)) := by
    rw [← sq_lt_sq₀ (targetDistance_nonneg _ _) (targetDistance_nonneg _ _), dist_sq, dist_sq, sub_neg_eq_add, sub_neg_eq_add,
      cos_add_pi_div_two, cos_add_pi_div_two, Real.sin_pi_div_six, Real.sin_pi_div_three]
    nlinarith
  have hT : pt (1 + 999) (-(π / 2)) ≠ pt 1 0 := by
    intro h
    have := congrArg (fun v : V => ‖v‖) h
    rw [norm_pt, norm_pt] at this
    norm_num at this
  obtain ⟨s', h1, h2⟩ := feed_found (-(π / 2)) 999 alg0 rfl hd hT
  obtain ⟨-, g2, -, g4, -, g6, -⟩ := focusSurface_some h1
  have e2 : (makeSurf (kw true (-(π / 2)) 999) (l2 (kw true (-(π / 2)) 999))).loc.surf = pt 1 (π / 6) := l2_surf _
  have e1 : (makeSurf (kw true (-(π / 2)) 999) (l1 (kw true (-(π / 2)) 999) alg0)).loc.surf = pt 1 0 := l1_surf _ _ _ _
  rw [e1, e2, target_kw] at g2
  refine ⟨kw true (-(π / 2)) 999, [bw 0 0, bw (π / 6) 1, bw (π / 3) 2], ⟨l3 (kw true (-(π / 2)) 999), true⟩,
    makeSurf (kw true (-(π / 2)) 999) (l1 (kw true (-(π / 2)) 999) alg0), s',
    makeSurf (kw true (-(π / 2)) 999) (l3 (kw true (-(π / 2)) 999)),
    inner ℝ (pt 1 (π / 6) - pt 1 0) (pt (1 + 999) (-(π / 2)) - pt 1 0) / ‖pt 1 (π / 6) - pt 1 0‖ ^ 2,
    ?_, h2, g6, ?_, ?_, ?_, bw (π / 6) 1, by simp, by rw [e1]; exact g2⟩
  · intro b hb
    simp only [List.mem_cons, List.not_mem_nil, or_false] at hb
    rcases hb with rfl | rfl | rfl <;> exact bw_located _ _ _ _ _
  · rw [g4]
    show (0 : ℝ) < 0 + 1 * (1 - 0)
    norm_num
  · rw [g4]
    show (0 : ℝ) + 1 * (1 - 0) < 1 + 1 * (2 - 1)
    norm_num
  · have hn : ‖pt 1 (π / 6) - pt 1 0‖ ^ 2 = 2 - √3 := by
      rw [norm_sub_sq_real, norm_pt, norm_pt, inner_pt, abs_one, zero_sub, cos_neg, Real.cos_pi_div_six]
      ring
    have hi : inner ℝ (pt 1 (π / 6) - pt 1 0) (pt (1 + 999) (-(π / 2)) - pt 1 0) = -499 - √3 / 2 := by
      rw [inner_sub_left, inner_sub_right, inner_sub_right, inner_pt, inner_pt, inner_pt, inner_pt,
        show -(π / 2) - π / 6 = -(π / 6 + π / 2) by ring, cos_neg, cos_add_pi_div_two, Real.sin_pi_div_six,
        zero_sub, cos_neg, Real.cos_pi_div_six, sub_zero, cos_neg, cos_pi_div_two, sub_self, cos_zero]
      ring
    rw [hn, hi, div_lt_iff₀ (by linarith)]
    nlinarith

/-- **C70, longitudes.**  The first surface has the longitude of the satellite brought into `[-π, π]`;
every other surface, and every surface that was moved, has one in `[0, 2π)`. -/
theorem longitude_ranges (k : Conf) (hpi : k.pi = π) (l : Loc) (b p c : Burst) (α : ℝ) :
    (storeFirst k l b).lon ∈ Set.Icc (-π) π ∧ (interpolate k p c α).lon ∈ Set.Ico 0 (2 * π) := by
  constructor
  · obtain ⟨s, hs, h1, h2, -⟩ := Geo.normalize_partial (p := k.pi) (by rw [hpi]; exact Real.pi_pos) b.lon
    show norm k b.lon ∈ _
    unfold norm
    rw [hs, Option.getD_some]
    rw [← hpi]
    exact ⟨by linarith, h2⟩
  · have key : ∀ v : V, (lla k v).2.1 ∈ Set.Ico 0 (2 * π) := by
      intro v
      have h := Geo.pyMod_range (Geo.arctan2 (v 1) (v 0)) (m := 2 * π) (by positivity)
      unfold lla Geo.ecef2lla
      simp only
      split
      · exact h
      · exact h
    exact key _

/-- **C70 violated.**  The first two surfaces of a product over western longitudes: the bursts are `π / 6`
apart, the longitudes of the surfaces (as written to the products) by more than `π / 2`. -/
theorem longitude_convention_violated : ∃ (k : Conf) (b₀ b₁ : Burst) (alg : Alg) (s₀ s₁ : Surf),
    b₀.Located k ∧ b₁.Located k ∧ b₁.lon - b₀.lon = π / 6 ∧
    feed k alg0 [] [] [b₀, b₁] = .ok alg [s₀, s₁] false ∧
    s₀.loc.surf = b₀.surf ∧ s₁.loc.surf = b₁.surf ∧ s₀.loc.lon < 0 ∧ 0 ≤ s₁.loc.lon ∧
    π / 2 ≤ s₁.loc.lon - s₀.loc.lon := by
  have hpi := Real.pi_pos
  obtain ⟨k, hk⟩ : ∃ k, k = kw false 0 0 := ⟨_, rfl⟩
  have hloc : ∀ x t, (bw x t).Located k := fun x t => hk ▸ bw_located false 0 0 x t
  have hsurf0 : (storeFirst k alg0.loc (bw (-(π / 2)) 0)).surf = pt 1 (-(π / 2)) := by
    show ecef _ (norm _ 0) (norm _ _) _ = _
    rw [ecef_norm _ (by rw [hk]; rfl)]
    exact ((hloc (-(π / 2)) 0).2).symm
  have hsurf1 : (interpolate k (bw (-(π / 2)) 0) (bw (-(π / 3)) 1) 1).surf = pt 1 (-(π / 3)) := by
    show pt 1 (-(π / 2)) + (1 : ℝ) • (pt 1 (-(π / 3)) - pt 1 (-(π / 2))) = _
    rw [one_smul]; abel
  have hlon0 : (storeFirst k alg0.loc (bw (-(π / 2)) 0)).lon = -(π / 2) := by
    have hkp : k.pi = π := by rw [hk]; rfl
    obtain ⟨s, hs, -, -, -, h⟩ := Geo.normalize_partial (p := k.pi) (by rw [hkp]; exact hpi) (-(π / 2))
    show norm k (-(π / 2)) = _
    unfold norm
    rw [hs, Option.getD_some]
    exact h (by rw [hkp]; linarith) (by rw [hkp]; linarith)
  have hlon1 := (longitude_ranges k (by rw [hk]; rfl) alg0.loc (bw 0 0) (bw (-(π / 2)) 0) (bw (-(π / 3)) 1) 1).2
  have hlos : (makeSurf k (storeFirst k alg0.loc (bw (-(π / 2)) 0))).los = pt 1 (-(π / 2)) := by
    show (storeFirst k alg0.loc (bw (-(π / 2)) 0)).surf - (0 : V) = _
    rw [hsurf0, sub_zero]
  have hsat : (makeSurf k (storeFirst k alg0.loc (bw (-(π / 2)) 0))).loc.sat = 0 := rfl
  have step1 : step k alg0 [] [] (bw (-(π / 2)) 0) false =
      .ok ⟨storeFirst k alg0.loc (bw (-(π / 2)) 0), false⟩ [makeSurf k (storeFirst k alg0.loc (bw (-(π / 2)) 0))] true :=
    step_eq (first_surface _ alg0 [] [] _ false (Or.inl rfl)) (focusStep_nil _ _)
  have step2 : step k ⟨storeFirst k alg0.loc (bw (-(π / 2)) 0), false⟩
      [makeSurf k (storeFirst k alg0.loc (bw (-(π / 2)) 0))] [bw (-(π / 2)) 0] (bw (-(π / 3)) 1) false =
      .ok ⟨interpolate k (bw (-(π / 2)) 0) (bw (-(π / 3)) 1) 1, false⟩
        [makeSurf k (storeFirst k alg0.loc (bw (-(π / 2)) 0)),
          makeSurf k (interpolate k (bw (-(π / 2)) 0) (bw (-(π / 3)) 1) 1)] true := by
    refine step_eq (surfs' := [makeSurf k (storeFirst k alg0.loc (bw (-(π / 2)) 0))]) ?_ (focusStep_one _ _ _)
    have := locate_eq k ⟨storeFirst k alg0.loc (bw (-(π / 2)) 0), false⟩ []
      (makeSurf k (storeFirst k alg0.loc (bw (-(π / 2)) 0))) [] (bw (-(π / 2)) 0) (bw (-(π / 3)) 1)
    rw [List.nil_append, List.nil_append] at this
    show locate _ _ _ [bw (-(π / 2)) 0, bw (-(π / 3)) 1] false = _
    have hres : (makeSurf k (storeFirst k alg0.loc (bw (-(π / 2)) 0))).res = some (π / 6) := by
      rw [hk]; exact resolution_kw false 0 0
    rw [this, findNew_eq _ _ _ _ (π / 6) (π / 6) 0 hres ?_ ?_ ?_ ?_ ?_ le_rfl ?_]
    · have e : (π / 6 - 0) / (π / 6 - 0) = 1 := div_self (by rw [sub_zero]; positivity)
      rw [e]
    · rw [hlos]; exact pt_ne one_ne_zero
    · rw [hsat]; exact pt_ne one_ne_zero
    · rw [hsat]; exact pt_ne one_ne_zero
    · rw [hlos, hsat, sub_zero]
      have := angle_pt (r := 1) (s := 1) (x := -(π / 2)) (y := -(π / 3)) one_pos one_pos (by linarith) (by linarith)
      have e : -(π / 3) - -(π / 2) = π / 6 := by ring
      rw [e] at this
      exact this
    · rw [hlos, hsat, sub_zero]
      exact InnerProductGeometry.angle_self (pt_ne one_ne_zero)
    · positivity
  refine ⟨k, bw (-(π / 2)) 0, bw (-(π / 3)) 1, ⟨interpolate k (bw (-(π / 2)) 0) (bw (-(π / 3)) 1) 1, false⟩,
    makeSurf k (storeFirst k alg0.loc (bw (-(π / 2)) 0)),
    makeSurf k (interpolate k (bw (-(π / 2)) 0) (bw (-(π / 3)) 1) 1), hloc _ _, hloc _ _, ?_, ?_, hsurf0, hsurf1, ?_,
    hlon1.1, ?_⟩
  · show -(π / 3) - -(π / 2) = π / 6
    ring
  · unfold feed
    rw [step1]
    simp only
    unfold feed
    rw [List.nil_append, step2]
    simp only
    unfold feed
    rfl
  · show (storeFirst k alg0.loc (bw (-(π / 2)) 0)).lon < 0
    rw [hlon0]; linarith
  · show π / 2 ≤ _ - (storeFirst k alg0.loc (bw (-(π / 2)) 0)).lon
    rw [hlon0]
    have : 0 ≤ (makeSurf k (interpolate k (bw (-(π / 2)) 0) (bw (-(π / 3)) 1) 1)).loc.lon := hlon1.1
    linarith

end Dedop.Surface
