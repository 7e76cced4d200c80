import Verif.Surface.Violations

/-!
# Non-vacuity of `focus_between_partial`

Surfaces on a straight line: forced locations (as after a gap) at the distances 1, 2 and 3 from the centre,
and the target at 2.2.
-/
namespace Dedop.Surface

open Real

/-- A burst at the given height, for the witness. -/
noncomputable def bl (alt : ℝ) : Burst := { bw 0 0 with alt := alt, win := 0 }

/-- A configuration, for the witness. -/
noncomputable def kl : Conf := kw true 0 (6 / 5)

/-- A surface, for the witness. -/
noncomputable def sl : Surf := { makeSurf kl (storeFirst kl alg0.loc (bl 0)) with dist := none }

theorem bl_surf (l : Loc) (alt : ℝ) : (storeFirst kl l (bl alt)).surf = pt (1 + alt) 0 := by
  show ecef kl (norm kl 0) (norm kl 0) (alt - 0 * kl.c / 2) = _
  rw [ecef_norm _ rfl, zero_mul, zero_div, sub_zero]
  exact ecef_kw _ _ _ _ _

theorem dist_line (r : ℝ) : targetDistance kl (pt r 0) = |11 / 5 - r| := by
  unfold targetDistance kl
  rw [target_kw]
  have : pt (1 + 6 / 5) 0 - pt r 0 = pt (11 / 5 - r) 0 := by
    ext i
    fin_cases i <;> simp [pt]
    norm_num
  rw [this, norm_pt]

theorem dist_line_norm (r : ℝ) : ‖target kl - pt r 0‖ = |11 / 5 - r| := dist_line r

theorem call_eq {k : Conf} {alg : Alg} {surfs surfs' : List Surf} {bs : List Burst} {l : Loc}
    {f force : Bool} (hl : locate k alg surfs bs force = .ok (.val (some l)))
    (hf : focusStep k { alg with loc := l } surfs = .val (f, surfs')) :
    call k alg surfs bs force = .ok ⟨l, f⟩ surfs' true := by
  unfold call
  rw [hl]
  simp only
  rw [hf]

example : ∃ (alg₁ alg₂ : Alg) (surfs₁ surfs₂ : List Surf) (u : ℝ),
    call kl alg0 ([] ++ [sl, sl]) [bl 1] true = .ok alg₁ surfs₁ true ∧
    call kl alg₁ ([] ++ [fillDist kl sl, makeSurf kl alg₁.loc]) [bl 2] true = .ok alg₂ surfs₂ true ∧
    Touched ([] ++ [fillDist kl sl, makeSurf kl alg₁.loc]) surfs₂ ∧ 1 < u ∧
    alg₂.loc.surf = sl.loc.surf + u • (alg₁.loc.surf - sl.loc.surf) ∧
    (sl.dist = none ∨ sl.dist = some ‖target kl - sl.loc.surf‖) := by
  have hs0 : sl.loc.surf = pt 1 0 := by
    have := bl_surf alg0.loc 0
    rw [add_zero] at this
    exact this
  have hd0 : (fillDist kl sl).dist = some (6 / 5) := by
    show some (targetDistance kl sl.loc.surf) = _
    rw [hs0, dist_line]
    norm_num
  have hs1 : (storeFirst kl alg0.loc (bl 1)).surf = pt 2 0 := by
    have := bl_surf alg0.loc 1
    norm_num at this
    exact this
  have hs2 : (storeFirst kl (storeFirst kl alg0.loc (bl 1)) (bl 2)).surf = pt 3 0 := by
    have := bl_surf (storeFirst kl alg0.loc (bl 1)) 2
    norm_num at this
    exact this
  have hd1 : (makeSurf kl (storeFirst kl alg0.loc (bl 1))).dist = some (1 / 5) := by
    show (if true = true then some (targetDistance kl (storeFirst kl alg0.loc (bl 1)).surf) else none) = _
    rw [if_pos rfl, hs1, dist_line]
    norm_num
  have c1 : call kl alg0 ([] ++ [sl, sl]) [bl 1] true =
      .ok ⟨storeFirst kl alg0.loc (bl 1), false⟩ [fillDist kl sl, fillDist kl sl] true := by
    refine call_eq (first_surface kl alg0 _ [] (bl 1) true (Or.inr rfl)) ?_
    unfold focusStep
    rw [if_neg (by show ¬ (true = false); simp)]
    simp only [List.nil_append, List.map_cons, List.map_nil, List.reverse_cons, List.reverse_nil, List.cons_append]
    rw [hd0]
    simp only
    rw [hs1, dist_line, if_neg (by norm_num [alg0])]
    rfl
  have hff : fillDist kl (fillDist kl sl) = fillDist kl sl := rfl
  have hnz : ¬ (‖(makeSurf kl (storeFirst kl alg0.loc (bl 1))).loc.surf - (fillDist kl sl).loc.surf‖ = 0 ∨
      ‖target kl - (fillDist kl sl).loc.surf‖ = 0) := by
    have e1 : (makeSurf kl (storeFirst kl alg0.loc (bl 1))).loc.surf = pt 2 0 := hs1
    have e2 : (fillDist kl sl).loc.surf = pt 1 0 := hs0
    rw [e1, e2, dist_line_norm]
    rintro (h | h)
    · rw [norm_eq_zero, sub_eq_zero] at h
      have := congrArg (fun v : V => v 0) h
      simp [pt] at this
    · norm_num at h
  obtain ⟨s', hs'⟩ : ∃ s', focusSurface kl (makeSurf kl (storeFirst kl alg0.loc (bl 1))) (fillDist kl sl) = .val s' := by
    unfold focusSurface
    simp only
    rw [if_neg hnz]
    exact ⟨_, rfl⟩
  have c2 : call kl ⟨storeFirst kl alg0.loc (bl 1), false⟩
      ([] ++ [fillDist kl sl, makeSurf kl (storeFirst kl alg0.loc (bl 1))]) [bl 2] true =
      .ok ⟨storeFirst kl (storeFirst kl alg0.loc (bl 1)) (bl 2), true⟩ [fillDist kl sl, s'] true := by
    refine call_eq (first_surface kl _ _ [] (bl 2) true (Or.inr rfl)) ?_
    unfold focusStep
    rw [if_neg (by show ¬ (true = false); simp)]
    simp only [List.nil_append, List.map_cons, List.map_nil, List.reverse_cons, List.reverse_nil, List.cons_append,
      fillDist_makeSurf kl rfl, hff]
    rw [hd1]
    simp only
    rw [hs2, dist_line, if_pos ⟨trivial, by norm_num⟩, hs']
  refine ⟨_, _, _, _, 2, c1, c2, ?_, by norm_num, ?_, Or.inl rfl⟩
  · intro h
    simp only [List.nil_append, List.map_cons, List.map_nil, List.cons.injEq, Prod.mk.injEq, and_true, true_and] at h
    have := h.2
    rw [(focusSurface_some hs').2.2.2.2.2.1] at this
    cases this
  · show (storeFirst kl (storeFirst kl alg0.loc (bl 1)) (bl 2)).surf =
      sl.loc.surf + (2 : ℝ) • ((storeFirst kl alg0.loc (bl 1)).surf - sl.loc.surf)
    rw [hs0, hs1, hs2]
    ext i
    fin_cases i <;> simp [pt]
    norm_num

end Dedop.Surface
