import Verif.Surface.Violations
import Mathlib.Geometry.Euclidean.Angle.Unoriented.TriangleInequality

/-!
# Times of surfaces that do not rise (C159)
-/
namespace Dedop.Surface

open Real

/-- **C159 violated for files that are not dense, at the surfaces.**  Three bursts with rising times, farther apart than the surfaces: the
surface made when the third is read is dated before the surface made when the second was read, and even before the first burst. -/
theorem surface_times_violated : ∃ (k : Conf) (b₀ b₁ b₂ : Burst) (alg : Alg) (s₀ s₁ s₂ : Surf),
    b₀.Located k ∧ b₁.Located k ∧ b₂.Located k ∧ b₀.time < b₁.time ∧ b₁.time < b₂.time ∧
    feed k alg0 [] [] [b₀, b₁, b₂] = .ok alg [s₀, s₁, s₂] false ∧
    s₂.loc.time < s₁.loc.time ∧ s₂.loc.time < b₀.time := by
  have hpi := Real.pi_pos
  have hnn : (0 : ℝ) ≤ ‖(!₂[2 / 3, 1 / 3, 0] : V)‖ := norm_nonneg _
  have hn1 : (2 : ℝ) / 3 < ‖(!₂[2 / 3, 1 / 3, 0] : V)‖ := by
    nlinarith [m2_norm]
  have hA1 : angle (!₂[2 / 3, 1 / 3, 0] : V) (pt 1 (π / 2)) = arccos (1 / 3 / ‖(!₂[2 / 3, 1 / 3, 0] : V)‖) := by
    unfold angle InnerProductGeometry.angle
    rw [norm_pt, abs_one, mul_one]
    congr 2
    unfold pt
    rw [PiLp.inner_apply, Fin.sum_univ_three]
    simp
  have hA2 : angle (!₂[2 / 3, 1 / 3, 0] : V) (pt 1 (2 * π / 3)) =
      arccos ((2 / 3 * cos (2 * π / 3) + 1 / 3 * sin (2 * π / 3)) / ‖(!₂[2 / 3, 1 / 3, 0] : V)‖) := by
    unfold angle InnerProductGeometry.angle
    rw [norm_pt, abs_one, mul_one]
    congr 2
    unfold pt
    rw [PiLp.inner_apply, Fin.sum_univ_three]
    simp
    ring
  have htri : angle (!₂[2 / 3, 1 / 3, 0] : V) (pt 1 (2 * π / 3)) ≤ angle (!₂[2 / 3, 1 / 3, 0] : V) (pt 1 (π / 2)) + π / 6 := by
    have h1 := InnerProductGeometry.angle_le_angle_add_angle (!₂[2 / 3, 1 / 3, 0] : V) (pt 1 (π / 2)) (pt 1 (2 * π / 3))
    have h2 := angle_pt (r := 1) (s := 1) (x := π / 2) (y := 2 * π / 3) one_pos one_pos (by linarith) (by linarith)
    rw [show 2 * π / 3 - π / 2 = π / 6 by ring] at h2
    unfold angle at h2 ⊢
    linarith
  have hcs : cos (2 * π / 3) < 0 := cos_neg_of_pi_div_two_lt_of_lt (by linarith) (by linarith)
  have hcs1 : -1 ≤ cos (2 * π / 3) := neg_one_le_cos _
  have hs1 : sin (2 * π / 3) ≤ 1 := sin_le_one _
  have hs0 : 0 ≤ sin (2 * π / 3) := sin_nonneg_of_nonneg_of_le_pi (by linarith) (by linarith)
  generalize hN : ‖(!₂[2 / 3, 1 / 3, 0] : V)‖ = N at *
  have hNpos : 0 < N := by linarith
  have hlt1 : π / 3 < arccos (1 / 3 / N) := by
    have e : π / 3 = arccos (1 / 2) := by
      rw [← Real.cos_pi_div_three, Real.arccos_cos (by linarith) (by linarith)]
    rw [e]
    apply Real.strictAntiOn_arccos
    · constructor
      · have : (0 : ℝ) ≤ 1 / 3 / N := by positivity
        linarith
      · rw [div_le_one hNpos]; linarith
    · constructor <;> norm_num
    · rw [div_lt_div_iff₀ hNpos (by norm_num)]; linarith
  have hlt2 : arccos (1 / 3 / N) < arccos ((2 / 3 * cos (2 * π / 3) + 1 / 3 * sin (2 * π / 3)) / N) := by
    apply Real.strictAntiOn_arccos
    · constructor
      · rw [le_div_iff₀ hNpos]; linarith
      · rw [div_le_one hNpos]; linarith
    · constructor
      · have : (0 : ℝ) ≤ 1 / 3 / N := by positivity
        linarith
      · rw [div_le_one hNpos]; linarith
    · exact (div_lt_div_iff_of_pos_right hNpos).2 (by linarith)
  rw [hA1, hA2] at htri
  generalize hk : kw false 0 0 = k
  generalize ha1 : arccos (1 / 3 / N) = a1 at *
  generalize ha2 : arccos ((2 / 3 * cos (2 * π / 3) + 1 / 3 * sin (2 * π / 3)) / N) = a2 at *
  have hα : (π / 6 - a1) / (a2 - a1) < -1 := by
    rw [div_lt_iff₀ (by linarith)]
    linarith
  -- the second burst
  have hlos0 : (makeSurf k (l1 k alg0)).los = pt 1 0 := by
    subst hk
    show (l1 _ alg0).surf - (0 : V) = _
    rw [l1_surf, sub_zero]
  have hsat0 : (makeSurf k (l1 k alg0)).loc.sat = 0 := rfl
  have hres : ∀ l : Loc, l.vel = !₂[0, 1, 0] → (makeSurf k l).res = some (π / 6) := by
    intro l hl
    show resolution k l.vel = _
    rw [hl]
    subst hk
    exact resolution_kw false 0 0
  have step1 : step k alg0 [] [] (bw 0 0) false = .ok ⟨l1 k alg0, false⟩ [makeSurf k (l1 k alg0)] true := by
    subst hk; exact first_step false 0 0 alg0
  have step2 : step k ⟨l1 k alg0, false⟩ [makeSurf k (l1 k alg0)] [bw 0 0] (bw (π / 2) 1) false =
      .ok ⟨m2 k, false⟩ [makeSurf k (l1 k alg0), makeSurf k (m2 k)] true := by
    refine step_eq (surfs' := [makeSurf k (l1 k alg0)]) ?_ (focusStep_one _ _ _)
    have := locate_eq k ⟨l1 k alg0, false⟩ [] (makeSurf k (l1 k alg0)) [] (bw 0 0) (bw (π / 2) 1)
    rw [List.nil_append, List.nil_append] at this
    show locate _ _ _ [bw 0 0, bw (π / 2) 1] false = _
    rw [this, findNew_eq _ _ _ _ (π / 6) (π / 2) 0 (hres _ rfl) ?_ ?_ ?_ ?_ ?_ (by linarith) ?_]
    · have e : (π / 6 - 0) / (π / 2 - 0) = 1 / 3 := by
        rw [sub_zero, sub_zero, div_div_eq_mul_div, div_mul_eq_mul_div, div_div, mul_comm π 2,
          mul_div_mul_right _ _ hpi.ne']
        norm_num
      rw [e]; rfl
    · rw [hlos0]; exact pt_ne one_ne_zero
    · rw [hsat0]; exact pt_ne one_ne_zero
    · rw [hsat0]; exact pt_ne one_ne_zero
    · rw [hlos0, hsat0, sub_zero]
      have := angle_pt (r := 1) (s := 1) (x := 0) (y := π / 2) one_pos one_pos (by linarith) (by linarith)
      rw [sub_zero] at this
      exact this
    · rw [hlos0, hsat0, sub_zero]
      exact InnerProductGeometry.angle_self (pt_ne one_ne_zero)
    · positivity
  -- the third burst
  have hsat1 : (makeSurf k (m2 k)).loc.sat = 0 := interpolate_sat _ _ _ _ _ _
  have hlos1 : (makeSurf k (m2 k)).los = !₂[2 / 3, 1 / 3, 0] := by
    show (m2 k).surf - (m2 k).sat = _
    rw [m2_coord, show (m2 k).sat = 0 from hsat1, sub_zero]
  have step3 : step k ⟨m2 k, false⟩ [makeSurf k (l1 k alg0), makeSurf k (m2 k)] [bw 0 0, bw (π / 2) 1] (bw (2 * π / 3) 2) false =
      .ok ⟨interpolate k (bw (π / 2) 1) (bw (2 * π / 3) 2) ((π / 6 - a1) / (a2 - a1)), false⟩
        [makeSurf k (l1 k alg0), makeSurf k (m2 k),
          makeSurf k (interpolate k (bw (π / 2) 1) (bw (2 * π / 3) 2) ((π / 6 - a1) / (a2 - a1)))] true := by
    refine step_eq (surfs' := [makeSurf k (l1 k alg0), makeSurf k (m2 k)]) ?_
      (focusStep_off k (by rw [← hk]; rfl) _ _)
    have := locate_eq k ⟨m2 k, false⟩ [makeSurf k (l1 k alg0)] (makeSurf k (m2 k)) [bw 0 0] (bw (π / 2) 1) (bw (2 * π / 3) 2)
    rw [List.cons_append, List.nil_append] at this
    show locate _ _ _ ([bw 0 0] ++ [bw (π / 2) 1, bw (2 * π / 3) 2]) false = _
    rw [this, findNew_eq _ _ _ _ (π / 6) a2 a1 (hres (m2 k) (interpolate_vel _ _ _ _ _ _)) ?_ ?_ ?_ ?_ ?_ (by linarith) ?_]
    · rw [hlos1, ← norm_ne_zero_iff, hN]; exact hNpos.ne'
    · rw [hsat1]; exact pt_ne one_ne_zero
    · rw [hsat1]; exact pt_ne one_ne_zero
    · rw [hlos1, hsat1, sub_zero]; exact hA2
    · rw [hlos1, hsat1, sub_zero]; exact hA1
    · exact hlt2.ne'
  refine ⟨k, bw 0 0, bw (π / 2) 1, bw (2 * π / 3) 2,
    ⟨interpolate k (bw (π / 2) 1) (bw (2 * π / 3) 2) ((π / 6 - a1) / (a2 - a1)), false⟩, makeSurf k (l1 k alg0), makeSurf k (m2 k),
    makeSurf k (interpolate k (bw (π / 2) 1) (bw (2 * π / 3) 2) ((π / 6 - a1) / (a2 - a1))), ?_, ?_, ?_, by show (0 : ℝ) < 1; norm_num,
    by show (1 : ℝ) < 2; norm_num, ?_, ?_, ?_⟩
  · exact hk ▸ bw_located _ _ _ _ _
  · exact hk ▸ bw_located _ _ _ _ _
  · exact hk ▸ bw_located _ _ _ _ _
  · unfold feed
    rw [step1]
    simp only
    unfold feed
    rw [List.nil_append, step2]
    simp only
    unfold feed
    rw [List.cons_append, List.nil_append, step3]
    simp only
    unfold feed
    rfl
  · show (1 : ℝ) + ((π / 6 - a1) / (a2 - a1)) * (2 - 1) < 0 + 1 / 3 * (1 - 0)
    linarith
  · show (1 : ℝ) + ((π / 6 - a1) / (a2 - a1)) * (2 - 1) < 0
    linarith

end Dedop.Surface
