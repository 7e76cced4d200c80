import Verif.Whole.Times

/-!
# The times of the records of a product rise (C159)
-/
namespace Dedop.Whole

open Real Process

/-! ## C159 -/

theorem items_records {c : Conf} (file : ℕ → Raw) (n : ℕ) (d : Reader.Dataset)
    (h : Reader.openDataset c.bounds (positions file n) = .ok d) :
    (recordsOf (items file n d)).Pairwise (fun a b => a.counter < b.counter) ∧
      ∀ p ∈ recordsOf (items file n d), p.time = (file p.counter).time ∧ p.counter < n := by
  obtain ⟨h1, h2⟩ := items_usable (c := c) file n d h
  have e : itemIds (items file n d) = (recordsOf (items file n d)).map (·.counter) := by
    unfold itemIds recordsOf
    rw [List.map_filterMap]
    congr 1
    funext x
    cases x <;> rfl
  rw [e] at h1 h2
  refine ⟨List.pairwise_map.1 h1, fun p hp => ⟨?_, (h2 _ (List.mem_map_of_mem hp)).1⟩⟩
  unfold recordsOf at hp
  rw [List.mem_filterMap] at hp
  obtain ⟨x, hx, hxp⟩ := hp
  unfold items at hx
  rw [List.mem_map] at hx
  obtain ⟨y, _, rfl⟩ := hx
  cases y with
  | none => cases hxp
  | some i => cases hxp; rfl

/-- **C159.**  If the file is dense (its times rise, and the movement within one and a half burst repetition intervals is seen under an angle
smaller than the angular resolution), the times of the records of both products rise strictly: no record has the time of another one and none
is out of order, however the call ends, whether or not there are gaps, and also if the surfaces are adapted to a target. -/
theorem record_times_rise (c : Conf) (hc : c.Positive) (o : World) (alg : Surface.Alg) (file : ℕ → Raw) (n : ℕ) (D H V : ℝ)
    (hd : Dense c file n D H V) :
    ((process c o alg file n).state.l1b.map (·.loc.time)).Pairwise (· < ·) ∧
    ((process c o alg file n).state.l1bs.map (·.loc.time)).Pairwise (· < ·) := by
  have h1 : ((process c o alg file n).state.l1b.map (·.loc.time)).Pairwise (· < ·) := by
    unfold process
    cases h : Reader.openDataset c.bounds (positions file n) with
    | error e => simp [Outcome.state, start]
    | ok d =>
      obtain ⟨h1, h2⟩ := items_records file n d h
      exact run_times hc hd o alg _ h1 h2
  exact ⟨h1, h1.sublist ((products_agree c o alg file n).2.1.sublist.map _)⟩

/-- A file of any length: the satellite moves north by a tenth of a degree from record to record. -/
noncomputable def northFile (k : ℕ) : Raw := { demoFile k with time := k, lat := k * (1 / 10) }

theorem sphere_ecef (lat alt : ℝ) : Surface.ecef demoConf.surface lat (π / 2) alt = !₂[0, (10 + alt) * cos lat, (10 + alt) * sin lat] := by
  unfold Surface.ecef Geo.lla2ecef
  simp [Conf.surface, demoConf]

theorem sphere_dist (a b r : ℝ) (hr : 0 ≤ r) : dist (!₂[0, r * cos a, r * sin a] : Surface.V) !₂[0, r * cos b, r * sin b] ≤ r * |a - b| := by
  rw [EuclideanSpace.dist_eq, Fin.sum_univ_three]
  refine Real.sqrt_le_iff.2 ⟨by positivity, ?_⟩
  simp only [Real.dist_eq, sq_abs]
  show ((0 : ℝ) - 0) ^ 2 + (r * cos a - r * cos b) ^ 2 + (r * sin a - r * sin b) ^ 2 ≤ _
  have h := one_sub_sq_div_two_le_cos (x := a - b)
  rw [cos_sub] at h
  rw [mul_pow, sq_abs]
  have h1 := sin_sq_add_cos_sq a
  have h2 := sin_sq_add_cos_sq b
  have e : ((0 : ℝ) - 0) ^ 2 + (r * cos a - r * cos b) ^ 2 + (r * sin a - r * sin b) ^ 2 =
      r ^ 2 * (2 - 2 * (cos a * cos b + sin a * sin b)) := by
    linear_combination r ^ 2 * h1 + r ^ 2 * h2
  rw [e]
  nlinarith [sq_nonneg r]

/-- The hypotheses are met by a file of any number of records. -/
theorem north_dense (n : ℕ) : demoConf.Positive ∧ Dense demoConf northFile n (1 / 30) 2 1 := by
  have hsat : ∀ k, (burst demoConf (northFile k)).sat = !₂[0, 15 * cos (radians (k * (1 / 10))), 15 * sin (radians (k * (1 / 10)))] := by
    intro k
    have : (burst demoConf (northFile k)).sat = Surface.ecef demoConf.surface (radians (k * (1 / 10))) (radians 90) 5 := rfl
    rw [this, show radians 90 = π / 2 by unfold radians; ring, sphere_ecef]
    norm_num
  have hsurf : ∀ k, (burst demoConf (northFile k)).surf = !₂[0, 13 * cos (radians (k * (1 / 10))), 13 * sin (radians (k * (1 / 10)))] := by
    intro k
    have : (burst demoConf (northFile k)).surf = Surface.ecef demoConf.surface (radians (k * (1 / 10))) (radians 90)
      (5 - (2 + cos 0 * 0) * 2 / 1 * 1 / 2) := rfl
    rw [this, show radians 90 = π / 2 by unfold radians; ring, sphere_ecef]
    norm_num
  refine ⟨⟨by norm_num [demoConf], by norm_num [demoConf], by norm_num [demoConf]⟩, ?_, ?_, ?_, ?_, ?_⟩
  · intro i j hij _
    show (i : ℝ) < j
    exact_mod_cast hij
  · intro i j hij _ ht
    have ht : (j : ℝ) - i < 1 * 1.5 := ht
    have hj : j = i + 1 := by
      by_contra hne
      have : i + 2 ≤ j := by omega
      have : (i : ℝ) + 2 ≤ j := by exact_mod_cast this
      norm_num at ht
      linarith
    subst hj
    have hδ : |radians (i * (1 / 10)) - radians ((i + 1 : ℕ) * (1 / 10))| ≤ 1 / 450 := by
      have e : radians (i * (1 / 10)) - radians ((i + 1 : ℕ) * (1 / 10)) = -(π / 1800) := by
        unfold radians; push_cast; ring
      rw [e, abs_neg, abs_of_pos (by positivity)]
      linarith [pi_le_four]
    rw [hsat, hsat, hsurf, hsurf]
    refine ⟨(sphere_dist _ _ 13 (by norm_num)).trans ?_, (sphere_dist _ _ 15 (by norm_num)).trans ?_⟩ <;> linarith
  · intro i _
    rw [(surface_below demoConf (by constructor <;> norm_num [demoConf, Conf.surface]) (by norm_num [demoConf]) _).2.2]
    norm_num [Raw.distance, northFile, demoFile]
  · intro i _
    show ‖(!₂[0, 0, 1] : Surface.V)‖ ≤ 1
    rw [EuclideanSpace.norm_eq, Fin.sum_univ_three]
    simp
  · norm_num [demoConf]

example (o : World) (alg : Surface.Alg) : ((process demoConf o alg northFile 5000).state.l1b.map (·.loc.time)).Pairwise (· < ·) :=
  (record_times_rise demoConf (north_dense 5000).1 o alg northFile 5000 _ _ _ (north_dense 5000).2).1

end Dedop.Whole
