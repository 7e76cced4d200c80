import Verif.Surface.Model
import Verif.Geo.Props

/-!
# Surface locations (C58)

Full statement of C58: a new surface is created only when the angular distance since the last surface
reaches the resolution, it lies on the segment between the last two burst ground points, and surface
focusing replaces at most one surface.

* when a surface is created: `new_surface_iff`;
* where: `new_surface_interpolated`, `on_segment_iff`, `on_segment_partial`, `after_first_surface_partial`,
  along a whole track `surfaces_advance_partial` (`Track.lean`); `off_segment_violated` (`Violations.lean`);
* focusing: `focus_moves_one`, `focus_closest_approach` (`Focus.lean`).

Concrete tracks meeting the hypotheses are in `Witness.lean`.
-/
namespace Dedop.Surface

open Real

/-- The angle between two vectors as known from geometry. -/
noncomputable abbrev angle (v w : V) : ℝ := InnerProductGeometry.angle v w

theorem angleTo_eq (s : Surf) (g : V) (h1 : s.los ≠ 0) (h2 : g ≠ s.loc.sat) :
    angleTo s g = some (angle s.los (g - s.loc.sat)) :=
  (Geo.angle_between_partial s.los (g - s.loc.sat) h1 (sub_ne_zero.2 h2)).1

theorem angleTo_some {s : Surf} {g : V} {a : ℝ} (h : angleTo s g = some a) :
    s.los ≠ 0 ∧ g ≠ s.loc.sat ∧ a = angle s.los (g - s.loc.sat) := by
  by_cases h1 : s.los = 0
  · unfold angleTo at h; rw [h1, Geo.angle_between_zero] at h; cases h
  · by_cases h2 : g = s.loc.sat
    · exfalso
      unfold angleTo Geo.angleBetween at h
      rw [if_pos (by simp [h2])] at h
      cases h
    · rw [angleTo_eq s g h1 h2] at h
      exact ⟨h1, h2, (Option.some.inj h).symm⟩

/-- The call with at least one surface, at least two bursts and no forced location. -/
theorem locate_eq (k : Conf) (alg : Alg) (init : List Surf) (s : Surf) (bs : List Burst) (p c : Burst) :
    locate k alg (init ++ [s]) (bs ++ [p, c]) false = .ok (findNew k s p c) := by
  unfold locate
  rw [if_neg (by simp)]
  have h1 : (init ++ [s]).getLast? = some s := by simp
  have h2 : (bs ++ [p, c]).reverse = c :: p :: bs.reverse := by simp
  rw [h1, h2]

/-- **C58, when a surface is created.**  Let `s` be the last surface and `c` the newest burst, seen in
a direction (both vectors different from zero), `r` the angular resolution of `s`.  If the angle between
the direction of `s` and that of the ground point of `c`, as seen from the satellite position of `s`, is
below `r`, no surface is created and nothing changes.  If it has reached `r` and the angle of the burst
before is different, the algorithm does not answer "no". -/
theorem new_surface_iff (k : Conf) (alg : Alg) (init : List Surf) (s : Surf) (bs : List Burst)
    (p c : Burst) (r : ℝ) (hr : s.res = some r) (hl : s.los ≠ 0) (hc : c.surf ≠ s.loc.sat) :
    (angle s.los (c.surf - s.loc.sat) < r →
      call k alg (init ++ [s]) (bs ++ [p, c]) false = .ok alg (init ++ [s]) false) ∧
    ((∃ alg' surfs', call k alg (init ++ [s]) (bs ++ [p, c]) false = .ok alg' surfs' true) →
      r ≤ angle s.los (c.surf - s.loc.sat)) ∧
    (r ≤ angle s.los (c.surf - s.loc.sat) →
      ∀ alg' surfs', call k alg (init ++ [s]) (bs ++ [p, c]) false ≠ .ok alg' surfs' false) := by
  have ha := angleTo_eq s c.surf hl hc
  have key : angle s.los (c.surf - s.loc.sat) < r → findNew k s p c = .val none := by
    intro h
    unfold findNew
    rw [ha, hr]
    simp only
    rw [if_pos h]
  refine ⟨?_, ?_, ?_⟩
  · intro h
    unfold call
    rw [locate_eq, key h]
  · rintro ⟨alg', surfs', h⟩
    by_contra hlt
    unfold call at h
    rw [locate_eq, key (not_le.1 hlt)] at h
    simp at h
  · intro h alg' surfs' hcall
    unfold call at hcall
    rw [locate_eq] at hcall
    have hf : findNew k s p c = .nan ∨ ∃ l, findNew k s p c = .val (some l) := by
      unfold findNew
      rw [ha, hr]
      simp only
      rw [if_neg (not_lt.2 h)]
      split
      · exact Or.inl rfl
      · split
        · exact Or.inl rfl
        · exact Or.inr ⟨_, rfl⟩
    rcases hf with hf | ⟨l, hf⟩
    · rw [hf] at hcall; simp at hcall
    · rw [hf] at hcall
      simp only at hcall
      split at hcall
      · cases hcall
      · cases hcall

/-- Without a surface, or when forced, a surface is always created directly below the newest burst. -/
theorem first_surface (k : Conf) (alg : Alg) (surfs : List Surf) (bs : List Burst) (b : Burst)
    (force : Bool) (h : surfs = [] ∨ force = true) :
    locate k alg surfs (bs ++ [b]) force = .ok (.val (some (storeFirst k alg.loc b))) := by
  unfold locate
  rw [if_pos h]
  simp

/-- The number by which a new location divides the way from the previous burst to the newest. -/
structure Divides (p c : Burst) (l : Loc) (α : ℝ) : Prop where
  surf : l.surf = p.surf + α • (c.surf - p.surf)
  time : l.time = p.time + α * (c.time - p.time)
  sat : l.sat = p.sat + α • (c.sat - p.sat)
  vel : l.vel = p.vel + α • (c.vel - p.vel)
  altRate : l.altRate = p.altRate + α * (c.altRate - p.altRate)
  roll : l.roll = p.roll + α * (c.roll - p.roll)
  pitch : l.pitch = p.pitch + α * (c.pitch - p.pitch)
  yaw : l.yaw = p.yaw + α * (c.yaw - p.yaw)

theorem findNew_some {k : Conf} {s : Surf} {p c : Burst} {l : Loc}
    (h : findNew k s p c = .val (some l)) :
    ∃ r, s.res = some r ∧ s.los ≠ 0 ∧ c.surf ≠ s.loc.sat ∧ p.surf ≠ s.loc.sat ∧
      r ≤ angle s.los (c.surf - s.loc.sat) ∧
      angle s.los (c.surf - s.loc.sat) ≠ angle s.los (p.surf - s.loc.sat) ∧
      l = interpolate k p c ((r - angle s.los (p.surf - s.loc.sat)) /
        (angle s.los (c.surf - s.loc.sat) - angle s.los (p.surf - s.loc.sat))) := by
  unfold findNew at h
  split at h
  · rename_i a r h1 h2
    split at h
    · cases h
    · rename_i hlt
      split at h
      · cases h
      · rename_i ap h3
        split at h
        · cases h
        · rename_i hne
          obtain ⟨hl, hc, rfl⟩ := angleTo_some h1
          obtain ⟨-, hp, rfl⟩ := angleTo_some h3
          cases h
          exact ⟨r, h2, hl, hc, hp, not_lt.1 hlt, hne, rfl⟩
  · cases h

theorem interpolate_divides (k : Conf) (p c : Burst) (α : ℝ) : Divides p c (interpolate k p c α) α :=
  ⟨rfl, rfl, rfl, rfl, rfl, rfl, rfl, rfl⟩

/-- The new location is stored in the object. -/
theorem call_loc {k : Conf} {alg alg' : Alg} {surfs surfs' : List Surf} {bursts : List Burst}
    {force : Bool} (h : call k alg surfs bursts force = .ok alg' surfs' true) :
    locate k alg surfs bursts force = .ok (.val (some alg'.loc)) := by
  unfold call at h
  split at h
  · cases h
  · cases h
  · cases h
  · rename_i l hl
    simp only at h
    split at h
    · cases h
    · cases h; exact hl

/-- **C58, where.**  A new surface that is not the first divides the way from the previous burst to the
newest one: ground point, time, satellite position, velocity and attitude by the same number, which is the
position of the resolution between the two angles. -/
theorem new_surface_interpolated (k : Conf) (alg alg' : Alg) (init surfs' : List Surf) (s : Surf)
    (bs : List Burst) (p c : Burst)
    (h : call k alg (init ++ [s]) (bs ++ [p, c]) false = .ok alg' surfs' true) :
    ∃ r, s.res = some r ∧
      Divides p c alg'.loc ((r - angle s.los (p.surf - s.loc.sat)) /
        (angle s.los (c.surf - s.loc.sat) - angle s.los (p.surf - s.loc.sat))) := by
  have hl := call_loc h
  rw [locate_eq] at hl
  obtain ⟨r, hr, -, -, -, -, -, hi⟩ := findNew_some (Except.ok.inj hl)
  exact ⟨r, hr, by rw [hi]; exact interpolate_divides _ _ _ _⟩

/-- **C58, when it is on the segment.**  Given that the newest burst has reached the resolution `r`
(and the two angles differ), the dividing number lies in `[0, 1]` exactly when the previous burst had not
passed it (or the newest one is exactly at it). -/
theorem on_segment_iff (a ap r : ℝ) (h : r ≤ a) (hne : a ≠ ap) :
    ((r - ap) / (a - ap) ∈ Set.Icc (0 : ℝ) 1) ↔ (ap ≤ r ∨ a = r) := by
  rw [Set.mem_Icc]
  rcases lt_or_gt_of_ne hne with hlt | hgt
  · constructor
    · rintro ⟨h1, h2⟩
      rw [div_le_one_of_neg (by linarith)] at h2
      exact Or.inr (by linarith)
    · rintro (h3 | rfl)
      · linarith
      · rw [div_self (by linarith)]; simp
  · have hpos : 0 < a - ap := by linarith
    rw [div_le_one hpos, le_div_iff₀ hpos]
    constructor
    · rintro ⟨h1, -⟩; exact Or.inl (by linarith)
    · rintro (h3 | h3) <;> constructor <;> linarith

/-- **C58, on the segment (`_partial`: the previous burst created no surface).**  If the call for the
previous burst, with the same last surface, answered "no new surface", then a surface created by the next
burst lies between the ground points of the two, at a time between theirs. -/
theorem on_segment_partial (k : Conf) (alg₀ alg alg' : Alg) (init₀ init surfs₀ surfs' : List Surf)
    (s : Surf) (bs₀ bs : List Burst) (q p c : Burst)
    (hprev : call k alg₀ (init₀ ++ [s]) (bs₀ ++ [q, p]) false = .ok alg surfs₀ false)
    (h : call k alg (init ++ [s]) (bs ++ [p, c]) false = .ok alg' surfs' true) :
    ∃ α, 0 < α ∧ α ≤ 1 ∧ Divides p c alg'.loc α := by
  have hl := call_loc h
  rw [locate_eq] at hl
  obtain ⟨r, hr, hlos, hc, hp, hle, hne, hi⟩ := findNew_some (Except.ok.inj hl)
  have hlt : angle s.los (p.surf - s.loc.sat) < r := by
    by_contra hge
    exact (new_surface_iff k alg₀ init₀ s bs₀ q p r hr hlos hp).2.2 (not_lt.1 hge) _ _ hprev
  have hpos : 0 < angle s.los (c.surf - s.loc.sat) - angle s.los (p.surf - s.loc.sat) := by linarith
  refine ⟨_, ?_, ?_, by rw [hi]; exact interpolate_divides _ _ _ _⟩
  · exact div_pos (by linarith) hpos
  · rw [div_le_one hpos]; linarith

/-- `normalize` does not change the position: it adds full turns. -/
theorem ecef_norm (k : Conf) (hpi : k.pi = π) (lat lon alt : ℝ) :
    ecef k (norm k lat) (norm k lon) alt = ecef k lat lon alt := by
  have key : ∀ r : ℝ, sin (norm k r) = sin r ∧ cos (norm k r) = cos r := by
    intro r
    obtain ⟨s, hs, -, -, ⟨m, hm⟩, -⟩ := Geo.normalize_partial (p := k.pi) (by rw [hpi]; exact Real.pi_pos) r
    unfold norm
    rw [hs, Option.getD_some, hm, hpi]
    have e : r + 2 * π * m = r + m * (2 * π) := by ring
    rw [e]
    exact ⟨Real.sin_add_int_mul_two_pi r m, Real.cos_add_int_mul_two_pi r m⟩
  unfold ecef Geo.lla2ecef
  simp only [Bool.false_eq_true, if_false, (key lat).1, (key lat).2, (key lon).1, (key lon).2]

/-- **C58, on the segment after the first surface (`_partial`).**  The first surface of a product (or
after a gap) is directly below its burst; a surface created by the next burst lies between the two
ground points.  (`win ≠ 0` and a valid ellipsoid make the two vectors different from zero.) -/
theorem after_first_surface_partial (k : Conf) (hpi : k.pi = π) (alg alg' : Alg) (init surfs' : List Surf)
    (bs : List Burst) (p c : Burst) (l : Loc) (hp : p.Located k)
    (hres : ∀ r, (makeSurf k (storeFirst k l p)).res = some r → 0 < r)
    (h : call k alg (init ++ [makeSurf k (storeFirst k l p)]) (bs ++ [p, c]) false = .ok alg' surfs' true) :
    (storeFirst k l p).surf = p.surf ∧ ∃ α, 0 < α ∧ α ≤ 1 ∧ Divides p c alg'.loc α := by
  have hsurf : (storeFirst k l p).surf = p.surf := by
    rw [hp.2]; exact ecef_norm k hpi _ _ _
  refine ⟨hsurf, ?_⟩
  have hl := call_loc h
  rw [locate_eq] at hl
  obtain ⟨r, hr, hlos, hc, hpne, hle, hne, hi⟩ := findNew_some (Except.ok.inj hl)
  have hz : angle (makeSurf k (storeFirst k l p)).los (p.surf - (makeSurf k (storeFirst k l p)).loc.sat) = 0 := by
    have e : p.surf - (makeSurf k (storeFirst k l p)).loc.sat = (makeSurf k (storeFirst k l p)).los := by
      show p.surf - (storeFirst k l p).sat = (storeFirst k l p).surf - (storeFirst k l p).sat
      rw [hsurf]
    rw [e]
    exact InnerProductGeometry.angle_self hlos
  have hr0 := hres r hr
  rw [hz] at hi hne
  have hpos : 0 < angle (makeSurf k (storeFirst k l p)).los
      (c.surf - (makeSurf k (storeFirst k l p)).loc.sat) - 0 := by linarith
  refine ⟨_, ?_, ?_, by rw [hi]; exact interpolate_divides _ _ _ _⟩
  · exact div_pos (by linarith) hpos
  · rw [div_le_one hpos]; linarith

end Dedop.Surface
