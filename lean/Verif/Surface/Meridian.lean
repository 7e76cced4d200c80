import Verif.Surface.Props
import Verif.Calib.Model
import Verif.Chain.Model

/-!
# The choice of the prime meridian (C126)

Longitudes are counted from a meridian chosen by convention.  With another choice every position and velocity is turned about the axis of
the Earth and every longitude is shifted; the surfaces must be the same places, and the records the same.
-/
namespace Dedop.Surface

open Real

/-! ## Specification -/

/-- The vector turned about the axis of the Earth. -/
noncomputable def rot (t : ℝ) (v : V) : V := !₂[cos t * v 0 - sin t * v 1, sin t * v 0 + cos t * v 1, v 2]

/-- Two longitudes which differ by `t`, up to full turns. -/
def Shifted (t l l' : ℝ) : Prop := ∃ m : ℤ, l' = l + t + m * (2 * π)

/-- The burst as described with the other meridian. -/
structure BurstTurned (t : ℝ) (b b' : Burst) : Prop where
  same : b' = { b with surf := b'.surf, sat := b'.sat, lon := b'.lon, vel := b'.vel }
  surf : b'.surf = rot t b.surf
  sat : b'.sat = rot t b.sat
  vel : b'.vel = rot t b.vel
  lon : Shifted t b.lon b'.lon

/-- The location as described with the other meridian. -/
structure LocTurned (t : ℝ) (l l' : Loc) : Prop where
  same : l' = { l with surf := l'.surf, sat := l'.sat, lon := l'.lon, lonSat := l'.lonSat, vel := l'.vel }
  surf : l'.surf = rot t l.surf
  sat : l'.sat = rot t l.sat
  vel : l'.vel = rot t l.vel
  lon : Shifted t l.lon l'.lon
  lonSat : Shifted t l.lonSat l'.lonSat

/-- The surface as described with the other meridian. -/
structure SurfTurned (t : ℝ) (s s' : Surf) : Prop where
  loc : LocTurned t s.loc s'.loc
  los : s'.los = rot t s.los
  res : s'.res = s.res
  dist : s'.dist = s.dist
  focused : s'.focused = s.focused

/-- The algorithm object as described with the other meridian. -/
structure AlgTurned (t : ℝ) (a a' : Alg) : Prop where
  loc : LocTurned t a.loc a'.loc
  found : a'.focusFound = a.focusFound

/-- The configuration as described with the other meridian: the longitude of the target. -/
noncomputable def turnedConf (t : ℝ) (k : Conf) : Conf := { k with lonT := k.lonT + t }

/-- A position at least √2 metres from the axis of the Earth. -/
def Away (v : V) : Prop := 2 ≤ v 0 ^ 2 + v 1 ^ 2

/-! ## Lemmas -/

@[simp] theorem rot_0 (t : ℝ) (v : V) : rot t v 0 = cos t * v 0 - sin t * v 1 := rfl
@[simp] theorem rot_1 (t : ℝ) (v : V) : rot t v 1 = sin t * v 0 + cos t * v 1 := rfl
@[simp] theorem rot_2 (t : ℝ) (v : V) : rot t v 2 = v 2 := rfl

theorem vec_ext {v w : V} (h0 : v 0 = w 0) (h1 : v 1 = w 1) (h2 : v 2 = w 2) : v = w := by
  ext i
  fin_cases i
  · exact h0
  · exact h1
  · exact h2

theorem rot_sub (t : ℝ) (v w : V) : rot t (v - w) = rot t v - rot t w := by
  apply vec_ext <;> simp only [rot_0, rot_1, rot_2, PiLp.sub_apply] <;> ring

theorem rot_add (t : ℝ) (v w : V) : rot t (v + w) = rot t v + rot t w := by
  apply vec_ext <;> simp only [rot_0, rot_1, rot_2, PiLp.add_apply] <;> ring

theorem rot_smul (t a : ℝ) (v : V) : rot t (a • v) = a • rot t v := by
  apply vec_ext <;> simp only [rot_0, rot_1, rot_2, PiLp.smul_apply, smul_eq_mul] <;> ring

theorem sum_rot (t : ℝ) (v w : V) : ∑ i, rot t v i * rot t w i = ∑ i, v i * w i := by
  simp only [Fin.sum_univ_three, rot_0, rot_1, rot_2]
  linear_combination (v 0 * w 0 + v 1 * w 1) * sin_sq_add_cos_sq t

theorem norm_rot (t : ℝ) (v : V) : ‖rot t v‖ = ‖v‖ := by
  have h : ∀ u : V, ‖u‖ = √(∑ i, u i * u i) := by
    intro u
    rw [EuclideanSpace.norm_eq]
    congr 1
    exact Finset.sum_congr rfl fun i _ => by rw [Real.norm_eq_abs, sq_abs, sq]
  rw [h, h, sum_rot]

theorem inner_rot (t : ℝ) (v w : V) : inner ℝ (rot t v) (rot t w) = inner ℝ v w := by
  have h : ∀ u x : V, inner ℝ u x = ∑ i, u i * x i := by
    intro u x
    rw [PiLp.inner_apply]
    exact Finset.sum_congr rfl fun i _ => by simp [mul_comm]
  rw [h, h, sum_rot]

/-- The angle between two vectors is the same after turning both. -/
theorem angle_rot (fl : ℝ → ℝ) (t : ℝ) (v w : V) : Geo.angleBetween fl (rot t v) (rot t w) = Geo.angleBetween fl v w := by
  unfold Geo.angleBetween
  rw [norm_rot, norm_rot, sum_rot]

theorem lerpV_rot (t α : ℝ) (p c : V) : lerpV α (rot t p) (rot t c) = rot t (lerpV α p c) := by
  unfold lerpV
  rw [rot_add, rot_smul, rot_sub]

/-- Geodetic coordinates with another longitude belong to the turned position. -/
theorem ecef_rot (k : Conf) (t lat lon lon' alt : ℝ) (h : Shifted t lon lon') : ecef k lat lon' alt = rot t (ecef k lat lon alt) := by
  obtain ⟨m, rfl⟩ := h
  have hc : cos (lon + t + m * (2 * π)) = cos lon * cos t - sin lon * sin t := by
    rw [Real.cos_add_int_mul_two_pi, cos_add]
  have hs : sin (lon + t + m * (2 * π)) = sin lon * cos t + cos lon * sin t := by
    rw [Real.sin_add_int_mul_two_pi, sin_add]
  unfold ecef Geo.lla2ecef
  simp only [Bool.false_eq_true, if_false]
  apply vec_ext
  · simp only [rot_0, PiLp.toLp_apply, Matrix.cons_val_zero, Matrix.cons_val_one, hc]
    ring
  · simp only [rot_1, PiLp.toLp_apply, Matrix.cons_val_zero, Matrix.cons_val_one, hs]
    ring
  · simp [rot_2]

theorem arctan2_rot (t x y : ℝ) (h : x ^ 2 + y ^ 2 ≠ 0) :
    ∃ m : ℤ, Geo.arctan2 (sin t * x + cos t * y) (cos t * x - sin t * y) = Geo.arctan2 y x + t + m * (2 * π) := by
  set r := √(x ^ 2 + y ^ 2) with hr
  have hpos : 0 < x ^ 2 + y ^ 2 := lt_of_le_of_ne (by positivity) (Ne.symm h)
  have hr0 : 0 < r := Real.sqrt_pos.2 hpos
  have hz : (⟨x, y⟩ : ℂ) ≠ 0 := by
    intro hz
    apply h
    have h1 := congrArg Complex.re hz
    have h2 := congrArg Complex.im hz
    simp only [Complex.zero_re, Complex.zero_im] at h1 h2
    rw [h1, h2]; ring
  have hn : ‖(⟨x, y⟩ : ℂ)‖ = r := by
    rw [Complex.norm_def, hr]
    congr 1
    simp [Complex.normSq_apply]
    ring
  set φ := Geo.arctan2 y x with hφ
  have hx : x = r * cos φ := by
    have := Complex.norm_mul_cos_arg (⟨x, y⟩ : ℂ)
    rw [hn] at this
    exact this.symm
  have hy : y = r * sin φ := by
    have := Complex.norm_mul_sin_arg (⟨x, y⟩ : ℂ)
    rw [hn] at this
    exact this.symm
  obtain ⟨m, hm⟩ := Geo.arctan2_polar_mod hr0 (φ + t)
  refine ⟨m, ?_⟩
  have e1 : sin t * x + cos t * y = r * sin (φ + t) := by
    rw [hx, hy, sin_add]; ring
  have e2 : cos t * x - sin t * y = r * cos (φ + t) := by
    rw [hx, hy, cos_add]; ring
  rw [e1, e2, hm]

theorem horizontal_rot (t : ℝ) (v : V) : rot t v 0 ^ 2 + rot t v 1 ^ 2 = v 0 ^ 2 + v 1 ^ 2 := by
  rw [rot_0, rot_1]
  linear_combination (v 0 ^ 2 + v 1 ^ 2) * sin_sq_add_cos_sq t

theorem not_near {v : V} (h : Away v) : ¬ (|v 0| < 1 ∧ |v 1| < 1) := by
  rintro ⟨h0, h1⟩
  have e0 : v 0 ^ 2 < 1 := by rw [← sq_abs]; nlinarith [abs_nonneg (v 0)]
  have e1 : v 1 ^ 2 < 1 := by rw [← sq_abs]; nlinarith [abs_nonneg (v 1)]
  unfold Away at h
  linarith

/-- The coordinates of the turned position. -/
theorem lla_rot (k : Conf) (t : ℝ) (v : V) (h : Away v) :
    (lla k (rot t v)).1 = (lla k v).1 ∧ (lla k (rot t v)).2.2 = (lla k v).2.2 ∧ Shifted t (lla k v).2.1 (lla k (rot t v)).2.1 := by
  have h' : Away (rot t v) := by unfold Away; rw [horizontal_rot]; exact h
  unfold lla Geo.ecef2lla
  dsimp only
  rw [if_neg (not_near h), if_neg (not_near h')]
  unfold Geo.bowring
  dsimp only
  rw [horizontal_rot, rot_2]
  refine ⟨rfl, rfl, ?_⟩
  obtain ⟨m, hm⟩ := arctan2_rot t (v 0) (v 1) (by unfold Away at h; linarith)
  rw [rot_0, rot_1, hm]
  unfold Geo.pyMod
  refine ⟨m - ⌊(Geo.arctan2 (v 1) (v 0) + t + m * (2 * π)) / (2 * π)⌋ + ⌊Geo.arctan2 (v 1) (v 0) / (2 * π)⌋, ?_⟩
  push_cast
  ring

theorem target_rot (t : ℝ) (k : Conf) : target (turnedConf t k) = rot t (target k) :=
  ecef_rot k t k.latT k.lonT (k.lonT + t) k.altT ⟨0, by simp⟩

theorem targetDistance_rot (t : ℝ) (k : Conf) (v : V) : targetDistance (turnedConf t k) (rot t v) = targetDistance k v := by
  unfold targetDistance
  rw [target_rot, ← rot_sub, norm_rot]

theorem angleTo_rot {t : ℝ} {s s' : Surf} (h : SurfTurned t s s') (g : V) : angleTo s' (rot t g) = angleTo s g := by
  unfold angleTo
  rw [h.los, h.loc.sat, ← rot_sub, angle_rot]

theorem norm_shifted (k : Conf) (hpi : k.pi = π) (t l l' : ℝ) (h : Shifted t l l') : Shifted t (norm k l) (norm k l') := by
  have key : ∀ r : ℝ, ∃ m : ℤ, norm k r = r + m * (2 * π) := by
    intro r
    obtain ⟨s, hs, -, -, ⟨m, hm⟩, -⟩ := Geo.normalize_partial (p := k.pi) (by rw [hpi]; exact Real.pi_pos) r
    refine ⟨m, ?_⟩
    unfold norm
    rw [hs, Option.getD_some, hm, hpi]
    ring
  obtain ⟨m, rfl⟩ := h
  obtain ⟨m1, h1⟩ := key l
  obtain ⟨m2, h2⟩ := key (l + t + m * (2 * π))
  refine ⟨m + m2 - m1, ?_⟩
  rw [h1, h2]
  push_cast
  ring

theorem storeFirst_rot (k : Conf) (hpi : k.pi = π) (t : ℝ) {l l' : Loc} (hl : LocTurned t l l') {b b' : Burst} (hb : BurstTurned t b b') :
    LocTurned t (storeFirst k l b) (storeFirst (turnedConf t k) l' b') := by
  have hlon := norm_shifted k hpi t _ _ hb.lon
  have e := hb.same
  have el := hl.same
  have e1 : b'.lat = b.lat := by rw [e]
  have e2 : b'.alt = b.alt := by rw [e]
  have e3 : b'.win = b.win := by rw [e]
  refine ⟨?_, ?_, hb.sat, hb.vel, hlon, hb.lon⟩
  · unfold storeFirst
    rw [e, el]
    rfl
  · show ecef k (norm k b'.lat) (norm k b'.lon) (b'.alt - b'.win * k.c / 2) = _
    rw [e1, e2, e3]
    exact ecef_rot k t _ _ _ _ hlon

theorem interpolate_rot (k : Conf) (t α : ℝ) {p p' c c' : Burst} (hp : BurstTurned t p p') (hc : BurstTurned t c c')
    (ha : Away (interpolate k p c α).surf) (hs : Away (interpolate k p c α).sat) :
    LocTurned t (interpolate k p c α) (interpolate (turnedConf t k) p' c' α) := by
  have h1 : lerpV α p'.surf c'.surf = rot t (lerpV α p.surf c.surf) := by rw [hp.surf, hc.surf, lerpV_rot]
  have h2 : lerpV α p'.sat c'.sat = rot t (lerpV α p.sat c.sat) := by rw [hp.sat, hc.sat, lerpV_rot]
  have h3 : lerpV α p'.vel c'.vel = rot t (lerpV α p.vel c.vel) := by rw [hp.vel, hc.vel, lerpV_rot]
  obtain ⟨a1, a2, a3⟩ := lla_rot k t (lerpV α p.surf c.surf) ha
  obtain ⟨b1, b2, b3⟩ := lla_rot k t (lerpV α p.sat c.sat) hs
  refine ⟨?_, h1, h2, h3, ?_, ?_⟩
  · unfold interpolate
    dsimp only
    rw [h1, h2]
    change Loc.mk _ _ (lla k (rot t (lerpV α p.surf c.surf))).1 _ _ _ _ _ _ _ _ _ _ _ _ _ _ _ _ = _
    have g1 : (lla (turnedConf t k) (rot t (lerpV α p.surf c.surf))) = lla k (rot t (lerpV α p.surf c.surf)) := rfl
    have g2 : (lla (turnedConf t k) (rot t (lerpV α p.sat c.sat))) = lla k (rot t (lerpV α p.sat c.sat)) := rfl
    rw [hp.same, hc.same]
    simp only [Loc.mk.injEq, true_and, and_true, g1, g2, a1, a2, b1, b2]
    simp [turnedConf]
  · show Shifted t _ (lla k (lerpV α p'.surf c'.surf)).2.1
    rw [h1]; exact a3
  · show Shifted t _ (lla k (lerpV α p'.sat c'.sat)).2.1
    rw [h2]; exact b3

/-- A surface whose position and satellite are away from the axis. -/
def Surf.Away (s : Surf) : Prop := Surface.Away s.loc.surf ∧ Surface.Away s.loc.sat

theorem findNew_rot (k : Conf) (t : ℝ) {s s' : Surf} (h : SurfTurned t s s') {p p' c c' : Burst} (hp : BurstTurned t p p')
    (hc : BurstTurned t c c') :
    match findNew k s p c with
    | .nan => findNew (turnedConf t k) s' p' c' = .nan
    | .val none => findNew (turnedConf t k) s' p' c' = .val none
    | .val (some l) => ∃ l', findNew (turnedConf t k) s' p' c' = .val (some l') ∧ l'.surf = rot t l.surf ∧
        (Away l.surf → Away l.sat → LocTurned t l l') := by
  unfold findNew
  rw [hc.surf, hp.surf, angleTo_rot h, angleTo_rot h, h.res]
  cases angleTo s c.surf with
  | none => simp
  | some a =>
    cases s.res with
    | none => simp
    | some r =>
      dsimp only
      by_cases h1 : a < r
      · simp only [if_pos h1]
      · simp only [if_neg h1]
        cases angleTo s p.surf with
        | none => simp
        | some ap =>
          dsimp only
          by_cases h2 : a = ap
          · simp only [if_pos h2]
          · simp only [if_neg h2]
            refine ⟨_, rfl, ?_, fun ha hs => interpolate_rot k t _ hp hc ha hs⟩
            show lerpV _ p'.surf c'.surf = rot t (lerpV _ p.surf c.surf)
            rw [hp.surf, hc.surf, lerpV_rot]

theorem locate_rot (k : Conf) (hpi : k.pi = π) (t : ℝ) {a a' : Alg} (ha : AlgTurned t a a') {ss ss' : List Surf}
    (hs : List.Forall₂ (SurfTurned t) ss ss') {bs bs' : List Burst} (hb : List.Forall₂ (BurstTurned t) bs bs') (force : Bool) :
    match locate k a ss bs force with
    | .error e => locate (turnedConf t k) a' ss' bs' force = .error e
    | .ok .nan => locate (turnedConf t k) a' ss' bs' force = .ok .nan
    | .ok (.val none) => locate (turnedConf t k) a' ss' bs' force = .ok (.val none)
    | .ok (.val (some l)) => ∃ l', locate (turnedConf t k) a' ss' bs' force = .ok (.val (some l')) ∧ l'.surf = rot t l.surf ∧
        (Away l.surf → Away l.sat → LocTurned t l l') := by
  have hlast : ∀ {α : Type} {R : α → α → Prop} {l l' : List α}, List.Forall₂ R l l' →
      (l.getLast? = none ∧ l'.getLast? = none) ∨ ∃ x x', l.getLast? = some x ∧ l'.getLast? = some x' ∧ R x x' := by
    intro α R l l' h
    have hr := List.rel_reverse h
    rw [List.getLast?_eq_head?_reverse, List.getLast?_eq_head?_reverse]
    generalize l.reverse = r at hr
    generalize l'.reverse = r' at hr
    cases hr with
    | nil => left; exact ⟨rfl, rfl⟩
    | cons h _ => right; exact ⟨_, _, rfl, rfl, h⟩
  have hemp : (ss' = [] ∨ force = true) ↔ (ss = [] ∨ force = true) := by
    have : ss' = [] ↔ ss = [] := by
      rw [← List.length_eq_zero_iff, ← List.length_eq_zero_iff, hs.length_eq]
    rw [this]
  unfold locate
  by_cases h0 : ss = [] ∨ force = true
  · rw [if_pos h0, if_pos (hemp.2 h0)]
    rcases hlast hb with ⟨h1, h2⟩ | ⟨b, b', h1, h2, h3⟩
    · rw [h1, h2]
    · rw [h1, h2]
      have := storeFirst_rot k hpi t ha.loc h3
      exact ⟨_, rfl, this.surf, fun _ _ => this⟩
  · rw [if_neg h0, if_neg (fun h => h0 (hemp.1 h))]
    rcases hlast hs with ⟨h1, h2⟩ | ⟨s, s', h1, h2, h3⟩
    · rw [h1, h2]
    · rw [h1, h2]
      have hr := List.rel_reverse hb
      generalize bs.reverse = rs at hr
      generalize bs'.reverse = rs' at hr
      cases hr with
      | nil => rfl
      | cons hc hr =>
        cases hr with
        | nil => rfl
        | cons hp hr =>
          dsimp only
          have := findNew_rot k t h3 hp hc
          generalize findNew k s _ _ = f at this
          match f with
          | .nan => dsimp only at this ⊢; rw [this]
          | .val none => dsimp only at this ⊢; rw [this]
          | .val (some l) =>
            dsimp only at this ⊢
            obtain ⟨l', e, h⟩ := this
            exact ⟨l', by rw [e], h⟩

theorem fillDist_rot (k : Conf) (t : ℝ) {s s' : Surf} (h : SurfTurned t s s') :
    SurfTurned t (fillDist k s) (fillDist (turnedConf t k) s') := by
  unfold fillDist
  rw [h.dist]
  cases hd : s.dist with
  | none =>
    refine ⟨h.loc, h.los, h.res, ?_, h.focused⟩
    show some _ = some _
    rw [h.loc.surf, targetDistance_rot]
  | some d => exact ⟨h.loc, h.los, h.res, by rw [h.dist], h.focused⟩

theorem focusSurface_rot (k : Conf) (t : ℝ) {s s' p p' : Surf} (hs : SurfTurned t s s') (hp : SurfTurned t p p') :
    match focusSurface k s p with
    | .nan => focusSurface (turnedConf t k) s' p' = .nan
    | .val x => Away x.loc.surf → ∃ x', focusSurface (turnedConf t k) s' p' = .val x' ∧ SurfTurned t x x' := by
  have h1 : s'.loc.surf - p'.loc.surf = rot t (s.loc.surf - p.loc.surf) := by rw [hs.loc.surf, hp.loc.surf, rot_sub]
  have h2 : target (turnedConf t k) - p'.loc.surf = rot t (target k - p.loc.surf) := by rw [target_rot, hp.loc.surf, rot_sub]
  unfold focusSurface
  dsimp only
  rw [h1, h2, norm_rot, norm_rot, hp.loc.surf, ← rot_smul, inner_rot, ← rot_smul, ← rot_add]
  by_cases h0 : ‖s.loc.surf - p.loc.surf‖ = 0 ∨ ‖target k - p.loc.surf‖ = 0
  · simp only [if_pos h0]
  · simp only [if_neg h0]
    intro ha
    refine ⟨_, rfl, ?_⟩
    obtain ⟨a1, a2, a3⟩ := lla_rot k t _ ha
    refine ⟨⟨?_, rfl, hs.loc.sat, hs.loc.vel, a3, hs.loc.lonSat⟩, hs.los, hs.res, hs.dist, rfl⟩
    have g : ∀ v, lla (turnedConf t k) v = lla k v := fun _ => rfl
    have e := hs.loc.same
    have ea : s'.loc.altSat = s.loc.altSat := by rw [e]
    dsimp only
    rw [g, a1, a2, ea]
    rw [e]
    rfl

theorem focusStep_rot (k : Conf) (t : ℝ) {a a' : Alg} (hsurf : a'.loc.surf = rot t a.loc.surf) (hfound : a'.focusFound = a.focusFound) {ss ss' : List Surf}
    (hs : List.Forall₂ (SurfTurned t) ss ss') :
    match focusStep k a ss with
    | .nan => focusStep (turnedConf t k) a' ss' = .nan
    | .val (f, xs) => (∀ x ∈ xs, x.Away) → ∃ xs', focusStep (turnedConf t k) a' ss' = .val (f, xs') ∧ List.Forall₂ (SurfTurned t) xs xs' := by
  unfold focusStep
  have hk : (turnedConf t k).focusing = k.focusing := rfl
  rw [hk, hfound]
  by_cases h0 : k.focusing = false
  · simp only [if_pos h0]
    intro _
    exact ⟨_, rfl, hs⟩
  · simp only [if_neg h0]
    have hm : List.Forall₂ (SurfTurned t) (ss.map (fillDist k)) (ss'.map (fillDist (turnedConf t k))) := by
      rw [List.forall₂_map_left_iff, List.forall₂_map_right_iff]
      exact hs.imp fun _ _ h => fillDist_rot k t h
    generalize ss.map (fillDist k) = ms at hm
    generalize ss'.map (fillDist (turnedConf t k)) = ms' at hm
    have hr := List.rel_reverse hm
    generalize ms.reverse = rs at hr
    generalize ms'.reverse = rs' at hr
    cases hr with
    | nil => intro _; exact ⟨_, rfl, hm⟩
    | @cons s s' _ _ h1 hr =>
      cases hr with
      | nil => intro _; exact ⟨_, rfl, hm⟩
      | @cons p p' rest rest' h2 hr =>
        dsimp only
        rw [h1.dist]
        cases s.dist with
        | none => rfl
        | some d =>
          dsimp only
          rw [hsurf, targetDistance_rot]
          by_cases h3 : a.focusFound = false ∧ targetDistance k a.loc.surf - d > 0
          · simp only [if_pos h3]
            have := focusSurface_rot k t h1 h2
            generalize focusSurface k s p = f at this
            match f with
            | .nan => dsimp only at this ⊢; rw [this]
            | .val x =>
              dsimp only at this ⊢
              intro haw
              obtain ⟨x', e, hx⟩ := this (haw x (by simp)).1
              refine ⟨_, by rw [e], ?_⟩
              exact List.rel_reverse (.cons hx (.cons h2 hr))
          · simp only [if_neg h3]
            intro _
            exact ⟨_, rfl, hm⟩

theorem makeSurf_rot (k : Conf) (t : ℝ) {l l' : Loc} (h : LocTurned t l l') :
    SurfTurned t (makeSurf k l) (makeSurf (turnedConf t k) l') := by
  refine ⟨h, ?_, ?_, ?_, rfl⟩
  · show l'.surf - l'.sat = rot t (l.surf - l.sat)
    rw [h.surf, h.sat, rot_sub]
  · show resolution k l'.vel = resolution k l.vel
    unfold resolution
    rw [h.vel, norm_rot]
  · show (if k.focusing then some (targetDistance (turnedConf t k) l'.surf) else none) = _
    rw [h.surf, targetDistance_rot]
    rfl

/-! ## C126 -/

/-- **C126, surfaces (`_partial`).**  A burst described with the other meridian has the same effect: the same error, NaN, or the same
surfaces described with the other meridian.  Missing: positions within √2 metres of the axis of the Earth (`meridian_violated`). -/
theorem meridian_step_partial (k : Conf) (hpi : k.pi = π) (t : ℝ) {a a' : Alg} (ha : AlgTurned t a a') {ss ss' : List Surf}
    (hs : List.Forall₂ (SurfTurned t) ss ss') {bs bs' : List Burst} (hb : List.Forall₂ (BurstTurned t) bs bs') {b b' : Burst}
    (hbb : BurstTurned t b b') (force : Bool) :
    match step k a ss bs b force with
    | .err e => step (turnedConf t k) a' ss' bs' b' force = .err e
    | .nan => step (turnedConf t k) a' ss' bs' b' force = .nan
    | .ok x xs new => (∀ s ∈ xs, s.Away) → ∃ x' xs', step (turnedConf t k) a' ss' bs' b' force = .ok x' xs' new ∧ AlgTurned t x x' ∧
        List.Forall₂ (SurfTurned t) xs xs' := by
  have hbs : List.Forall₂ (BurstTurned t) (bs ++ [b]) (bs' ++ [b']) := List.rel_append hb (.cons hbb .nil)
  have hl := locate_rot k hpi t ha hs hbs force
  unfold step call
  generalize locate k a ss (bs ++ [b]) force = l at hl
  match l with
  | .error e => dsimp only at hl ⊢; rw [hl]
  | .ok .nan => dsimp only at hl ⊢; rw [hl]
  | .ok (.val none) =>
    dsimp only at hl ⊢
    rw [hl]
    intro _
    exact ⟨_, _, rfl, ha, hs⟩
  | .ok (.val (some l)) =>
    dsimp only at hl ⊢
    cases hf : focusStep k { a with loc := l } ss with
    | nan =>
      dsimp only
      obtain ⟨l', e, hsurf, _⟩ := hl
      have := focusStep_rot k t (a := { a with loc := l }) (a' := { a' with loc := l' }) hsurf ha.found hs
      rw [hf] at this
      rw [e]
      dsimp only
      dsimp only at this
      rw [this]
    | val p =>
      obtain ⟨f, xs⟩ := p
      dsimp only
      intro haw
      obtain ⟨w1, w2⟩ := haw (makeSurf k l) (by simp)
      obtain ⟨l', e, hsurf, hl'⟩ := hl
      have hl' := hl' w1 w2
      have := focusStep_rot k t (a := { a with loc := l }) (a' := { a' with loc := l' }) hsurf ha.found hs
      rw [hf] at this
      obtain ⟨xs', e2, hx⟩ := this (fun x hx => haw x (by simp [hx]))
      rw [e]
      dsimp only
      rw [e2]
      exact ⟨_, _, rfl, ⟨hl', rfl⟩, List.rel_append hx (.cons (makeSurf_rot k t hl') .nil)⟩

/-- The bursts of a track one after the other, each with the flag which forces a surface (`processor.py:360-372`, called for each burst,
`processor.py:196-226`).  The removal of old surfaces and bursts is left out. -/
noncomputable def track (k : Conf) : Alg → List Surf → List Burst → List (Burst × Bool) → Res
  | a, ss, _, [] => .ok a ss false
  | a, ss, bs, (b, force) :: rest =>
    match step k a ss bs b force with
    | .ok a ss _ => track k a ss (bs ++ [b]) rest
    | r => r

/-- **C126, tracks (`_partial`).**  A whole track described with the other meridian gives the same surfaces described with the other meridian,
for instance if it crosses the date line with one of them only. -/
theorem meridian_track_partial (k : Conf) (hpi : k.pi = π) (t : ℝ) (l l' : List (Burst × Bool))
    (hl : List.Forall₂ (fun x x' => BurstTurned t x.1 x'.1 ∧ x'.2 = x.2) l l') {a a' : Alg} (ha : AlgTurned t a a') {ss ss' : List Surf}
    (hs : List.Forall₂ (SurfTurned t) ss ss') {bs bs' : List Burst} (hb : List.Forall₂ (BurstTurned t) bs bs')
    (haw : ∀ n x xs new, track k a ss bs (l.take n) = .ok x xs new → ∀ s ∈ xs, s.Away) :
    match track k a ss bs l with
    | .err e => track (turnedConf t k) a' ss' bs' l' = .err e
    | .nan => track (turnedConf t k) a' ss' bs' l' = .nan
    | .ok x xs new => ∃ x' xs', track (turnedConf t k) a' ss' bs' l' = .ok x' xs' new ∧ AlgTurned t x x' ∧
        List.Forall₂ (SurfTurned t) xs xs' := by
  induction hl generalizing a a' ss ss' bs bs' with
  | nil => exact ⟨_, _, rfl, ha, hs⟩
  | @cons x x' l l' hx _ ih =>
    obtain ⟨b, force⟩ := x
    obtain ⟨b', force'⟩ := x'
    obtain ⟨hbb, hff⟩ := hx
    dsimp only at hbb hff
    subst hff
    have hstep := meridian_step_partial k hpi t ha hs hb hbb force'
    rw [track, track]
    cases h1 : step k a ss bs b force' with
    | err e => rw [h1] at hstep; dsimp only at hstep ⊢; rw [hstep]
    | nan => rw [h1] at hstep; dsimp only at hstep ⊢; rw [hstep]
    | ok y ys new =>
      rw [h1] at hstep
      have h2 : ∀ s ∈ ys, s.Away := by
        refine haw 1 y ys false ?_
        rw [List.take_succ_cons, List.take_zero, track, h1]
        rfl
      obtain ⟨y', ys', e, g1, g2⟩ := hstep h2
      rw [e]
      dsimp only
      refine ih g1 g2 (List.rel_append hb (.cons hbb .nil)) ?_
      intro n x xs nw hn
      refine haw (n + 1) x xs nw ?_
      rw [List.take_succ_cons, track, h1]
      exact hn

/-! ### Angles and records -/

/-- The beam angle of a surface for a burst (`/repo/dedop/proc/sar/algorithms/beam_angles.py:62-74`); `none` for a division by zero. -/
noncomputable def beamAngle (surf sat vel : V) : Option ℝ :=
  if ‖surf - sat‖ * ‖vel‖ = 0 then none else Geo.npArccos ((∑ i, (surf - sat) i * vel i) / (‖surf - sat‖ * ‖vel‖))

theorem cross_rot (t : ℝ) (v w : V) : Calib.cross (rot t v) (rot t w) = rot t (Calib.cross v w) := by
  have h := sin_sq_add_cos_sq t
  unfold Calib.cross
  apply vec_ext
  · simp only [rot_0, rot_1, rot_2, PiLp.toLp_apply, Matrix.cons_val_zero, Matrix.cons_val_one]
    ring
  · simp only [rot_0, rot_1, rot_2, PiLp.toLp_apply, Matrix.cons_val_zero, Matrix.cons_val_one]
    ring
  · show (cos t * v 0 - sin t * v 1) * (sin t * w 0 + cos t * w 1) - (sin t * v 0 + cos t * v 1) * (cos t * w 0 - sin t * w 1) =
      v 0 * w 1 - v 1 * w 0
    linear_combination (v 0 * w 1 - v 1 * w 0) * h

/-- **C126, angles.**  The beam angle of a surface and the Doppler angle of a burst are the same with the other meridian. -/
theorem meridian_angles (t : ℝ) (surf sat ground vel : V) (fl : ℝ → ℝ) :
    beamAngle (rot t surf) (rot t sat) (rot t vel) = beamAngle surf sat vel ∧
      Calib.dopplerAngle fl (rot t ground - rot t sat) (rot t vel) = Calib.dopplerAngle fl (ground - sat) vel := by
  constructor
  · unfold beamAngle
    rw [← rot_sub, norm_rot, norm_rot, sum_rot]
  · unfold Calib.dopplerAngle
    rw [← rot_sub, cross_rot, cross_rot, angle_rot]

/-- Three numbers turned about the axis of the Earth. -/
noncomputable def rotF (t : ℝ) (v : Fin 3 → ℝ) : Fin 3 → ℝ := (rot t (WithLp.toLp 2 v)).ofLp

/-- The burst of the chain of algorithms with its position turned. -/
noncomputable def turnedL1A (t : ℝ) (b : Chain.L1A) : Chain.L1A := { b with sat := rotF t b.sat }

theorem range_rot (t : ℝ) (g : Signal.GeoInput) :
    Signal.rangeSatSurf { g with sat := rotF t g.sat, surf := rotF t g.surf } = Signal.rangeSatSurf g := by
  unfold Signal.rangeSatSurf rotF
  dsimp only
  congr 1
  show (cos t * g.sat 0 - sin t * g.sat 1 - (cos t * g.surf 0 - sin t * g.surf 1)) ^ 2 +
    (sin t * g.sat 0 + cos t * g.sat 1 - (sin t * g.surf 0 + cos t * g.surf 1)) ^ 2 + (g.sat 2 - g.surf 2) ^ 2 = _
  linear_combination ((g.sat 0 - g.surf 0) ^ 2 + (g.sat 1 - g.surf 1) ^ 2) * sin_sq_add_cos_sq t

/-- **C126, records.**  The record of a surface, or the error, is the same with the other meridian. -/
theorem meridian_record (t : ℝ) (argsort : List ℝ → List ℕ) (round : ℝ → ℤ) (junk : ℕ → ℂ) (c : Chain.Conf) (bursts : ℕ → Chain.L1A)
    (s : Chain.Surf) (prev : ℕ) (looks : Chain.Looks) :
    Chain.surface argsort round junk c (fun id => turnedL1A t (bursts id)) { s with pos := rotF t s.pos } prev looks =
      Chain.surface argsort round junk c bursts s prev looks := by
  have h1 : ∀ looks, Chain.entries junk c (fun id => turnedL1A t (bursts id)) looks = Chain.entries junk c bursts looks := by
    intro looks
    induction looks with
    | nil => rfl
    | cons l rest ih =>
      obtain ⟨i, a, id⟩ := l
      rw [Chain.entries, Chain.entries, ih]
      rfl
  have h2 : Chain.shiftOf c (fun id => turnedL1A t (bursts id)) { s with pos := rotF t s.pos } = Chain.shiftOf c bursts s := by
    funext row
    have := range_rot t (Chain.geo c s (bursts row.burst) row)
    unfold Chain.shiftOf Signal.totalShift Signal.slantCorrection
    have e : Chain.geo c { s with pos := rotF t s.pos } (turnedL1A t (bursts row.burst)) row =
        { Chain.geo c s (bursts row.burst) row with sat := rotF t (Chain.geo c s (bursts row.burst) row).sat
                                                    surf := rotF t (Chain.geo c s (bursts row.burst) row).surf } := rfl
    rw [e, this]
    rfl
  have h3 : Chain.compressed c (fun id => turnedL1A t (bursts id)) { s with pos := rotF t s.pos } = Chain.compressed c bursts s := by
    funext row
    unfold Chain.compressed
    rw [h2]
  have h4 : Chain.maskInput c (fun id => turnedL1A t (bursts id)) { s with pos := rotF t s.pos } = Chain.maskInput c bursts s := by
    funext rows
    unfold Chain.maskInput
    rw [h2, h3]
  unfold Chain.surface
  rw [h1, h2, h4]

/-! ### Near the poles -/

/-- The constants of a sphere of radius 10, used in the examples. -/
noncomputable def ball : Conf :=
  { cst := ⟨10, 10, 0⟩, pi := π, c := 1, secInDay := 86400, freq := 1, pulses := 1, pri := 1, focusing := false, latT := 0, lonT := 0, altT := 0 }

theorem ball_ecc : Geo.ecc ball.cst = 0 ∧ Geo.polar ball.cst = 10 := by
  have h : Geo.ecc ball.cst = 0 := by
    unfold Geo.ecc ball
    norm_num
  refine ⟨h, ?_⟩
  unfold Geo.polar
  rw [h]
  show √((10 : ℝ) ^ 2 * (1 - 0 ^ 2)) = 10
  rw [show (10 : ℝ) ^ 2 * (1 - 0 ^ 2) = 10 ^ 2 by norm_num, Real.sqrt_sq (by norm_num)]

/-- **C126 fails near the poles.**  The correction of the altitude near a pole is made for positions in a square; whether a position is in
it depends on the meridian.  Even on a sphere the altitude of a position one metre from the axis changes with the meridian. -/
theorem meridian_violated : ∃ (k : Conf) (t : ℝ) (v : V), (lla k (rot t v)).2.2 ≠ (lla k v).2.2 := by
  refine ⟨ball, π / 4, !₂[1, 0, 20], ?_⟩
  obtain ⟨he, hp⟩ := ball_ecc
  have h1 : (lla ball (rot (π / 4) !₂[1, 0, 20])).2.2 = 10 := by
    unfold lla Geo.ecef2lla
    have hc : |cos (π / 4)| < 1 := by
      rw [Real.cos_pi_div_four, abs_of_nonneg (by positivity)]
      have : √2 < 2 := by rw [Real.sqrt_lt' (by norm_num)]; norm_num
      linarith
    have hs : |sin (π / 4)| < 1 := by
      rw [Real.sin_pi_div_four, ← Real.cos_pi_div_four]; exact hc
    dsimp only
    rw [if_pos]
    · rw [hp]
      show (20 : ℝ) - 10 = 10
      norm_num
    · constructor
      · show |cos (π / 4) * 1 - sin (π / 4) * 0| < 1
        simpa using hc
      · show |sin (π / 4) * 1 + cos (π / 4) * 0| < 1
        simpa using hs
  have h2 : (lla ball !₂[1, 0, 20]).2.2 = √401 - 10 := by
    unfold lla Geo.ecef2lla
    dsimp only
    rw [if_neg]
    · unfold Geo.bowring
      dsimp only
      rw [he]
      show √((1 : ℝ) ^ 2 + 0 ^ 2) / cos _ - 10 / √(1 - 0 ^ 2 * _) = _
      rw [hp]
      show √((1 : ℝ) ^ 2 + 0 ^ 2) / cos (Geo.arctan2 (20 + √((10 ^ 2 - 10 ^ 2) / 10 ^ 2) ^ 2 * 10 * _) (√((1 : ℝ) ^ 2 + 0 ^ 2) - 0 ^ 2 * 10 * _)) - 10 / √(1 - 0 ^ 2 * _) = _
      have e1 : √((1 : ℝ) ^ 2 + 0 ^ 2) = 1 := by norm_num
      have e2 : √(((10 : ℝ) ^ 2 - 10 ^ 2) / 10 ^ 2) = 0 := by norm_num
      rw [e1, e2]
      simp only [ne_eq, OfNat.ofNat_ne_zero, not_false_eq_true, zero_pow, zero_mul, add_zero, sub_zero, Real.sqrt_one, div_one]
      unfold Geo.arctan2
      rw [Complex.cos_arg (by intro h; have := congrArg Complex.re h; norm_num at this)]
      have e3 : ‖(⟨1, 20⟩ : ℂ)‖ = √401 := by
        rw [Complex.norm_def]
        congr 1
        norm_num [Complex.normSq_apply]
      rw [e3]
      simp
    · show ¬ (|(1 : ℝ)| < 1 ∧ _)
      simp
  rw [h1, h2]
  intro h
  have h3 : √401 = 20 := by linarith
  have h4 := Real.sq_sqrt (show (0 : ℝ) ≤ 401 by norm_num)
  rw [h3] at h4
  norm_num at h4

/-! ## Non-vacuity -/

/-- A burst as described with the other meridian. -/
noncomputable def turnedBurst (t : ℝ) (b : Burst) : Burst :=
  { b with surf := rot t b.surf, sat := rot t b.sat, vel := rot t b.vel, lon := b.lon + t }

/-- Every burst can be described with another meridian. -/
example (t : ℝ) (b : Burst) : BurstTurned t b (turnedBurst t b) := ⟨rfl, rfl, rfl, rfl, ⟨0, by simp [turnedBurst]⟩⟩

/-- A first burst above the equator meets the hypotheses of `meridian_step_partial`: it makes a surface away from the axis. -/
example (alg : Alg) (b : Burst) (h0 : b.lat = 0) (h1 : b.lon = 0) (h2 : b.alt = 5) (h3 : b.win = 2) (h4 : b.sat = !₂[15, 0, 0]) :
    ∃ x xs, step ball alg [] [] b false = .ok x xs true ∧ xs ≠ [] ∧ ∀ s ∈ xs, s.Away := by
  refine ⟨_, _, rfl, by simp, ?_⟩
  intro s hs
  have hs : s = makeSurf ball (storeFirst ball alg.loc b) := by simpa using hs
  subst hs
  have hn : norm ball 0 = 0 := by
    unfold norm Geo.normalize Geo.raise Geo.lower
    have := Real.pi_pos
    simp [ball, not_lt.2 this.le]
  constructor
  · show Away (ecef ball (norm ball b.lat) (norm ball b.lon) (b.alt - b.win * 1 / 2))
    rw [h0, h1, h2, h3, hn]
    unfold Away ecef Geo.lla2ecef ball
    norm_num
  · show Away b.sat
    rw [h4]
    unfold Away
    norm_num

end Dedop.Surface
