import Verif.Surface.Meridian

/-!
# The two hemispheres (C127)

Nothing in the processing prefers the north.  If all positions and velocities are mirrored at the plane of the equator and all latitudes change
their sign, the surfaces must be the mirrored ones, and the records the same.
-/
namespace Dedop.Surface

open Real

/-! ## Specification -/

/-- The vector mirrored at the plane of the equator. -/
noncomputable def mir (v : V) : V := !₂[v 0, v 1, -v 2]

/-- Two latitudes of opposite sign, up to full turns. -/
def Opposite (l l' : ℝ) : Prop := ∃ m : ℤ, l' = -l + m * (2 * π)

/-- The burst on the other hemisphere. -/
structure BurstMirrored (b b' : Burst) : Prop where
  same : b' = { b with surf := b'.surf, sat := b'.sat, lat := b'.lat, vel := b'.vel }
  surf : b'.surf = mir b.surf
  sat : b'.sat = mir b.sat
  vel : b'.vel = mir b.vel
  lat : Opposite b.lat b'.lat

/-- The location on the other hemisphere. -/
structure LocMirrored (l l' : Loc) : Prop where
  same : l' = { l with surf := l'.surf, sat := l'.sat, lat := l'.lat, latSat := l'.latSat, vel := l'.vel }
  surf : l'.surf = mir l.surf
  sat : l'.sat = mir l.sat
  vel : l'.vel = mir l.vel
  lat : Opposite l.lat l'.lat
  latSat : Opposite l.latSat l'.latSat

/-- The surface on the other hemisphere. -/
structure SurfMirrored (s s' : Surf) : Prop where
  loc : LocMirrored s.loc s'.loc
  los : s'.los = mir s.los
  res : s'.res = s.res
  dist : s'.dist = s.dist
  focused : s'.focused = s.focused

/-- The algorithm object on the other hemisphere. -/
structure AlgMirrored (a a' : Alg) : Prop where
  loc : LocMirrored a.loc a'.loc
  found : a'.focusFound = a.focusFound

/-- The configuration with the target on the other hemisphere. -/
noncomputable def mirrorConf (k : Conf) : Conf := { k with latT := -k.latT }

/-- A position outside the square about the axis of the Earth in which the altitude is computed in another way. -/
def OffAxis (v : V) : Prop := 1 ≤ |v 0| ∨ 1 ≤ |v 1|

/-- A surface whose position and satellite are off the axis. -/
def Surf.OffAxis (s : Surf) : Prop := Surface.OffAxis s.loc.surf ∧ Surface.OffAxis s.loc.sat

/-! ## Lemmas -/

@[simp] theorem mir_0 (v : V) : mir v 0 = v 0 := rfl
@[simp] theorem mir_1 (v : V) : mir v 1 = v 1 := rfl
@[simp] theorem mir_2 (v : V) : mir v 2 = -v 2 := rfl

theorem mir_sub (v w : V) : mir (v - w) = mir v - mir w := by
  apply vec_ext <;> simp only [mir_0, mir_1, mir_2, PiLp.sub_apply]; ring

theorem mir_add (v w : V) : mir (v + w) = mir v + mir w := by
  apply vec_ext <;> simp only [mir_0, mir_1, mir_2, PiLp.add_apply]; ring

theorem mir_smul (a : ℝ) (v : V) : mir (a • v) = a • mir v := by
  apply vec_ext <;> simp only [mir_0, mir_1, mir_2, PiLp.smul_apply, smul_eq_mul]; ring

theorem sum_mir (v w : V) : ∑ i, mir v i * mir w i = ∑ i, v i * w i := by
  simp only [Fin.sum_univ_three, mir_0, mir_1, mir_2]
  ring

theorem norm_mir (v : V) : ‖mir v‖ = ‖v‖ := by
  have h : ∀ u : V, ‖u‖ = √(∑ i, u i * u i) := by
    intro u
    rw [EuclideanSpace.norm_eq]
    congr 1
    exact Finset.sum_congr rfl fun i _ => by rw [Real.norm_eq_abs, sq_abs, sq]
  rw [h, h, sum_mir]

theorem inner_mir (v w : V) : inner ℝ (mir v) (mir w) = inner ℝ v w := by
  have h : ∀ u x : V, inner ℝ u x = ∑ i, u i * x i := by
    intro u x
    rw [PiLp.inner_apply]
    exact Finset.sum_congr rfl fun i _ => by simp [mul_comm]
  rw [h, h, sum_mir]

/-- The angle between two vectors is the same after mirroring both. -/
theorem angle_mir (fl : ℝ → ℝ) (v w : V) : Geo.angleBetween fl (mir v) (mir w) = Geo.angleBetween fl v w := by
  unfold Geo.angleBetween
  rw [norm_mir, norm_mir, sum_mir]

theorem Opposite.cos {l l' : ℝ} (h : Opposite l l') : Real.cos l' = Real.cos l := by
  obtain ⟨m, rfl⟩ := h
  rw [Real.cos_add_int_mul_two_pi, Real.cos_neg]

theorem Opposite.sin {l l' : ℝ} (h : Opposite l l') : Real.sin l' = -Real.sin l := by
  obtain ⟨m, rfl⟩ := h
  rw [Real.sin_add_int_mul_two_pi, Real.sin_neg]

/-- Geodetic coordinates with the opposite latitude belong to the mirrored position. -/
theorem ecef_mir (k : Conf) (lat lat' lon alt : ℝ) (h : Opposite lat lat') : ecef k lat' lon alt = mir (ecef k lat lon alt) := by
  unfold ecef Geo.lla2ecef
  simp only [Bool.false_eq_true, if_false]
  simp only [h.cos, h.sin, mul_neg, neg_sq]
  apply vec_ext
  · simp [mir_0]
  · simp [mir_1]
  · simp [mir_2]

theorem arctan2_mir (x y : ℝ) : Opposite (Geo.arctan2 y x) (Geo.arctan2 (-y) x) := by
  unfold Geo.arctan2
  have h : (⟨x, -y⟩ : ℂ) = (starRingEnd ℂ) ⟨x, y⟩ := rfl
  rw [h, Complex.arg_conj]
  by_cases hp : Complex.arg (⟨x, y⟩ : ℂ) = π
  · rw [if_pos hp]
    exact ⟨1, by rw [hp]; push_cast; ring⟩
  · rw [if_neg hp]
    exact ⟨0, by simp⟩

theorem not_near_off {v : V} (h : OffAxis v) : ¬ (|v 0| < 1 ∧ |v 1| < 1) := by
  rintro ⟨h0, h1⟩
  rcases h with h | h <;> linarith

/-- The coordinates of the mirrored position. -/
theorem lla_mir (k : Conf) (v : V) (h : OffAxis v) :
    (lla k (mir v)).2.1 = (lla k v).2.1 ∧ (lla k (mir v)).2.2 = (lla k v).2.2 ∧ Opposite (lla k v).1 (lla k (mir v)).1 := by
  unfold lla Geo.ecef2lla
  dsimp only
  rw [if_neg (not_near_off h), if_neg (not_near_off (v := mir v) h), mir_0, mir_1, mir_2]
  unfold Geo.bowring
  dsimp only
  have hth := arctan2_mir (Geo.polar k.cst * √(v 0 ^ 2 + v 1 ^ 2)) (k.cst.a * v 2)
  rw [mul_neg, hth.cos, hth.sin]
  generalize Geo.arctan2 (k.cst.a * v 2) (Geo.polar k.cst * √(v 0 ^ 2 + v 1 ^ 2)) = th
  generalize √((k.cst.a ^ 2 - Geo.polar k.cst ^ 2) / Geo.polar k.cst ^ 2) ^ 2 * Geo.polar k.cst = q
  rw [show -v 2 + q * (-Real.sin th) ^ 3 = -(v 2 + q * Real.sin th ^ 3) by ring]
  generalize √(v 0 ^ 2 + v 1 ^ 2) - Geo.ecc k.cst ^ 2 * k.cst.a * Real.cos th ^ 3 = x
  have hl := arctan2_mir x (v 2 + q * Real.sin th ^ 3)
  rw [hl.cos, hl.sin, neg_sq]
  exact ⟨rfl, rfl, hl⟩

theorem norm_opposite (k : Conf) (hpi : k.pi = π) (l l' : ℝ) (h : Opposite l l') : Opposite (norm k l) (norm k l') := by
  have key : ∀ r : ℝ, ∃ m : ℤ, norm k r = r + m * (2 * π) := by
    intro r
    obtain ⟨s, hs, -, -, ⟨m, hm⟩, -⟩ := Geo.normalize_partial (p := k.pi) (by rw [hpi]; exact Real.pi_pos) r
    refine ⟨m, ?_⟩
    unfold norm
    rw [hs, Option.getD_some, hm, hpi]
    ring
  obtain ⟨m, rfl⟩ := h
  obtain ⟨m1, h1⟩ := key l
  obtain ⟨m2, h2⟩ := key (-l + m * (2 * π))
  refine ⟨m + m2 + m1, ?_⟩
  rw [h1, h2]
  push_cast
  ring

theorem lerpV_mir (α : ℝ) (p c : V) : lerpV α (mir p) (mir c) = mir (lerpV α p c) := by
  unfold lerpV
  rw [mir_add, mir_smul, mir_sub]


theorem target_mir (k : Conf) : target (mirrorConf k) = mir (target k) :=
  ecef_mir k k.latT (-k.latT) k.lonT k.altT ⟨0, by simp⟩

theorem targetDistance_mir (k : Conf) (v : V) : targetDistance (mirrorConf k) (mir v) = targetDistance k v := by
  unfold targetDistance
  rw [target_mir, ← mir_sub, norm_mir]

theorem angleTo_mir {s s' : Surf} (h : SurfMirrored s s') (g : V) : angleTo s' (mir g) = angleTo s g := by
  unfold angleTo
  rw [h.los, h.loc.sat, ← mir_sub, angle_mir]


theorem storeFirst_mir (k : Conf) (hpi : k.pi = π) {l l' : Loc} (hl : LocMirrored l l') {b b' : Burst} (hb : BurstMirrored b b') :
    LocMirrored (storeFirst k l b) (storeFirst (mirrorConf k) l' b') := by
  have hlat := norm_opposite k hpi _ _ hb.lat
  have e := hb.same
  have el := hl.same
  have e1 : b'.lon = b.lon := by rw [e]
  have e2 : b'.alt = b.alt := by rw [e]
  have e3 : b'.win = b.win := by rw [e]
  refine ⟨?_, ?_, hb.sat, hb.vel, hlat, hb.lat⟩
  · unfold storeFirst
    rw [e, el]
    rfl
  · show ecef k (norm k b'.lat) (norm k b'.lon) (b'.alt - b'.win * k.c / 2) = _
    rw [e1, e2, e3]
    exact ecef_mir k _ _ _ _ hlat

theorem interpolate_mir (k : Conf) (α : ℝ) {p p' c c' : Burst} (hp : BurstMirrored p p') (hc : BurstMirrored c c')
    (ha : OffAxis (interpolate k p c α).surf) (hs : OffAxis (interpolate k p c α).sat) :
    LocMirrored (interpolate k p c α) (interpolate (mirrorConf k) p' c' α) := by
  have h1 : lerpV α p'.surf c'.surf = mir (lerpV α p.surf c.surf) := by rw [hp.surf, hc.surf, lerpV_mir]
  have h2 : lerpV α p'.sat c'.sat = mir (lerpV α p.sat c.sat) := by rw [hp.sat, hc.sat, lerpV_mir]
  have h3 : lerpV α p'.vel c'.vel = mir (lerpV α p.vel c.vel) := by rw [hp.vel, hc.vel, lerpV_mir]
  obtain ⟨a1, a2, a3⟩ := lla_mir k (lerpV α p.surf c.surf) ha
  obtain ⟨b1, b2, b3⟩ := lla_mir k (lerpV α p.sat c.sat) hs
  refine ⟨?_, h1, h2, h3, ?_, ?_⟩
  · unfold interpolate
    dsimp only
    rw [h1, h2]
    change Loc.mk _ _ _ (lla k (mir (lerpV α p.surf c.surf))).2.1 _ _ _ _ _ _ _ _ _ _ _ _ _ _ _ = _
    have g1 : (lla (mirrorConf k) (mir (lerpV α p.surf c.surf))) = lla k (mir (lerpV α p.surf c.surf)) := rfl
    have g2 : (lla (mirrorConf k) (mir (lerpV α p.sat c.sat))) = lla k (mir (lerpV α p.sat c.sat)) := rfl
    rw [hp.same, hc.same]
    simp only [Loc.mk.injEq, true_and, and_true, g1, g2, a1, a2, b1, b2]
    simp [mirrorConf]
  · show Opposite _ (lla k (lerpV α p'.surf c'.surf)).1
    rw [h1]; exact a3
  · show Opposite _ (lla k (lerpV α p'.sat c'.sat)).1
    rw [h2]; exact b3


theorem findNew_mir (k : Conf) {s s' : Surf} (h : SurfMirrored s s') {p p' c c' : Burst} (hp : BurstMirrored p p')
    (hc : BurstMirrored c c') :
    match findNew k s p c with
    | .nan => findNew (mirrorConf k) s' p' c' = .nan
    | .val none => findNew (mirrorConf k) s' p' c' = .val none
    | .val (some l) => ∃ l', findNew (mirrorConf k) s' p' c' = .val (some l') ∧ l'.surf = mir l.surf ∧
        (OffAxis l.surf → OffAxis l.sat → LocMirrored l l') := by
  unfold findNew
  rw [hc.surf, hp.surf, angleTo_mir h, angleTo_mir h, h.res]
  cases angleTo s c.surf with
  | none => simp
  | some a =>
    cases s.res with
    | none => simp
    | some r =>
      dsimp only
      by_cases h1 : a < r
      · simp only [if_pos h1]
      · simp only [if_neg h1]
        cases angleTo s p.surf with
        | none => simp
        | some ap =>
          dsimp only
          by_cases h2 : a = ap
          · simp only [if_pos h2]
          · simp only [if_neg h2]
            refine ⟨_, rfl, ?_, fun ha hs => interpolate_mir k _ hp hc ha hs⟩
            show lerpV _ p'.surf c'.surf = mir (lerpV _ p.surf c.surf)
            rw [hp.surf, hc.surf, lerpV_mir]

theorem locate_mir (k : Conf) (hpi : k.pi = π) {a a' : Alg} (ha : AlgMirrored a a') {ss ss' : List Surf}
    (hs : List.Forall₂ SurfMirrored ss ss') {bs bs' : List Burst} (hb : List.Forall₂ BurstMirrored bs bs') (force : Bool) :
    match locate k a ss bs force with
    | .error e => locate (mirrorConf k) a' ss' bs' force = .error e
    | .ok .nan => locate (mirrorConf k) a' ss' bs' force = .ok .nan
    | .ok (.val none) => locate (mirrorConf k) a' ss' bs' force = .ok (.val none)
    | .ok (.val (some l)) => ∃ l', locate (mirrorConf k) a' ss' bs' force = .ok (.val (some l')) ∧ l'.surf = mir l.surf ∧
        (OffAxis l.surf → OffAxis l.sat → LocMirrored l l') := by
  have hlast : ∀ {α : Type} {R : α → α → Prop} {l l' : List α}, List.Forall₂ R l l' →
      (l.getLast? = none ∧ l'.getLast? = none) ∨ ∃ x x', l.getLast? = some x ∧ l'.getLast? = some x' ∧ R x x' := by
    intro α R l l' h
    have hr := List.rel_reverse h
    rw [List.getLast?_eq_head?_reverse, List.getLast?_eq_head?_reverse]
    generalize l.reverse = r at hr
    generalize l'.reverse = r' at hr
    cases hr with
    | nil => left; exact ⟨rfl, rfl⟩
    | cons h _ => right; exact ⟨_, _, rfl, rfl, h⟩
  have hemp : (ss' = [] ∨ force = true) ↔ (ss = [] ∨ force = true) := by
    have : ss' = [] ↔ ss = [] := by
      rw [← List.length_eq_zero_iff, ← List.length_eq_zero_iff, hs.length_eq]
    rw [this]
  unfold locate
  by_cases h0 : ss = [] ∨ force = true
  · rw [if_pos h0, if_pos (hemp.2 h0)]
    rcases hlast hb with ⟨h1, h2⟩ | ⟨b, b', h1, h2, h3⟩
    · rw [h1, h2]
    · rw [h1, h2]
      have := storeFirst_mir k hpi ha.loc h3
      exact ⟨_, rfl, this.surf, fun _ _ => this⟩
  · rw [if_neg h0, if_neg (fun h => h0 (hemp.1 h))]
    rcases hlast hs with ⟨h1, h2⟩ | ⟨s, s', h1, h2, h3⟩
    · rw [h1, h2]
    · rw [h1, h2]
      have hr := List.rel_reverse hb
      generalize bs.reverse = rs at hr
      generalize bs'.reverse = rs' at hr
      cases hr with
      | nil => rfl
      | cons hc hr =>
        cases hr with
        | nil => rfl
        | cons hp hr =>
          dsimp only
          have := findNew_mir k h3 hp hc
          generalize findNew k s _ _ = f at this
          match f with
          | .nan => dsimp only at this ⊢; rw [this]
          | .val none => dsimp only at this ⊢; rw [this]
          | .val (some l) =>
            dsimp only at this ⊢
            obtain ⟨l', e, h⟩ := this
            exact ⟨l', by rw [e], h⟩

theorem fillDist_mir (k : Conf) {s s' : Surf} (h : SurfMirrored s s') :
    SurfMirrored (fillDist k s) (fillDist (mirrorConf k) s') := by
  unfold fillDist
  rw [h.dist]
  cases hd : s.dist with
  | none =>
    refine ⟨h.loc, h.los, h.res, ?_, h.focused⟩
    show some _ = some _
    rw [h.loc.surf, targetDistance_mir]
  | some d => exact ⟨h.loc, h.los, h.res, by rw [h.dist], h.focused⟩

theorem focusSurface_mir (k : Conf) {s s' p p' : Surf} (hs : SurfMirrored s s') (hp : SurfMirrored p p') :
    match focusSurface k s p with
    | .nan => focusSurface (mirrorConf k) s' p' = .nan
    | .val x => OffAxis x.loc.surf → ∃ x', focusSurface (mirrorConf k) s' p' = .val x' ∧ SurfMirrored x x' := by
  have h1 : s'.loc.surf - p'.loc.surf = mir (s.loc.surf - p.loc.surf) := by rw [hs.loc.surf, hp.loc.surf, mir_sub]
  have h2 : target (mirrorConf k) - p'.loc.surf = mir (target k - p.loc.surf) := by rw [target_mir, hp.loc.surf, mir_sub]
  unfold focusSurface
  dsimp only
  rw [h1, h2, norm_mir, norm_mir, hp.loc.surf, ← mir_smul, inner_mir, ← mir_smul, ← mir_add]
  by_cases h0 : ‖s.loc.surf - p.loc.surf‖ = 0 ∨ ‖target k - p.loc.surf‖ = 0
  · simp only [if_pos h0]
  · simp only [if_neg h0]
    intro ha
    refine ⟨_, rfl, ?_⟩
    obtain ⟨a1, a2, a3⟩ := lla_mir k _ ha
    refine ⟨⟨?_, rfl, hs.loc.sat, hs.loc.vel, a3, hs.loc.latSat⟩, hs.los, hs.res, hs.dist, rfl⟩
    have g : ∀ v, lla (mirrorConf k) v = lla k v := fun _ => rfl
    have e := hs.loc.same
    have ea : s'.loc.altSat = s.loc.altSat := by rw [e]
    dsimp only
    rw [g, a1, a2, ea]
    rw [e]
    rfl

theorem focusStep_mir (k : Conf) {a a' : Alg} (hsurf : a'.loc.surf = mir a.loc.surf) (hfound : a'.focusFound = a.focusFound) {ss ss' : List Surf}
    (hs : List.Forall₂ SurfMirrored ss ss') :
    match focusStep k a ss with
    | .nan => focusStep (mirrorConf k) a' ss' = .nan
    | .val (f, xs) => (∀ x ∈ xs, x.OffAxis) → ∃ xs', focusStep (mirrorConf k) a' ss' = .val (f, xs') ∧ List.Forall₂ SurfMirrored xs xs' := by
  unfold focusStep
  have hk : (mirrorConf k).focusing = k.focusing := rfl
  rw [hk, hfound]
  by_cases h0 : k.focusing = false
  · simp only [if_pos h0]
    intro _
    exact ⟨_, rfl, hs⟩
  · simp only [if_neg h0]
    have hm : List.Forall₂ SurfMirrored (ss.map (fillDist k)) (ss'.map (fillDist (mirrorConf k))) := by
      rw [List.forall₂_map_left_iff, List.forall₂_map_right_iff]
      exact hs.imp fun _ _ h => fillDist_mir k h
    generalize ss.map (fillDist k) = ms at hm
    generalize ss'.map (fillDist (mirrorConf k)) = ms' at hm
    have hr := List.rel_reverse hm
    generalize ms.reverse = rs at hr
    generalize ms'.reverse = rs' at hr
    cases hr with
    | nil => intro _; exact ⟨_, rfl, hm⟩
    | @cons s s' _ _ h1 hr =>
      cases hr with
      | nil => intro _; exact ⟨_, rfl, hm⟩
      | @cons p p' rest rest' h2 hr =>
        dsimp only
        rw [h1.dist]
        cases s.dist with
        | none => rfl
        | some d =>
          dsimp only
          rw [hsurf, targetDistance_mir]
          by_cases h3 : a.focusFound = false ∧ targetDistance k a.loc.surf - d > 0
          · simp only [if_pos h3]
            have := focusSurface_mir k h1 h2
            generalize focusSurface k s p = f at this
            match f with
            | .nan => dsimp only at this ⊢; rw [this]
            | .val x =>
              dsimp only at this ⊢
              intro haw
              obtain ⟨x', e, hx⟩ := this (haw x (by simp)).1
              refine ⟨_, by rw [e], ?_⟩
              exact List.rel_reverse (.cons hx (.cons h2 hr))
          · simp only [if_neg h3]
            intro _
            exact ⟨_, rfl, hm⟩

theorem makeSurf_mir (k : Conf) {l l' : Loc} (h : LocMirrored l l') :
    SurfMirrored (makeSurf k l) (makeSurf (mirrorConf k) l') := by
  refine ⟨h, ?_, ?_, ?_, rfl⟩
  · show l'.surf - l'.sat = mir (l.surf - l.sat)
    rw [h.surf, h.sat, mir_sub]
  · show resolution k l'.vel = resolution k l.vel
    unfold resolution
    rw [h.vel, norm_mir]
  · show (if k.focusing then some (targetDistance (mirrorConf k) l'.surf) else none) = _
    rw [h.surf, targetDistance_mir]
    rfl

/-! ## C127 -/

/-- **C127, surfaces (`_partial`).**  A burst on the other hemisphere has the same effect: the same error, NaN, or the same
surfaces on the other hemisphere.  Missing: positions near the axis of the Earth (`mirror_violated`). -/
theorem mirror_step_partial (k : Conf) (hpi : k.pi = π) {a a' : Alg} (ha : AlgMirrored a a') {ss ss' : List Surf}
    (hs : List.Forall₂ SurfMirrored ss ss') {bs bs' : List Burst} (hb : List.Forall₂ BurstMirrored bs bs') {b b' : Burst}
    (hbb : BurstMirrored b b') (force : Bool) :
    match step k a ss bs b force with
    | .err e => step (mirrorConf k) a' ss' bs' b' force = .err e
    | .nan => step (mirrorConf k) a' ss' bs' b' force = .nan
    | .ok x xs new => (∀ s ∈ xs, s.OffAxis) → ∃ x' xs', step (mirrorConf k) a' ss' bs' b' force = .ok x' xs' new ∧ AlgMirrored x x' ∧
        List.Forall₂ SurfMirrored xs xs' := by
  have hbs : List.Forall₂ BurstMirrored (bs ++ [b]) (bs' ++ [b']) := List.rel_append hb (.cons hbb .nil)
  have hl := locate_mir k hpi ha hs hbs force
  unfold step call
  generalize locate k a ss (bs ++ [b]) force = l at hl
  match l with
  | .error e => dsimp only at hl ⊢; rw [hl]
  | .ok .nan => dsimp only at hl ⊢; rw [hl]
  | .ok (.val none) =>
    dsimp only at hl ⊢
    rw [hl]
    intro _
    exact ⟨_, _, rfl, ha, hs⟩
  | .ok (.val (some l)) =>
    dsimp only at hl ⊢
    cases hf : focusStep k { a with loc := l } ss with
    | nan =>
      dsimp only
      obtain ⟨l', e, hsurf, _⟩ := hl
      have := focusStep_mir k (a := { a with loc := l }) (a' := { a' with loc := l' }) hsurf ha.found hs
      rw [hf] at this
      rw [e]
      dsimp only
      dsimp only at this
      rw [this]
    | val p =>
      obtain ⟨f, xs⟩ := p
      dsimp only
      intro haw
      obtain ⟨w1, w2⟩ := haw (makeSurf k l) (by simp)
      obtain ⟨l', e, hsurf, hl'⟩ := hl
      have hl' := hl' w1 w2
      have := focusStep_mir k (a := { a with loc := l }) (a' := { a' with loc := l' }) hsurf ha.found hs
      rw [hf] at this
      obtain ⟨xs', e2, hx⟩ := this (fun x hx => haw x (by simp [hx]))
      rw [e]
      dsimp only
      rw [e2]
      exact ⟨_, _, rfl, ⟨hl', rfl⟩, List.rel_append hx (.cons (makeSurf_mir k hl') .nil)⟩

/-- **C127, tracks (`_partial`).**  A whole track on the other hemisphere gives the same surfaces on the other hemisphere. -/
theorem mirror_track_partial (k : Conf) (hpi : k.pi = π) (l l' : List (Burst × Bool))
    (hl : List.Forall₂ (fun x x' => BurstMirrored x.1 x'.1 ∧ x'.2 = x.2) l l') {a a' : Alg} (ha : AlgMirrored a a') {ss ss' : List Surf}
    (hs : List.Forall₂ SurfMirrored ss ss') {bs bs' : List Burst} (hb : List.Forall₂ BurstMirrored bs bs')
    (haw : ∀ n x xs new, track k a ss bs (l.take n) = .ok x xs new → ∀ s ∈ xs, s.OffAxis) :
    match track k a ss bs l with
    | .err e => track (mirrorConf k) a' ss' bs' l' = .err e
    | .nan => track (mirrorConf k) a' ss' bs' l' = .nan
    | .ok x xs new => ∃ x' xs', track (mirrorConf k) a' ss' bs' l' = .ok x' xs' new ∧ AlgMirrored x x' ∧
        List.Forall₂ SurfMirrored xs xs' := by
  induction hl generalizing a a' ss ss' bs bs' with
  | nil => exact ⟨_, _, rfl, ha, hs⟩
  | @cons x x' l l' hx _ ih =>
    obtain ⟨b, force⟩ := x
    obtain ⟨b', force'⟩ := x'
    obtain ⟨hbb, hff⟩ := hx
    dsimp only at hbb hff
    subst hff
    have hstep := mirror_step_partial k hpi ha hs hb hbb force'
    rw [track, track]
    cases h1 : step k a ss bs b force' with
    | err e => rw [h1] at hstep; dsimp only at hstep ⊢; rw [hstep]
    | nan => rw [h1] at hstep; dsimp only at hstep ⊢; rw [hstep]
    | ok y ys new =>
      rw [h1] at hstep
      have h2 : ∀ s ∈ ys, s.OffAxis := by
        refine haw 1 y ys false ?_
        rw [List.take_succ_cons, List.take_zero, track, h1]
        rfl
      obtain ⟨y', ys', e, g1, g2⟩ := hstep h2
      rw [e]
      dsimp only
      refine ih g1 g2 (List.rel_append hb (.cons hbb .nil)) ?_
      intro n x xs nw hn
      refine haw (n + 1) x xs nw ?_
      rw [List.take_succ_cons, track, h1]
      exact hn


/-! ### Angles and records -/

/-- The cross product of mirrored vectors points to the other side. -/
theorem cross_mir (v w : V) : Calib.cross (mir v) (mir w) = -mir (Calib.cross v w) := by
  unfold Calib.cross
  apply vec_ext
  · show v 1 * -w 2 - -v 2 * w 1 = -(v 1 * w 2 - v 2 * w 1)
    ring
  · show -v 2 * w 0 - v 0 * -w 2 = -(v 2 * w 0 - v 0 * w 2)
    ring
  · show v 0 * w 1 - v 1 * w 0 = - -(v 0 * w 1 - v 1 * w 0)
    ring

theorem cross_neg_left (v w : V) : Calib.cross (-v) w = -Calib.cross v w := by
  unfold Calib.cross
  apply vec_ext
  · show -v 1 * w 2 - -v 2 * w 1 = -(v 1 * w 2 - v 2 * w 1)
    ring
  · show -v 2 * w 0 - -v 0 * w 2 = -(v 2 * w 0 - v 0 * w 2)
    ring
  · show -v 0 * w 1 - -v 1 * w 0 = -(v 0 * w 1 - v 1 * w 0)
    ring

/-- **C127, angles.**  The beam angle of a surface and the Doppler angle of a burst are the same on the other hemisphere. -/
theorem mirror_angles (surf sat ground vel : V) (fl : ℝ → ℝ) :
    beamAngle (mir surf) (mir sat) (mir vel) = beamAngle surf sat vel ∧
      Calib.dopplerAngle fl (mir ground - mir sat) (mir vel) = Calib.dopplerAngle fl (ground - sat) vel := by
  constructor
  · unfold beamAngle
    rw [← mir_sub, norm_mir, norm_mir, sum_mir]
  · unfold Calib.dopplerAngle
    rw [← mir_sub, cross_mir, cross_neg_left, cross_mir, neg_neg, angle_mir]

/-- Three numbers mirrored at the plane of the equator. -/
noncomputable def mirF (v : Fin 3 → ℝ) : Fin 3 → ℝ := (mir (WithLp.toLp 2 v)).ofLp

/-- The burst of the chain of algorithms with its position mirrored. -/
noncomputable def mirroredL1A (b : Chain.L1A) : Chain.L1A := { b with sat := mirF b.sat }

theorem range_mir (g : Signal.GeoInput) :
    Signal.rangeSatSurf { g with sat := mirF g.sat, surf := mirF g.surf } = Signal.rangeSatSurf g := by
  unfold Signal.rangeSatSurf mirF
  dsimp only
  congr 1
  show (g.sat 0 - g.surf 0) ^ 2 + (g.sat 1 - g.surf 1) ^ 2 + (-g.sat 2 - -g.surf 2) ^ 2 = _
  ring

/-- **C127, records.**  The record of a surface, or the error, is the same on the other hemisphere. -/
theorem mirror_record (argsort : List ℝ → List ℕ) (round : ℝ → ℤ) (junk : ℕ → ℂ) (c : Chain.Conf) (bursts : ℕ → Chain.L1A)
    (s : Chain.Surf) (prev : ℕ) (looks : Chain.Looks) :
    Chain.surface argsort round junk c (fun id => mirroredL1A (bursts id)) { s with pos := mirF s.pos } prev looks =
      Chain.surface argsort round junk c bursts s prev looks := by
  have h1 : ∀ looks, Chain.entries junk c (fun id => mirroredL1A (bursts id)) looks = Chain.entries junk c bursts looks := by
    intro looks
    induction looks with
    | nil => rfl
    | cons l rest ih =>
      obtain ⟨i, a, id⟩ := l
      rw [Chain.entries, Chain.entries, ih]
      rfl
  have h2 : Chain.shiftOf c (fun id => mirroredL1A (bursts id)) { s with pos := mirF s.pos } = Chain.shiftOf c bursts s := by
    funext row
    have := range_mir (Chain.geo c s (bursts row.burst) row)
    unfold Chain.shiftOf Signal.totalShift Signal.slantCorrection
    have e : Chain.geo c { s with pos := mirF s.pos } (mirroredL1A (bursts row.burst)) row =
        { Chain.geo c s (bursts row.burst) row with sat := mirF (Chain.geo c s (bursts row.burst) row).sat
                                                    surf := mirF (Chain.geo c s (bursts row.burst) row).surf } := rfl
    rw [e, this]
    rfl
  have h3 : Chain.compressed c (fun id => mirroredL1A (bursts id)) { s with pos := mirF s.pos } = Chain.compressed c bursts s := by
    funext row
    unfold Chain.compressed
    rw [h2]
  have h4 : Chain.maskInput c (fun id => mirroredL1A (bursts id)) { s with pos := mirF s.pos } = Chain.maskInput c bursts s := by
    funext rows
    unfold Chain.maskInput
    rw [h2, h3]
  unfold Chain.surface
  rw [h1, h2, h4]

/-! ### Near the poles -/

/-- **C127 fails near the poles.**  The altitude of a position above the south pole is not that of the position above the north pole. -/
theorem mirror_violated : ∃ (k : Conf) (v : V), (lla k v).2.2 = 5 ∧ (lla k (mir v)).2.2 = -25 := by
  refine ⟨ball, !₂[0, 0, 15], ?_, ?_⟩
  · obtain ⟨-, hp⟩ := ball_ecc
    unfold lla Geo.ecef2lla
    dsimp only
    rw [if_pos (by simp), hp]
    show (15 : ℝ) - 10 = 5
    norm_num
  · obtain ⟨-, hp⟩ := ball_ecc
    unfold lla Geo.ecef2lla
    dsimp only
    rw [if_pos (by simp), hp]
    show (-15 : ℝ) - 10 = -25
    norm_num

/-! ## Non-vacuity -/

/-- A burst on the other hemisphere. -/
noncomputable def mirroredBurst (b : Burst) : Burst :=
  { b with surf := mir b.surf, sat := mir b.sat, vel := mir b.vel, lat := -b.lat }

/-- Every burst has a mirror image. -/
example (b : Burst) : BurstMirrored b (mirroredBurst b) := ⟨rfl, rfl, rfl, rfl, ⟨0, by simp [mirroredBurst]⟩⟩

/-- Positions away from the axis are off the axis, so the example of `Meridian` meets the hypotheses here too. -/
theorem Away.offAxis {v : V} (h : Away v) : OffAxis v := by
  have := not_near h
  unfold OffAxis
  by_contra hn
  push Not at hn
  exact this hn

end Dedop.Surface
