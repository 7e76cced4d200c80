import Verif.Surface.Track

/-!
# Surface focusing (C58, C71, C72)

* at most one surface is moved: `focus_moves_one`;
* where to: `focus_closest_approach`;
* between its neighbours (C72): `focus_between_partial`, `focus_between_violated` (in `Witness.lean`);
* once per product (C71): `focus_never_again`, `focus_per_product_violated` (in `Witness.lean`).
-/
namespace Dedop.Surface

open Real

/-- The call changed a location or marked a surface as focused. -/
def Touched (surfs surfs' : List Surf) : Prop :=
  surfs'.map (fun s => (s.loc, s.focused)) ≠ surfs.map (fun s => (s.loc, s.focused))

theorem fillDist_same (k : Conf) (s : Surf) :
    (fillDist k s).loc = s.loc ∧ (fillDist k s).focused = s.focused := by
  unfold fillDist
  split <;> exact ⟨rfl, rfl⟩

theorem map_fillDist (k : Conf) (surfs : List Surf) :
    (surfs.map (fillDist k)).map (fun s => (s.loc, s.focused)) = surfs.map (fun s => (s.loc, s.focused)) := by
  rw [List.map_map]
  apply List.map_congr_left
  intro s _
  show ((fillDist k s).loc, (fillDist k s).focused) = _
  rw [(fillDist_same k s).1, (fillDist_same k s).2]

/-- The two ways `focusStep` ends. -/
theorem focusStep_cases {k : Conf} {alg : Alg} {surfs surfs' : List Surf} {f : Bool}
    (h : focusStep k alg surfs = .val (f, surfs')) :
    (f = alg.focusFound ∧ ¬ Touched surfs surfs' ∧
      (k.focusing = true → surfs' = surfs.map (fillDist k) ∧
        ∀ init s p d, surfs = init ++ [p, s] → (fillDist k s).dist = some d → alg.focusFound = false →
          targetDistance k alg.loc.surf ≤ d)) ∨
    (k.focusing = true ∧ f = true ∧ alg.focusFound = false ∧
      ∃ init s p s' d, surfs = init ++ [p, s] ∧ surfs' = (init ++ [p]).map (fillDist k) ++ [s'] ∧
        (fillDist k s).dist = some d ∧ d < targetDistance k alg.loc.surf ∧
        focusSurface k (fillDist k s) (fillDist k p) = .val s') := by
  unfold focusStep at h
  split at h
  · rename_i hk
    cases h
    exact Or.inl ⟨rfl, fun h => h rfl, fun h' => by rw [hk] at h'; cases h'⟩
  · rename_i hk
    have hk : k.focusing = true := by simpa using hk
    simp only at h
    split at h
    · rename_i s p rest hrev
      have e : surfs.map (fillDist k) = rest.reverse ++ [p, s] := by
        have := congrArg List.reverse hrev
        rw [List.reverse_reverse] at this
        rw [this]; simp
      obtain ⟨l1, l2, rfl, h1, h2⟩ := List.map_eq_append_iff.1 e
      obtain ⟨p₀, l3, rfl, hp, h3⟩ := List.map_eq_cons_iff.1 h2
      obtain ⟨s₀, l4, rfl, hs, h4⟩ := List.map_eq_cons_iff.1 h3
      have : l4 = [] := List.map_eq_nil_iff.1 h4
      subst this
      split at h
      · cases h
      · rename_i d hd
        split at h
        · rename_i hc
          split at h
          · cases h
          · rename_i s' hs'
            simp only [Num.val.injEq, Prod.mk.injEq] at h
            refine Or.inr ⟨hk, h.1.symm, hc.1, l1, s₀, p₀, s', d, rfl, ?_, by rw [hs]; exact hd,
              by linarith [hc.2], by rw [hs, hp]; exact hs'⟩
            rw [← h.2, List.map_append, h1]
            simp [hp]
        · rename_i hc
          simp only [Num.val.injEq, Prod.mk.injEq] at h
          refine Or.inl ⟨h.1.symm, ?_, fun _ => ⟨h.2.symm, ?_⟩⟩
          · intro ht; rw [← h.2] at ht; exact ht (map_fillDist k _)
          · intro init s1 p1 d1 he hd1 hff
            have he' := congrArg List.getLast? he
            simp only [List.getLast?_append, List.getLast?_cons_cons, List.getLast?_singleton,
              Option.some_or, Option.some.injEq] at he'
            subst he'
            rw [hs, hd] at hd1
            cases hd1
            by_contra hgt
            exact hc ⟨hff, by linarith [not_le.1 hgt]⟩
    · rename_i hno
      simp only [Num.val.injEq, Prod.mk.injEq] at h
      refine Or.inl ⟨h.1.symm, ?_, fun _ => ⟨h.2.symm, ?_⟩⟩
      · intro ht; rw [← h.2] at ht; exact ht (map_fillDist k _)
      · intro init s1 p1 d1 he
        subst he
        exact absurd (show (((init ++ [p1, s1]).map (fillDist k)).reverse) =
          fillDist k s1 :: fillDist k p1 :: (init.map (fillDist k)).reverse by simp) (hno _ _ _)

theorem call_new {k : Conf} {alg alg' : Alg} {surfs surfs' : List Surf} {bursts : List Burst}
    {force : Bool} (h : call k alg surfs bursts force = .ok alg' surfs' true) :
    focusStep k { alg with loc := alg'.loc } surfs = .val (alg'.focusFound, surfs') := by
  unfold call at h
  split at h
  · cases h
  · cases h
  · cases h
  · simp only at h
    split at h
    · cases h
    · rename_i f s2 hf
      cases h
      exact hf

theorem call_old {k : Conf} {alg alg' : Alg} {surfs surfs' : List Surf} {bursts : List Burst}
    {force : Bool} (h : call k alg surfs bursts force = .ok alg' surfs' false) :
    alg' = alg ∧ surfs' = surfs := by
  unfold call at h
  split at h
  · cases h
  · cases h
  · cases h; exact ⟨rfl, rfl⟩
  · simp only at h
    split at h
    · cases h
    · cases h

/-- One call: it touches nothing unless no surface was moved before; if it does, that is remembered, and
only the last surface has changed. -/
theorem call_touched {k : Conf} {alg alg' : Alg} {surfs surfs' : List Surf} {bursts : List Burst}
    {force new : Bool} (h : call k alg surfs bursts force = .ok alg' surfs' new) :
    (alg.focusFound = true → alg'.focusFound = true ∧ ¬ Touched surfs surfs') ∧
    (Touched surfs surfs' → alg'.focusFound = true ∧ new = true ∧ k.focusing = true ∧
      surfs.length = surfs'.length ∧ ¬ Touched surfs.dropLast surfs'.dropLast) := by
  cases new with
  | false =>
    obtain ⟨rfl, rfl⟩ := call_old h
    exact ⟨fun hf => ⟨hf, fun ht => ht rfl⟩, fun ht => absurd rfl ht⟩
  | true =>
    rcases focusStep_cases (call_new h) with ⟨h1, h2, -⟩ | ⟨hk, h1, h2, init, s, p, s', d, rfl, rfl, -⟩
    · exact ⟨fun hf => ⟨by rw [h1]; exact hf, h2⟩, fun ht => absurd ht h2⟩
    · refine ⟨fun hf => ?_, fun _ => ⟨h1, rfl, hk, by simp, ?_⟩⟩
      · have h2 : alg.focusFound = false := h2
        rw [hf] at h2; cases h2
      · have e1 : (init ++ [p, s]).dropLast = init ++ [p] := by
          rw [List.append_cons, List.dropLast_concat]
        rw [e1, List.dropLast_concat]
        exact fun ht => ht (map_fillDist k _)

/-- Any sequence of calls on one algorithm object: whatever happens to the lists in between (bursts are
added, old entries dropped, another product begun) is covered by the lists being arbitrary.  Each entry
has the surfaces before and after the call; an exception ends the sequence. -/
noncomputable def session (k : Conf) : Alg → List (List Surf × List Burst × Bool) → List (List Surf × List Surf)
  | _, [] => []
  | alg, (surfs, bursts, force) :: rest =>
    match call k alg surfs bursts force with
    | .ok alg' surfs' _ => (surfs, surfs') :: session k alg' rest
    | _ => []

/-- After a surface was moved, no call moves any. -/
theorem focus_never_again (k : Conf) (alg : Alg) (calls : List (List Surf × List Burst × Bool))
    (hf : alg.focusFound = true) : ∀ x ∈ session k alg calls, ¬ Touched x.1 x.2 := by
  induction calls generalizing alg with
  | nil => intro x hx; cases hx
  | cons c rest ih =>
    obtain ⟨surfs, bursts, force⟩ := c
    intro x hx
    unfold session at hx
    split at hx
    · rename_i alg' surfs' new hc
      have := (call_touched hc).1 hf
      rcases List.mem_cons.1 hx with rfl | hx
      · exact this.2
      · exact ih alg' this.1 x hx
    · cases hx

/-- **C58, focusing moves at most one surface.**  Of all calls on one object, at most one changes
existing surfaces; that one changes only the last surface. -/
theorem focus_moves_one (k : Conf) (alg : Alg) (calls : List (List Surf × List Burst × Bool)) :
    (session k alg calls).Pairwise (fun x y => ¬ (Touched x.1 x.2 ∧ Touched y.1 y.2)) ∧
    ∀ x ∈ session k alg calls, x.1.length = x.2.length ∧ ¬ Touched x.1.dropLast x.2.dropLast := by
  induction calls generalizing alg with
  | nil => exact ⟨List.Pairwise.nil, fun x hx => by cases hx⟩
  | cons c rest ih =>
    obtain ⟨surfs, bursts, force⟩ := c
    unfold session
    split
    · rename_i alg' surfs' new hc
      have ht := call_touched hc
      refine ⟨List.Pairwise.cons ?_ (ih alg').1, ?_⟩
      · rintro y hy ⟨h1, h2⟩
        exact focus_never_again k alg' rest (ht.2 h1).1 y hy h2
      · intro x hx
        rcases List.mem_cons.1 hx with rfl | hx
        · by_cases h : Touched surfs surfs'
          · exact ⟨(ht.2 h).2.2.2.1, (ht.2 h).2.2.2.2⟩
          · have h : surfs'.map (fun s => (s.loc, s.focused)) = surfs.map (fun s => (s.loc, s.focused)) := by
              by_contra hne; exact h hne
            refine ⟨by simpa using (congrArg List.length h).symm, fun hn => hn ?_⟩
            show List.map _ surfs'.dropLast = List.map _ surfs.dropLast
            rw [List.map_dropLast, List.map_dropLast, h]
        · exact (ih alg').2 x hx
    · exact ⟨List.Pairwise.nil, fun x hx => by cases hx⟩

/-- The projection used by `focus_surface`. -/
theorem focusSurface_some {k : Conf} {s p s' : Surf} (h : focusSurface k s p = .val s') :
    s.loc.surf - p.loc.surf ≠ 0 ∧
    s'.loc.surf = p.loc.surf +
      (inner ℝ (s.loc.surf - p.loc.surf) (target k - p.loc.surf) / ‖s.loc.surf - p.loc.surf‖ ^ 2) •
        (s.loc.surf - p.loc.surf) ∧
    (s'.loc.lat, s'.loc.lon, s'.loc.alt) = lla k s'.loc.surf ∧
    s'.loc = { s.loc with surf := s'.loc.surf, lat := s'.loc.lat, lon := s'.loc.lon, alt := s'.loc.alt,
                          win := s'.loc.win } ∧
    s'.loc.win = (s'.loc.altSat - s'.loc.alt) * 2 / k.c ∧ s'.focused = true ∧
    s'.los = s.los ∧ s'.res = s.res := by
  unfold focusSurface at h
  simp only at h
  split at h
  · cases h
  · rename_i hne
    push Not at hne
    obtain ⟨h1, h2⟩ := hne
    cases h
    refine ⟨norm_ne_zero_iff.1 h1, ?_, rfl, rfl, rfl, rfl, rfl, rfl⟩
    show _ + _ = _ + _
    congr 1
    rw [smul_smul]
    congr 1
    rw [real_inner_smul_left]
    field_simp

/-- The foot of the perpendicular is the closest point of the line. -/
theorem foot_closest (p d q : V) (hd : d ≠ 0) (u : ℝ) :
    ‖q - (p + (inner ℝ d (q - p) / ‖d‖ ^ 2) • d)‖ ≤ ‖q - (p + u • d)‖ := by
  have hd2 : 0 < ‖d‖ ^ 2 := by positivity
  have key : ∀ t : ℝ, ‖q - (p + t • d)‖ ^ 2 = ‖q - p‖ ^ 2 - 2 * t * inner ℝ d (q - p) + t ^ 2 * ‖d‖ ^ 2 := by
    intro t
    have e : q - (p + t • d) = (q - p) - t • d := by abel
    rw [e, norm_sub_sq_real, norm_smul, real_inner_smul_right, real_inner_comm, mul_pow,
      Real.norm_eq_abs, sq_abs]
    ring
  rw [← sq_le_sq₀ (norm_nonneg _) (norm_nonneg _), key, key]
  generalize inner ℝ d (q - p) = i
  have : ‖d‖ ^ 2 ≠ 0 := hd2.ne'
  have h : 0 ≤ ‖d‖ ^ 2 * (u - i / ‖d‖ ^ 2) ^ 2 := by positivity
  have e : ‖d‖ ^ 2 * (u - i / ‖d‖ ^ 2) ^ 2 =
      (‖q - p‖ ^ 2 - 2 * u * i + u ^ 2 * ‖d‖ ^ 2) -
      (‖q - p‖ ^ 2 - 2 * (i / ‖d‖ ^ 2) * i + (i / ‖d‖ ^ 2) ^ 2 * ‖d‖ ^ 2) := by
    field_simp
    ring
  linarith

/-- A call that moves a surface, spelled out. -/
theorem call_moves {k : Conf} {alg alg' : Alg} {surfs surfs' : List Surf} {bursts : List Burst}
    {force new : Bool} (h : call k alg surfs bursts force = .ok alg' surfs' new) (ht : Touched surfs surfs') :
    k.focusing = true ∧ alg.focusFound = false ∧ new = true ∧
      ∃ init s p s' d, surfs = init ++ [p, s] ∧ surfs' = (init ++ [p]).map (fillDist k) ++ [s'] ∧
        (fillDist k s).dist = some d ∧ d < targetDistance k alg'.loc.surf ∧
        focusSurface k (fillDist k s) (fillDist k p) = .val s' := by
  obtain ⟨-, rfl, -⟩ := (call_touched h).2 ht
  rcases focusStep_cases (call_new h) with ⟨-, h2, -⟩ | ⟨hk, -, h2, hr⟩
  · exact absurd ht h2
  · exact ⟨hk, h2, rfl, hr⟩

/-- **C58, focusing moves the surface to the closest approach.**  The surface moved is the last one `s`;
with `p` the surface before, the new position is on the line through `p` and `s`, and no point of that line
is closer to the target.  Its geodetic coordinates are those of the new position; satellite position,
velocity, attitude and time stay; and the new surface being created is farther from the target than `s`
was when its distance was stored. -/
theorem focus_closest_approach (k : Conf) (alg alg' : Alg) (surfs surfs' : List Surf) (bursts : List Burst)
    (force new : Bool) (h : call k alg surfs bursts force = .ok alg' surfs' new) (ht : Touched surfs surfs') :
    ∃ init s p s', surfs = init ++ [p, s] ∧ surfs'.getLast? = some s' ∧ s'.focused = true ∧
      (∃ t : ℝ, s'.loc.surf = p.loc.surf + t • (s.loc.surf - p.loc.surf)) ∧
      (∀ u : ℝ, ‖target k - s'.loc.surf‖ ≤ ‖target k - (p.loc.surf + u • (s.loc.surf - p.loc.surf))‖) ∧
      (s'.loc.lat, s'.loc.lon, s'.loc.alt) = lla k s'.loc.surf ∧
      s'.loc = { s.loc with surf := s'.loc.surf, lat := s'.loc.lat, lon := s'.loc.lon, alt := s'.loc.alt,
                            win := s'.loc.win } ∧
      (s.dist = none ∨ s.dist = some ‖target k - s.loc.surf‖ →
        ‖target k - s.loc.surf‖ < ‖target k - alg'.loc.surf‖) := by
  obtain ⟨-, -, -, init, s, p, s', d, rfl, rfl, hd, hlt, hf⟩ := call_moves h ht
  obtain ⟨h1, h2, h3, h4, -, h6, -, -⟩ := focusSurface_some hf
  rw [(fillDist_same k s).1] at h1 h2 h4
  rw [(fillDist_same k p).1] at h1 h2
  refine ⟨init, s, p, s', rfl, by simp, h6, ⟨_, h2⟩, ?_, h3, h4, ?_⟩
  · intro u
    rw [h2]
    exact foot_closest _ _ _ h1 u
  · intro hs
    unfold fillDist at hd
    rcases hs with hs | hs
    · rw [hs] at hd
      simp only [Option.some.injEq] at hd
      rw [← hd] at hlt
      exact hlt
    · rw [hs] at hd
      simp only at hd
      rw [hs] at hd
      cases hd
      exact hlt

/-- Where the foot lies if the distances are ordered. -/
theorem foot_between (p d q : V) (hd : d ≠ 0) (u : ℝ) (hu : 1 < u) (h1 : ‖q - (p + d)‖ ≤ ‖q - p‖)
    (h2 : ‖q - (p + d)‖ ≤ ‖q - (p + u • d)‖) :
    1 / 2 ≤ inner ℝ d (q - p) / ‖d‖ ^ 2 ∧ inner ℝ d (q - p) / ‖d‖ ^ 2 ≤ (1 + u) / 2 := by
  have hd2 : 0 < ‖d‖ ^ 2 := by positivity
  have key : ∀ t : ℝ, ‖q - (p + t • d)‖ ^ 2 = ‖q - p‖ ^ 2 - 2 * t * inner ℝ d (q - p) + t ^ 2 * ‖d‖ ^ 2 := by
    intro t
    have e : q - (p + t • d) = (q - p) - t • d := by abel
    rw [e, norm_sub_sq_real, norm_smul, real_inner_smul_right, real_inner_comm, mul_pow,
      Real.norm_eq_abs, sq_abs]
    ring
  have k1 := key 1
  have ku := key u
  rw [one_smul] at k1
  have e1 := (sq_le_sq₀ (norm_nonneg _) (norm_nonneg _)).2 h1
  have e2 := (sq_le_sq₀ (norm_nonneg _) (norm_nonneg _)).2 h2
  rw [k1] at e1
  rw [k1, ku] at e2
  generalize inner ℝ d (q - p) = i at *
  constructor
  · rw [div_le_div_iff₀ (by norm_num) hd2]; linarith
  · rw [div_le_div_iff₀ hd2 (by norm_num)]
    have : (u - 1) * (2 * i) ≤ (u - 1) * ((1 + u) * ‖d‖ ^ 2) := by nlinarith
    have := le_of_mul_le_mul_left this (by linarith : (0 : ℝ) < u - 1)
    linarith

/-- **C72, the moved surface stays between its neighbours (`_partial`: from the third surface on, on a
straight track).**  Let the surface `s` have been created while there were at least two surfaces, the last
of them `p` (with a distance that is missing or right), and let a later call move `s`, its new location
lying beyond `s` on the line through `p` and `s`.  Then `s` ends up between the midpoint of `p` and `s` and
the midpoint of `s` and the new location.  Missing: `focus_between_violated`. -/
theorem focus_between_partial (k : Conf) (alg alg₁ alg₂ : Alg) (init init₂ surfs₁ surfs₂ : List Surf)
    (q p : Surf) (bs bs₂ : List Burst) (force force₂ new₂ : Bool)
    (hp : p.dist = none ∨ p.dist = some ‖target k - p.loc.surf‖)
    (h₁ : call k alg (init ++ [q, p]) bs force = .ok alg₁ surfs₁ true)
    (h₂ : call k alg₁ (init₂ ++ [fillDist k p, makeSurf k alg₁.loc]) bs₂ force₂ = .ok alg₂ surfs₂ new₂)
    (ht : Touched (init₂ ++ [fillDist k p, makeSurf k alg₁.loc]) surfs₂)
    (u : ℝ) (hu : 1 < u) (hline : alg₂.loc.surf = p.loc.surf + u • (alg₁.loc.surf - p.loc.surf)) :
    ∃ s', surfs₂.getLast? = some s' ∧ ∃ t ∈ Set.Icc (1 / 2 : ℝ) ((1 + u) / 2),
      s'.loc.surf = p.loc.surf + t • (alg₁.loc.surf - p.loc.surf) := by
  obtain ⟨hk, hff, -, i', s, p', s', d, he, rfl, hd, hlt, hf⟩ := call_moves h₂ ht
  have e1 : s = makeSurf k alg₁.loc ∧ p' = fillDist k p := by
    have := congrArg List.reverse he
    simp only [List.reverse_append, List.reverse_cons, List.reverse_nil, List.nil_append,
      List.cons_append, List.cons.injEq] at this
    exact ⟨this.1.symm, this.2.1.symm⟩
  obtain ⟨rfl, rfl⟩ := e1
  obtain ⟨g1, g2, -⟩ := focusSurface_some hf
  have hfl : ∀ x, (fillDist k x).loc = x.loc := fun x => (fillDist_same k x).1
  simp only [hfl] at g1 g2
  have hs : (makeSurf k alg₁.loc).loc = alg₁.loc := rfl
  rw [hs] at g1 g2
  refine ⟨s', by simp, _, ?_, g2⟩
  have hpd : (fillDist k p).dist = some ‖target k - p.loc.surf‖ := by
    unfold fillDist
    rcases hp with hp | hp
    · rw [hp]; rfl
    · rw [hp]; exact hp
  have hsd : d = ‖target k - alg₁.loc.surf‖ := by
    have : (makeSurf k alg₁.loc).dist = some (targetDistance k alg₁.loc.surf) := by
      unfold makeSurf; simp [hk]
    unfold fillDist at hd
    rw [this] at hd
    simp only at hd
    rw [this] at hd
    cases hd; rfl
  have hmono : ‖target k - alg₁.loc.surf‖ ≤ ‖target k - p.loc.surf‖ := by
    rcases focusStep_cases (call_new h₁) with ⟨g, -, hh⟩ | ⟨-, g, -⟩
    · have hf0 : alg.focusFound = false := by rw [← hff, g]
      exact (hh hk).2 init p q _ rfl hpd hf0
    · rw [hff] at g; cases g
  have he1 : p.loc.surf + (alg₁.loc.surf - p.loc.surf) = alg₁.loc.surf := by abel
  apply foot_between _ _ _ g1 u hu
  · rw [he1]; exact hmono
  · rw [he1, ← hline, ← hsd]; exact hlt.le

/-- **C73, window delay.**  Every location found satisfies `window delay · c / 2 = altitude of the
satellite − altitude of the surface`, and so does a surface after it was moved. -/
theorem window_delay_consistent (k : Conf) (hc : k.c ≠ 0) (alg alg' : Alg) (surfs surfs' : List Surf)
    (bursts : List Burst) (force new : Bool)
    (hs : ∀ s ∈ surfs, s.loc.win * k.c / 2 = s.loc.altSat - s.loc.alt)
    (h : call k alg surfs bursts force = .ok alg' surfs' new) :
    (new = true → alg'.loc.win * k.c / 2 = alg'.loc.altSat - alg'.loc.alt) ∧
    ∀ s ∈ surfs', s.loc.win * k.c / 2 = s.loc.altSat - s.loc.alt := by
  cases new with
  | false =>
    obtain ⟨rfl, rfl⟩ := call_old h
    exact ⟨fun h => (by cases h), hs⟩
  | true =>
    constructor
    · intro _
      have hl := call_loc h
      unfold locate at hl
      split at hl
      · split at hl
        · cases hl
        · rename_i b hb
          have : storeFirst k alg.loc b = alg'.loc := by
            have := Except.ok.inj hl
            exact Option.some.inj (Num.val.inj this)
          rw [← this]
          show b.win * k.c / 2 = b.alt - (b.alt - b.win * k.c / 2)
          ring
      · split at hl
        · obtain ⟨r, -, -, -, -, -, -, hi⟩ := findNew_some (Except.ok.inj hl)
          rw [hi]
          show (_ - _) * 2 / k.c * k.c / 2 = _ - _
          field_simp
          rfl
        · cases hl
    · intro x hx
      have hfill : ∀ s ∈ surfs, (fillDist k s).loc.win * k.c / 2 = (fillDist k s).loc.altSat - (fillDist k s).loc.alt := by
        intro s hs'
        rw [(fillDist_same k s).1]; exact hs s hs'
      rcases focusStep_cases (call_new h) with ⟨-, h2, -⟩ | ⟨hk, -, -, init, s, p, s', d, rfl, rfl, -, -, hf⟩
      · have h2 : surfs'.map (fun s => (s.loc, s.focused)) = surfs.map (fun s => (s.loc, s.focused)) := by
          by_contra hne; exact h2 hne
        have : (x.loc, x.focused) ∈ surfs.map (fun s => (s.loc, s.focused)) := by
          rw [← h2]; exact List.mem_map_of_mem hx
        obtain ⟨y, hy, e⟩ := List.mem_map.1 this
        have e : y.loc = x.loc := (Prod.mk.inj e).1
        rw [← e]
        exact hs y hy
      · rcases List.mem_append.1 hx with hx | hx
        · obtain ⟨y, hy, rfl⟩ := List.mem_map.1 hx
          apply hfill
          rcases List.mem_append.1 hy with hy | hy
          · exact List.mem_append_left _ hy
          · rw [List.mem_singleton] at hy
            subst hy; simp
        · rw [List.mem_singleton] at hx
          subst hx
          obtain ⟨-, -, -, -, hw, -⟩ := focusSurface_some hf
          rw [hw]
          field_simp

end Dedop.Surface
