import Verif.Whole.Nadir
import Verif.Whole.Props

/-!
# The times of the records of a product (lemmas for C159)
-/
namespace Dedop.Whole

open Real Process

/-! ## Specification -/

/-- The file is dense: its times rise; from one record to another that is less than one and a half burst repetition intervals later, the point
on the surface and the satellite move by `D` at most; the surface is `H` away from the satellite at least, and the speed is `V` at most.  The
angle under which a movement by `D` is seen is smaller than the angular resolution. -/
structure Dense (c : Conf) (file : ℕ → Raw) (n : ℕ) (D H V : ℝ) : Prop where
  rising : ∀ i j, i < j → j < n → (file i).time < (file j).time
  near : ∀ i j, i < j → j < n → (file j).time - (file i).time < c.bri * 1.5 →
    dist (burst c (file i)).surf (burst c (file j)).surf ≤ D ∧ dist (burst c (file i)).sat (burst c (file j)).sat ≤ D
  high : ∀ i, i < n → H ≤ dist (burst c (file i)).sat (burst c (file i)).surf
  slow : ∀ i, i < n → ‖(file i).vel‖ ≤ V
  fine : D * (2 * c.freq * V * c.pulses * c.pri) < (H - 2 * D) * c.c

/-- The constants that have a sign. -/
structure Conf.Positive (c : Conf) : Prop where
  light : 0 < c.c
  freq : 0 < c.freq
  pri : 0 < c.pri

/-! ## Geometry -/

/-- A vector that is changed by less than `x` of its length turns by less than the arc sine of `x`. -/
theorem angle_add_lt (u w : Surface.V) (x : ℝ) (hu : u ≠ 0) (hx : x ≤ 1) (h : ‖w‖ < x * ‖u‖) :
    InnerProductGeometry.angle u (u + w) < arcsin x := by
  have hu' : 0 < ‖u‖ := norm_pos_iff.2 hu
  have hx0 : 0 < x := by
    by_contra hx0
    have : x * ‖u‖ ≤ 0 := mul_nonpos_of_nonpos_of_nonneg (not_lt.1 hx0) hu'.le
    linarith [norm_nonneg w]
  have hwu : ‖w‖ < ‖u‖ := lt_of_lt_of_le h (by nlinarith)
  have hin : |inner ℝ u w| ≤ ‖u‖ * ‖w‖ := abs_real_inner_le_norm u w
  have hb := neg_le_of_abs_le hin
  have hpos : 0 < inner ℝ u (u + w) := by
    rw [inner_add_right, real_inner_self_eq_norm_sq]
    nlinarith
  have huw : 0 < ‖u + w‖ := by
    rw [norm_pos_iff]
    intro h0
    rw [h0, inner_zero_right] at hpos
    exact lt_irrefl _ hpos
  have hsq : ‖u + w‖ ^ 2 = ‖u‖ ^ 2 + 2 * inner ℝ u w + ‖w‖ ^ 2 := norm_add_sq_real u w
  have hr : arcsin x ≤ π / 2 := arcsin_le_pi_div_two x
  have hr0 : 0 < arcsin x := arcsin_pos.2 hx0
  refine (strictAntiOn_cos.lt_iff_gt ⟨hr0.le, by linarith [pi_pos]⟩ ⟨InnerProductGeometry.angle_nonneg _ _, InnerProductGeometry.angle_le_pi _ _⟩).1 ?_
  rw [InnerProductGeometry.cos_angle, cos_arcsin]
  have hq : 0 < inner ℝ u (u + w) / (‖u‖ * ‖u + w‖) := by positivity
  rw [Real.sqrt_lt' hq, div_pow, lt_div_iff₀ (by positivity)]
  have e : inner ℝ u (u + w) = ‖u‖ ^ 2 + inner ℝ u w := by rw [inner_add_right, real_inner_self_eq_norm_sq]
  rw [e, mul_pow, hsq]
  generalize inner ℝ u w = b at *
  have hw2 : ‖w‖ ^ 2 < x ^ 2 * ‖u‖ ^ 2 := by
    have := norm_nonneg w
    nlinarith
  have h3 : 0 < ‖u‖ ^ 2 + 2 * b + ‖w‖ ^ 2 := by rw [← hsq]; positivity
  nlinarith [sq_nonneg (b + ‖w‖ ^ 2), mul_pos (sub_pos.2 hw2) h3]

/-- The burst is not seen beyond the resolution of the surface. -/
def Ahead (c : Conf) (file : ℕ → Raw) (f : Surface.Surf) (x : Pk ℝ) : Prop :=
  ∀ r, f.res = some r → f.los ≠ 0 → InnerProductGeometry.angle f.los ((burst c (file x.counter)).surf - f.loc.sat) < r

theorem res_some {c : Conf} (hc : c.Positive) {v : Surface.V} {r : ℝ} (h : Surface.resolution c.surface v = some r) :
    0 < 2 * c.freq * ‖v‖ * c.pulses * c.pri ∧ c.c / (2 * c.freq * ‖v‖ * c.pulses * c.pri) ≤ 1 ∧
      r = arcsin (c.c / (2 * c.freq * ‖v‖ * c.pulses * c.pri)) := by
  unfold Surface.resolution at h
  dsimp only at h
  split at h
  · cases h
  · rename_i hd
    split at h
    · rename_i hd2
      cases h
      have hd' : 2 * c.freq * ‖v‖ * c.pulses * c.pri ≠ 0 := hd
      refine ⟨lt_of_le_of_ne ?_ (Ne.symm hd'), hd2.2, rfl⟩
      have := hc.freq; have := hc.pri
      positivity
    · cases h

theorem res_pos {c : Conf} (hc : c.Positive) {v : Surface.V} {r : ℝ} (h : Surface.resolution c.surface v = some r) : 0 < r := by
  obtain ⟨h1, _, rfl⟩ := res_some hc h
  exact arcsin_pos.2 (div_pos hc.light h1)

theorem first_ahead (c : Conf) (hc : c.Positive) (file : ℕ → Raw) (l : Surface.Loc) (p : Pk ℝ) :
    Ahead c file (Surface.makeSurf c.surface (Surface.storeFirst c.surface l (burst c (file p.counter)))) p := by
  intro r hr hlos
  have h0 : 0 < r := res_pos hc hr
  have hs : (Surface.storeFirst c.surface l (burst c (file p.counter))).surf = (burst c (file p.counter)).surf :=
    Surface.ecef_norm c.surface rfl _ _ _
  have e : (Surface.makeSurf c.surface (Surface.storeFirst c.surface l (burst c (file p.counter)))).los =
      (burst c (file p.counter)).surf - (Surface.storeFirst c.surface l (burst c (file p.counter))).sat := by
    show (Surface.storeFirst c.surface l (burst c (file p.counter))).surf - _ = _
    rw [hs]
  have e' : (burst c (file p.counter)).surf - (Surface.makeSurf c.surface (Surface.storeFirst c.surface l (burst c (file p.counter)))).loc.sat =
    (Surface.makeSurf c.surface (Surface.storeFirst c.surface l (burst c (file p.counter)))).los := e.symm
  rw [e', InnerProductGeometry.angle_self hlos]
  exact h0

theorem between_ahead {c : Conf} (hc : c.Positive) {file : ℕ → Raw} {n : ℕ} {D H V : ℝ} (hd : Dense c file n D H V) (x p : Pk ℝ)
    (hx : x.counter < p.counter) (hp : p.counter < n)
    (ht : (file p.counter).time - (file x.counter).time < c.bri * 1.5) (α : ℝ) (h0 : 0 ≤ α) (h1 : α ≤ 1) :
    Ahead c file (Surface.makeSurf c.surface (Surface.interpolate c.surface (burst c (file x.counter)) (burst c (file p.counter)) α)) p := by
  obtain ⟨n1, n2⟩ := hd.near _ _ hx hp ht
  have hH := hd.high _ (hx.trans hp)
  have v1 := hd.slow _ (hx.trans hp)
  have v2 := hd.slow _ hp
  intro r hr hlos
  set X := burst c (file x.counter) with hX
  set P := burst c (file p.counter) with hP
  obtain ⟨r1, r2, r3⟩ := res_some hc hr
  have elos : (Surface.makeSurf c.surface (Surface.interpolate c.surface X P α)).los =
      (X.surf + α • (P.surf - X.surf)) - (X.sat + α • (P.sat - X.sat)) := rfl
  have esat : (Surface.makeSurf c.surface (Surface.interpolate c.surface X P α)).loc.sat = X.sat + α • (P.sat - X.sat) := rfl
  have evel : (Surface.interpolate c.surface X P α).vel = X.vel + α • (P.vel - X.vel) := rfl
  have e : P.surf - (Surface.makeSurf c.surface (Surface.interpolate c.surface X P α)).loc.sat =
      (Surface.makeSurf c.surface (Surface.interpolate c.surface X P α)).los + (1 - α) • (P.surf - X.surf) := by
    rw [elos, esat]; module
  rw [e, r3]
  refine angle_add_lt _ _ _ hlos r2 ?_
  rw [evel] at r1 r2 ⊢
  have hv : ‖X.vel + α • (P.vel - X.vel)‖ ≤ V := by
    have e1 : X.vel + α • (P.vel - X.vel) = (1 - α) • X.vel + α • P.vel := by module
    rw [e1]
    refine (norm_add_le _ _).trans ?_
    rw [norm_smul, norm_smul, Real.norm_of_nonneg (by linarith), Real.norm_of_nonneg h0]
    have v1 : ‖X.vel‖ ≤ V := v1
    have v2 : ‖P.vel‖ ≤ V := v2
    nlinarith
  have hmove : ‖(1 - α) • (P.surf - X.surf)‖ ≤ D := by
    rw [norm_smul, Real.norm_of_nonneg (by linarith), ← dist_eq_norm, dist_comm]
    have := dist_nonneg (x := X.surf) (y := P.surf)
    nlinarith
  have hlen : H - 2 * D ≤ ‖(Surface.makeSurf c.surface (Surface.interpolate c.surface X P α)).los‖ := by
    have e2 : X.surf - X.sat = (Surface.makeSurf c.surface (Surface.interpolate c.surface X P α)).los +
        (-(α • (P.surf - X.surf)) + α • (P.sat - X.sat)) := by rw [elos]; module
    have e3 : dist X.sat X.surf = ‖X.surf - X.sat‖ := by rw [dist_comm, dist_eq_norm]
    rw [e3, e2] at hH
    have t1 := norm_add_le (Surface.makeSurf c.surface (Surface.interpolate c.surface X P α)).los
      (-(α • (P.surf - X.surf)) + α • (P.sat - X.sat))
    have t2 := norm_add_le (-(α • (P.surf - X.surf))) (α • (P.sat - X.sat))
    rw [norm_neg, norm_smul, norm_smul, Real.norm_of_nonneg h0, ← dist_eq_norm, ← dist_eq_norm, dist_comm P.surf, dist_comm P.sat] at t2
    have a1 := dist_nonneg (x := X.surf) (y := P.surf)
    have a2 := dist_nonneg (x := X.sat) (y := P.sat)
    nlinarith
  have hD : 0 ≤ D := dist_nonneg.trans n1
  have hK : 2 * c.freq * ‖X.vel + α • (P.vel - X.vel)‖ * c.pulses * c.pri ≤ 2 * c.freq * V * c.pulses * c.pri := by
    have := hc.freq; have := hc.pri
    gcongr
  rw [div_mul_eq_mul_div, lt_div_iff₀ r1]
  have h5 := hd.fine
  have h6 := hc.light
  generalize ‖(Surface.makeSurf c.surface (Surface.interpolate c.surface X P α)).los‖ = L at *
  generalize 2 * c.freq * ‖X.vel + α • (P.vel - X.vel)‖ * c.pulses * c.pri = K at *
  calc ‖(1 - α) • (P.surf - X.surf)‖ * K ≤ D * K := by gcongr
    _ ≤ D * (2 * c.freq * V * c.pulses * c.pri) := by gcongr
    _ < (H - 2 * D) * c.c := h5
    _ ≤ c.c * L := by nlinarith

/-! ## Surface locations -/

theorem focus_times (k : Surface.Conf) (alg : Surface.Alg) (surfs surfs' : List Surface.Surf) (b : Bool)
    (h : Surface.focusStep k alg surfs = .val (b, surfs')) :
    surfs'.map (·.loc.time) = surfs.map (·.loc.time) := by
  unfold Surface.focusStep at h
  by_cases hf : k.focusing = false
  · rw [if_pos hf] at h
    cases h
    rfl
  rw [if_neg hf] at h
  dsimp only at h
  have same : (surfs.map (Surface.fillDist k)).map (·.loc.time) = surfs.map (·.loc.time) := by
    rw [List.map_map]
    refine List.map_congr_left fun f _ => ?_
    show (Surface.fillDist k f).loc.time = _
    unfold Surface.fillDist
    split <;> rfl
  split at h
  · rename_i f p rest hrev
    split at h
    · cases h
    · split at h
      · split at h
        · cases h
        · rename_i f' hfoc
          cases h
          have hl : surfs.map (Surface.fillDist k) = (f :: p :: rest).reverse := by
            have := congrArg List.reverse hrev
            simpa using this
          have ht : f'.loc.time = f.loc.time := by
            unfold Surface.focusSurface at hfoc
            dsimp only at hfoc
            split at hfoc
            · cases hfoc
            · cases hfoc; rfl
          rw [← same, hl]
          simp [ht]
      · cases h
        exact same
  · cases h
    exact same

/-- What a call of the surface locations does to the times. -/
inductive Located (c : Conf) (file : ℕ → Raw) (surfs surfs' : List Surface.Surf) (last : Option (Pk ℝ)) (p : Pk ℝ) (new : Bool) : Prop
  | none (h : surfs' = surfs) (hn : new = false) (ha : ∀ f, surfs.getLast? = some f → Ahead c file f p)
  | some (base : List Surface.Surf) (f : Surface.Surf) (h : surfs' = base ++ [f]) (hb : base.map (·.loc.time) = surfs.map (·.loc.time))
      (hf : f.loc.time = (file p.counter).time ∨
        ∃ x, last = some x ∧ (file x.counter).time < f.loc.time ∧ f.loc.time ≤ (file p.counter).time)
      (ha : Ahead c file f p)

theorem step_times {c : Conf} (hc : c.Positive) {file : ℕ → Raw} {n : ℕ} {D H V : ℝ} (hd : Dense c file n D H V)
    (alg alg' : Surface.Alg) (surfs surfs' : List Surface.Surf) (pks : List (Pk ℝ × Bool)) (p : Pk ℝ) (force new : Bool)
    (hp : p.counter < n)
    (hx : force = false → surfs ≠ [] → ∀ x, (pks.getLast?).map (·.1) = some x →
      x.counter < p.counter ∧ (file p.counter).time - (file x.counter).time < c.bri * 1.5 ∧
        ∀ f, surfs.getLast? = some f → Ahead c file f x)
    (h : Surface.step c.surface alg surfs (pks.map (fun x => burst c (file x.1.counter))) (burst c (file p.counter)) force = .ok alg' surfs' new) :
    Located c file surfs surfs' ((pks.getLast?).map (·.1)) p new := by
  unfold Surface.step at h
  unfold Surface.call at h
  cases hl : Surface.locate c.surface alg surfs (pks.map (fun x => burst c (file x.1.counter)) ++ [burst c (file p.counter)]) force with
  | error e => rw [hl] at h; cases h
  | ok r =>
    rw [hl] at h
    cases r with
    | nan => cases h
    | val o =>
      unfold Surface.locate at hl
      have put : ∀ l : Surface.Loc,
          (l.time = (file p.counter).time ∨
            ∃ x, (pks.getLast?).map (·.1) = some x ∧ (file x.counter).time < l.time ∧ l.time ≤ (file p.counter).time) →
          Ahead c file (Surface.makeSurf c.surface l) p → o = some l → Located c file surfs surfs' ((pks.getLast?).map (·.1)) p new := by
        rintro l l1 l2 rfl
        dsimp only at h
        cases hf : Surface.focusStep c.surface { alg with loc := l } surfs with
        | nan => rw [hf] at h; cases h
        | val x =>
          obtain ⟨g, s1⟩ := x
          rw [hf] at h
          cases h
          exact .some s1 (Surface.makeSurf c.surface l) rfl (focus_times _ _ _ _ _ hf) l1 l2
      by_cases hfirst : surfs = [] ∨ force = true
      · rw [if_pos hfirst] at hl
        rw [List.getLast?_append, List.getLast?_singleton] at hl
        cases hl
        exact put _ (Or.inl rfl) (first_ahead c hc file _ p) rfl
      · rw [if_neg hfirst] at hl
        rw [not_or] at hfirst
        have hforce : force = false := by simpa using hfirst.2
        split at hl
        · rename_i s cc pp rest h1 h2
          cases hpk : pks.getLast? with
          | none =>
            rw [List.getLast?_eq_none_iff] at hpk
            subst hpk
            simp at h2
          | some x =>
            obtain ⟨init, rfl⟩ : ∃ init, pks = init ++ [x] := by
              rw [List.getLast?_eq_some_iff] at hpk; exact hpk
            have h2' : cc = burst c (file p.counter) ∧ pp = burst c (file x.1.counter) := by
              simp at h2
              exact ⟨h2.1.symm, h2.2.1.symm⟩
            obtain ⟨rfl, rfl⟩ := h2'
            obtain ⟨x1, x2, x3⟩ := hx hforce hfirst.1 x.1 (by simp)
            have x3 := x3 s h1
            have hl' : Surface.findNew c.surface s (burst c (file x.1.counter)) (burst c (file p.counter)) = .val o := by
              injection hl
            cases o with
            | none =>
              cases h
              refine .none rfl rfl ?_
              intro f hf
              rw [h1] at hf
              cases hf
              unfold Surface.findNew at hl'
              split at hl'
              · rename_i a r h3 h4
                split at hl'
                · rename_i hlt
                  intro r' hr' _
                  rw [h4] at hr'
                  cases hr'
                  obtain ⟨_, _, e⟩ := Surface.angleTo_some h3
                  have e : a = InnerProductGeometry.angle _ _ := e
                  rw [← e]; exact hlt
                · split at hl'
                  · cases hl'
                  · split at hl' <;> cases hl'
              · cases hl'
            | some l =>
              obtain ⟨r, hr, hlos, _, _, hle, hne, hi⟩ := Surface.findNew_some hl'
              have hlt := x3 r hr hlos
              set a := InnerProductGeometry.angle s.los ((burst c (file p.counter)).surf - s.loc.sat)
              set ap := InnerProductGeometry.angle s.los ((burst c (file x.1.counter)).surf - s.loc.sat)
              have hden : 0 < a - ap := by linarith
              have α0 : 0 < (r - ap) / (a - ap) := div_pos (by linarith) hden
              have α1 : (r - ap) / (a - ap) ≤ 1 := by rw [div_le_one hden]; linarith
              have hrise := hd.rising _ _ x1 hp
              rw [show (some x).map (·.1) = some x.1 from rfl] 
              have := put l
              rw [hpk] at this
              refine this (Or.inr ⟨x.1, rfl, ?_⟩) (hi ▸ between_ahead hc hd x.1 p x1 hp x2 _ α0.le α1) rfl
              have e : l.time = (file x.1.counter).time + (r - ap) / (a - ap) * ((file p.counter).time - (file x.1.counter).time) := by
                rw [hi]; rfl
              rw [e]
              constructor <;> nlinarith
        · cases hl

/-! ## The invariant -/

/-- Times of the records written and of the surfaces in the queue. -/
def timesOf (s : State) : List ℝ := s.l1b.map (·.loc.time) ++ s.surfs.map (·.loc.time)

/-- The newest burst in the queue. -/
def newest (s : State) : Option (Pk ℝ) := s.ctl.packets.getLast?.map (·.1)

/-- The records among what the file gives. -/
def recordsOf (l : List (Item ℝ)) : List (Pk ℝ) := l.filterMap (fun | .record p => some p | _ => none)

/-- The records that have yet to be accepted. -/
def upcoming (s : State) : List (Pk ℝ) :=
  (if s.ctl.gapProcessing = true ∨ s.ctl.gapResume = true then s.ctl.input.toList else []) ++ recordsOf s.ctl.rest

/-- Records and surfaces are in order, and all are earlier than the records to come. -/
structure Ordered (c : Conf) (file : ℕ → Raw) (n : ℕ) (up : List (Pk ℝ)) (s : State) : Prop where
  order : (timesOf s).Pairwise (· < ·)
  coming : up.Pairwise (fun a b => a.counter < b.counter)
  sound : ∀ p ∈ up, p.time = (file p.counter).time ∧ p.counter < n
  past : ∀ t ∈ timesOf s, ∀ q ∈ up, t < (file q.counter).time
  last : ∀ x, newest s = some x → x.time = (file x.counter).time ∧ (∀ q ∈ up, x.counter < q.counter) ∧
    (∀ t ∈ timesOf s, t ≤ (file x.counter).time) ∧ ∀ f, s.surfs.getLast? = some f → Ahead c file f x

/-- Except in a gap, the time remembered is that of the newest burst. -/
def Remembers (s : State) : Prop :=
  s.ctl.gapProcessing = false → s.ctl.gapResume = false → ∀ x, newest s = some x → s.ctl.prevTime = some x.time

variable {c : Conf} {file : ℕ → Raw} {n : ℕ} {up : List (Pk ℝ)} {s s' : State}

theorem Ordered.of (h : Ordered c file n up s) (h1 : s'.l1b = s.l1b) (h2 : s'.surfs = s.surfs) (h3 : newest s' = newest s) :
    Ordered c file n up s' := by
  have ht : timesOf s' = timesOf s := by unfold timesOf; rw [h1, h2]
  obtain ⟨a1, a2, a3, a4, a5⟩ := h
  refine ⟨ht ▸ a1, a2, a3, ht ▸ a4, ?_⟩
  rw [h3, ht, h2]; exact a5

theorem Ordered.shift (h : Ordered c file n up s) (h0 : upcoming s' = up) (h1 : s'.l1b = s.l1b) (h2 : s'.surfs = s.surfs)
    (h3 : newest s' = newest s) : Ordered c file n (upcoming s') s' := h0 ▸ h.of h1 h2 h3

theorem Ordered.written (h : Ordered c file n up s) : (s.l1b.map (·.loc.time)).Pairwise (· < ·) :=
  (List.pairwise_append.1 h.order).1

theorem read_times (h : Ordered c file n (recordsOf s.ctl.rest) s) (hm : Remembers s)
    (hs : readNext c file s = .ok s') :
    Ordered c file n (s'.ctl.input.toList ++ recordsOf s'.ctl.rest) s' ∧ Remembers s' ∧ s'.ctl.gapProcessing = s.ctl.gapProcessing := by
  unfold readNext Process.readNext at hs
  cases hrest : s.ctl.rest with
  | nil =>
    rw [hrest] at hs h
    dsimp only at hs
    split at hs
    · cases hs
    · rename_i t ht
      cases hs
      split at ht
      · cases ht
        exact ⟨h.of rfl rfl rfl, hm, rfl⟩
      · cases ht
  | cons x rest =>
    rw [hrest] at hs h
    cases x with
    | failure e => cases hs
    | invalid =>
      cases hs
      exact ⟨h.of rfl rfl rfl, hm, rfl⟩
    | record p =>
      cases hs
      exact ⟨h.of rfl rfl rfl, hm, rfl⟩

theorem newest_snoc (t : St ℝ) (surfs mem alg closest l1b l1bs) (l : List (Pk ℝ × Bool)) (p : Pk ℝ) (h : t.packets = l ++ [(p, false)]) :
    newest ⟨t, surfs, mem, alg, closest, l1b, l1bs⟩ = some p := by
  unfold newest
  simp [h]

theorem locations_times (hc : c.Positive) {D H V : ℝ} (hd : Dense c file n D H V) (p : Pk ℝ) (force new : Bool)
    (h : Ordered c file n (p :: up) s)
    (hx : force = false → ∀ x, newest s = some x → (file p.counter).time - (file x.counter).time < c.bri * 1.5)
    (hprev : s.ctl.prevTime = some p.time)
    (hs : surfaceLocations c file s p force = .ok (new, s')) : Ordered c file n up s' ∧ s'.ctl.prevTime = some p.time ∧
      newest s' = some p ∧ s'.ctl.rest = s.ctl.rest ∧ s'.ctl.gapProcessing = s.ctl.gapProcessing := by
  obtain ⟨a1, a2, a3, a4, a5⟩ := h
  rw [List.pairwise_cons] at a2
  obtain ⟨b1, b2⟩ := a3 p (by simp)
  unfold surfaceLocations at hs
  dsimp only at hs
  have key : ∀ alg' surfs' nw, Surface.step c.surface s.alg s.surfs (s.ctl.packets.map (fun x => burst c (file x.1.counter)))
      (burst c (file p.counter)) force = .ok alg' surfs' nw →
      ∀ s'' : State, s''.l1b = s.l1b → s''.surfs = surfs' → newest s'' = some p → Ordered c file n up s'' := by
    intro alg' surfs' nw hstep s'' e1 e2 e3
    have q := step_times hc hd s.alg alg' s.surfs surfs' s.ctl.packets p force nw b2 (by
      intro hf _ x hxx
      obtain ⟨y1, y2, y3, y4⟩ := a5 x hxx
      exact ⟨y2 p (by simp), hx hf x hxx, y4⟩) hstep
    have hlt : ∀ q ∈ up, (file p.counter).time < (file q.counter).time := fun q hq =>
      hd.rising _ _ (a2.1 q hq) (a3 q (by simp [hq])).2
    have old : ∀ t ∈ timesOf s, t < (file p.counter).time := fun t ht => a4 t ht p (by simp)
    cases q with
    | none q1 q2 q3 =>
      have ht : timesOf s'' = timesOf s := by unfold timesOf; rw [e1, e2, q1]
      refine ⟨ht ▸ a1, a2.2, fun q hq => a3 q (by simp [hq]), ?_, ?_⟩
      · rw [ht]; exact fun t ht' q hq => a4 t ht' q (by simp [hq])
      · intro x hxx
        rw [e3] at hxx
        cases hxx
        refine ⟨b1, a2.1, ?_, ?_⟩
        · rw [ht]; exact fun t ht' => (old t ht').le
        · rw [e2, q1]; exact q3
    | some base f q1 q2 q3 q4 =>
      have ht : timesOf s'' = timesOf s ++ [f.loc.time] := by
        unfold timesOf; rw [e1, e2, q1, List.map_append, q2]; simp
      have hle : f.loc.time ≤ (file p.counter).time := by
        rcases q3 with q3 | ⟨x, _, _, q3⟩
        · exact q3.le
        · exact q3
      have hall : ∀ t ∈ timesOf s'', t ≤ (file p.counter).time := by
        rw [ht]
        intro t ht'
        rcases List.mem_append.1 ht' with ht' | ht'
        · exact (old t ht').le
        · rw [List.mem_singleton] at ht'; rw [ht']; exact hle
      refine ⟨?_, a2.2, fun q hq => a3 q (by simp [hq]), ?_, ?_⟩
      · rw [ht, List.pairwise_append]
        refine ⟨a1, by simp, ?_⟩
        intro t ht' u hu
        rw [List.mem_singleton] at hu
        subst hu
        rcases q3 with q3 | ⟨x, q5, q6, _⟩
        · rw [q3]; exact old t ht'
        · exact lt_of_le_of_lt ((a5 x q5).2.2.1 t ht') q6
      · exact fun t ht' q hq => lt_of_le_of_lt (hall t ht') (hlt q hq)
      · intro x hxx
        rw [e3] at hxx
        cases hxx
        refine ⟨b1, a2.1, hall, ?_⟩
        intro g hg
        rw [e2, q1, List.getLast?_append, List.getLast?_singleton] at hg
        cases hg
        exact q4
  cases hstep : Surface.step c.surface s.alg s.surfs (s.ctl.packets.map (fun x => burst c (file x.1.counter))) (burst c (file p.counter)) force with
  | err e => rw [hstep] at hs; cases hs
  | nan => rw [hstep] at hs; cases hs
  | ok alg' surfs' nw =>
    rw [hstep] at hs
    have hn : ∀ t : St ℝ, t.packets = s.ctl.packets ++ [(p, false)] → ∀ surfs mem alg closest l1b l1bs,
        newest ⟨t, surfs, mem, alg, closest, l1b, l1bs⟩ = some p := fun t ht _ _ _ _ _ _ => newest_snoc _ _ _ _ _ _ _ _ _ ht
    cases nw with
    | false =>
      cases hs
      exact ⟨key _ _ _ hstep _ rfl rfl (hn _ rfl _ _ _ _ _ _), hprev, hn _ rfl _ _ _ _ _ _, rfl, rfl⟩
    | true =>
      cases hs
      exact ⟨key _ _ _ hstep _ rfl rfl (hn _ rfl _ _ _ _ _ _), hprev, hn _ rfl _ _ _ _ _ _, rfl, rfl⟩

theorem upcoming_gap {s : State} {p : Pk ℝ} {l : List (Item ℝ)} (h1 : s.ctl.gapProcessing = true) (h2 : s.ctl.input = some p)
    (h3 : s.ctl.rest = l) : upcoming s = p :: recordsOf l := by
  unfold upcoming
  rw [if_pos (Or.inl h1), h2, h3]
  rfl

theorem handle_times (hc : c.Positive) {D H V : ℝ} (hd : Dense c file n D H V) (p : Pk ℝ) (b : Bool)
    (h : Ordered c file n (p :: recordsOf s.ctl.rest) s) (hm : Remembers s) (hin : s.ctl.input = some p) (hg : s.ctl.gapProcessing = false)
    (hs : handlePacket c file s p = .ok (b, s')) : Ordered c file n (upcoming s') s' ∧ Remembers s' := by
  unfold handlePacket at hs
  dsimp only at hs
  split at hs
  · rename_i htime
    split at hs
    · cases hs
    · rename_i new s1 hl
      cases hs
      obtain ⟨q1, q2, q3, q4, q5⟩ := locations_times (s := { s with
          ctl := { s.ctl.log (.calibrated p.counter) with prevTime := some p.time }
          mem := Function.update s.mem p.counter (calibrated c (file p.counter) (s.mem p.counter)) }) hc hd p _ new
        (h.of rfl rfl rfl) (by
          intro hf x hx
          have e := hm hg hf x hx
          unfold inTime at htime
          have htime : (match s.ctl.prevTime with
            | none => true
            | some t => decide (p.time - t < c.bri * 1.5)) = true := htime
          rw [e] at htime
          have ht := of_decide_eq_true htime
          rw [(h.sound p (by simp)).1, (h.last x hx).1] at ht
          exact ht) rfl hl
      have e : upcoming { s1 with ctl := { s1.ctl with gapResume := false } } = recordsOf s.ctl.rest := by
        unfold upcoming
        have q5 : s1.ctl.gapProcessing = false := q5.trans hg
        have q4 : s1.ctl.rest = s.ctl.rest := q4
        rw [if_neg (by rintro (h | h); · rw [q5] at h; cases h
                       · cases h)]
        show [] ++ recordsOf s1.ctl.rest = _
        rw [q4]; rfl
      rw [e]
      refine ⟨q1.of rfl rfl rfl, ?_⟩
      intro _ _ x hx
      have hx : newest s1 = some x := hx
      rw [q3] at hx
      cases hx
      exact q2
  · cases hs
    refine ⟨?_, fun h => by cases h⟩
    exact h.shift (upcoming_gap (l := s.ctl.rest) rfl hin rfl) rfl rfl rfl

theorem input_times (hc : c.Positive) {D H V : ℝ} (hd : Dense c file n D H V) (b : Bool)
    (h : Ordered c file n (upcoming s) s) (hm : Remembers s)
    (hs : inputPhase c file s = .ok (b, s')) : Ordered c file n (upcoming s') s' ∧ Remembers s' := by
  unfold inputPhase at hs
  by_cases hg : s.ctl.gapProcessing = true
  · rw [if_pos hg] at hs
    split at hs
    · cases hs
      exact ⟨h.of rfl rfl rfl, hm⟩
    · cases hs
      exact ⟨h, hm⟩
  · rw [if_neg hg] at hs
    have hg' : s.ctl.gapProcessing = false := by simpa using hg
    have q : ∀ s1, (if s.ctl.gapResume then .ok s else readNext c file s : Out State) = .ok s1 →
        Ordered c file n (s1.ctl.input.toList ++ recordsOf s1.ctl.rest) s1 ∧ Remembers s1 ∧ s1.ctl.gapProcessing = false := by
      intro s1 h1
      by_cases hr : s.ctl.gapResume = true
      · rw [if_pos hr] at h1
        cases h1
        unfold upcoming at h
        rw [if_pos (Or.inr hr)] at h
        exact ⟨h, hm, hg'⟩
      · rw [if_neg hr] at h1
        unfold upcoming at h
        rw [if_neg (by rintro (h | h); exacts [hg h, hr h])] at h
        obtain ⟨a1, a2, a3⟩ := read_times h hm h1
        exact ⟨a1, a2, a3.trans hg'⟩
    cases h1 : (if s.ctl.gapResume then .ok s else readNext c file s : Out State) with
    | error x => rw [h1] at hs; cases hs
    | ok s1 =>
      rw [h1] at hs
      obtain ⟨a1, a2, a3⟩ := q s1 h1
      dsimp only at hs
      cases hin : s1.ctl.input with
      | none =>
        rw [hin] at hs a1
        cases hs
        refine ⟨?_, a2⟩
        unfold upcoming
        rw [hin]
        simpa using a1
      | some p =>
        rw [hin] at hs a1
        exact handle_times hc hd p b a1 a2 hin a3 hs

/-- Moves that keep what the times depend on. -/
structure Quiet (s s' : State) : Prop where
  l1b : s'.l1b = s.l1b
  surfs : s'.surfs = s.surfs
  newest : newest s' = newest s
  rest : s'.ctl.rest = s.ctl.rest
  input : s'.ctl.input = s.ctl.input
  gap : s'.ctl.gapProcessing = s.ctl.gapProcessing
  resume : s'.ctl.gapResume = s.ctl.gapResume
  prev : s'.ctl.prevTime = s.ctl.prevTime

theorem Quiet.upcoming {s s' : State} (h : Quiet s s') : upcoming s' = upcoming s := by
  unfold Whole.upcoming
  rw [h.rest, h.input, h.gap, h.resume]

theorem Quiet.keep {s s' : State} (h : Quiet s s') (h1 : Ordered c file n (Whole.upcoming s) s) (h2 : Remembers s) :
    Ordered c file n (Whole.upcoming s') s' ∧ Remembers s' := by
  refine ⟨h.upcoming ▸ h1.of h.l1b h.surfs h.newest, ?_⟩
  unfold Remembers
  rw [h.gap, h.resume, h.newest, h.prev]
  exact h2

theorem Quiet.trans {a b d : State} (h : Quiet a b) (h' : Quiet b d) : Quiet a d :=
  ⟨h'.1.trans h.1, h'.2.trans h.2, h'.3.trans h.3, h'.4.trans h.4, h'.5.trans h.5, h'.6.trans h.6, h'.7.trans h.7, h'.8.trans h.8⟩

theorem beams_quiet {p : Pk ℝ} {b : Bool} (h : burstBeams c file s p = .ok (b, s')) : Quiet s s' ∧ s'.ctl.packets = s.ctl.packets := by
  unfold burstBeams at h
  split at h
  · cases h
  · cases h
    exact ⟨⟨rfl, rfl, rfl, rfl, rfl, rfl, rfl, rfl⟩, rfl⟩

theorem loop_quiet (todo : List (Pk ℝ × Bool)) : ∀ (done : List (Pk ℝ × Bool)) (s s' : State),
    s.ctl.packets.map (·.1) = (done ++ todo).map (·.1) → packetLoop c file done todo s = .ok s' → Quiet s s' := by
  induction todo with
  | nil =>
    intro done s s' _ h
    cases h
    exact ⟨rfl, rfl, rfl, rfl, rfl, rfl, rfl, rfl⟩
  | cons x todo ih =>
    intro done s s' hp h
    obtain ⟨p, f⟩ := x
    cases f with
    | true =>
      rw [packetLoop] at h
      exact ih _ s s' (by simpa using hp) h
    | false =>
      rw [packetLoop] at h
      cases hb : burstBeams c file s p with
      | error x => rw [hb] at h; cases h
      | ok x =>
        obtain ⟨seen, s1⟩ := x
        rw [hb] at h
        dsimp only at h
        obtain ⟨q1, q2⟩ := beams_quiet hb
        cases ha : Chain.azimuth c.chain (s1.mem p.counter) with
        | error e => rw [ha] at h; cases h
        | ok beams =>
          rw [ha] at h
          dsimp only at h
          have hmap : (done ++ (p, true) :: todo).map (·.1) = s.ctl.packets.map (·.1) := by rw [hp]; simp
          have q3 : Quiet s { s1 with ctl := { s1.ctl.log (.beams p.counter) with packets := done ++ (p, true) :: todo } } := by
            refine ⟨q1.1, q1.2, ?_, q1.4, q1.5, q1.6, q1.7, q1.8⟩
            show (done ++ (p, true) :: todo).getLast?.map (·.1) = s.ctl.packets.getLast?.map (·.1)
            rw [← List.getLast?_map, ← List.getLast?_map, hmap]
          cases seen with
          | false => cases h; exact q3
          | true =>
            simp only [if_true] at h
            exact q3.trans (ih _ _ _ (by
              show (done ++ (p, true) :: todo).map (·.1) = _
              simp) h)

/-! ## The first surface -/

/-- Taking the first surface out of the queue keeps the invariant, whether or not it is written. -/
theorem Ordered.pop (h : Ordered c file n (upcoming s) s) (hm : Remembers s) {f : Surface.Surf} {fs : List Surface.Surf}
    (hf : s.surfs = f :: fs) (h1 : s'.l1b = s.l1b ∨ ∃ rec : Record, rec.loc = f.loc ∧ s'.l1b = s.l1b ++ [rec])
    (h2 : s'.surfs = fs) (h3 : ∀ x, newest s' = some x → newest s = some x) (h4 : s'.ctl.rest = s.ctl.rest)
    (h5 : s'.ctl.input = s.ctl.input) (h6 : s'.ctl.gapProcessing = s.ctl.gapProcessing)
    (h7 : s'.ctl.gapResume = s.ctl.gapResume) (h8 : s'.ctl.prevTime = s.ctl.prevTime) :
    Ordered c file n (upcoming s') s' ∧ Remembers s' := by
  have hu : upcoming s' = upcoming s := by unfold upcoming; rw [h4, h5, h6, h7]
  have hsub : (timesOf s').Sublist (timesOf s) := by
    unfold timesOf
    rw [h2, hf]
    rcases h1 with h1 | ⟨rec, h1, h9⟩
    · rw [h1]
      exact List.Sublist.append_left (by simp) _
    · rw [h9, List.map_append, List.append_assoc]
      simp [h1]
  refine ⟨⟨h.order.sublist hsub, hu ▸ h.coming, hu ▸ h.sound, ?_, ?_⟩, ?_⟩
  · rw [hu]
    exact fun t ht => h.past t (hsub.subset ht)
  · rw [hu]
    intro x hx
    obtain ⟨a1, a2, a3, a4⟩ := h.last x (h3 x hx)
    refine ⟨a1, a2, fun t ht => a3 t (hsub.subset ht), ?_⟩
    intro g hg
    refine a4 g ?_
    rw [h2] at hg
    rw [hf]
    cases fs with
    | nil => cases hg
    | cons y ys => rw [List.getLast?_cons_cons]; exact hg
  · intro g1 g2 x hx
    rw [h8]
    exact hm (h6 ▸ g1) (h7 ▸ g2) x (h3 x hx)

theorem last_dropWhile {A : Type} (q : A → Bool) (l : List A) {x : A} (h : (l.dropWhile q).getLast? = some x) : l.getLast? = some x := by
  have e := List.takeWhile_append_dropWhile (p := q) (l := l)
  rw [← e, List.getLast?_append, h]
  rfl

theorem clear_quiet (w : Beams.Surf (Pk ℝ)) (hs : clearOld w s = .ok s') :
    s'.l1b = s.l1b ∧ s'.surfs = s.surfs.tail ∧ (∀ x, newest s' = some x → newest s = some x) ∧ s'.ctl.rest = s.ctl.rest ∧
      s'.ctl.input = s.ctl.input ∧ s'.ctl.gapProcessing = s.ctl.gapProcessing ∧ s'.ctl.gapResume = s.ctl.gapResume ∧
      s'.ctl.prevTime = s.ctl.prevTime := by
  unfold clearOld at hs
  cases h : Process.clearOld w s.ctl with
  | error x => rw [h] at hs; cases hs
  | ok t =>
    rw [h] at hs
    cases hs
    unfold Process.clearOld at h
    split at h
    · cases h; exact ⟨rfl, rfl, fun _ => id, rfl, rfl, rfl, rfl, rfl⟩
    · cases h
    · cases h
      refine ⟨rfl, rfl, ?_, rfl, rfl, rfl, rfl, rfl⟩
      intro x hx
      unfold newest at hx ⊢
      rw [Option.map_eq_some_iff] at hx ⊢
      obtain ⟨y, h1, h2⟩ := hx
      exact ⟨y, last_dropWhile _ _ h1, h2⟩

/-- The times of the records written rise. -/
def Risen (s : State) : Prop := (s.l1b.map (·.loc.time)).Pairwise (· < ·)

theorem finish_times (o : World) (h : Ordered c file n (upcoming s) s) (hm : Remembers s) :
    match finishSurface c o file s with
    | .ok s' => Ordered c file n (upcoming s') s' ∧ Remembers s'
    | .error x => Risen x.state := by
  unfold finishSurface
  cases hw : s.ctl.surfaces with
  | nil => exact h.written
  | cons w rest =>
    cases hf : s.surfs with
    | nil => exact h.written
    | cons f fs =>
      dsimp only
      cases hc : Chain.surfaceAw c.weighting c.pattern o.argsort o.round o.junk c.chain s.mem (place f) s.closest (looksOf w) with
      | error e => exact h.written
      | ok r =>
        cases r with
        | none => exact h.pop hm hf (Or.inl rfl) (by simp) (fun _ => id) rfl rfl rfl rfl rfl
        | some r =>
          dsimp only
          cases hg : sigma0 c file s.mem f r with
          | none => exact h.written
          | some g =>
            dsimp only
            have wr : ∀ t : State, t.l1b = s.l1b ++ [(⟨w.counter, f.loc, r, g⟩ : Record)] → Risen t := by
              intro t ht
              unfold Risen
              have := h.order
              unfold timesOf at this
              rw [hf] at this
              rw [ht, List.map_append]
              refine this.sublist ?_
              exact List.Sublist.append_left (by simp) _
            have clear : ∀ t : State, t.surfs = s.surfs → newest t = newest s → t.ctl.rest = s.ctl.rest → t.ctl.input = s.ctl.input →
                t.ctl.gapProcessing = s.ctl.gapProcessing → t.ctl.gapResume = s.ctl.gapResume → t.ctl.prevTime = s.ctl.prevTime →
                t.l1b = s.l1b ++ [(⟨w.counter, f.loc, r, g⟩ : Record)] →
                match clearOld w t with
                | .ok s' => Ordered c file n (upcoming s') s' ∧ Remembers s'
                | .error x => Risen x.state := by
              intro t t1 t2 t3 t4 t5 t6 t7 t8
              have q := clear_ends w t
              cases hcl : clearOld w t with
              | error x =>
                rw [hcl] at q
                exact wr _ (q.1.trans t8)
              | ok s' =>
                obtain ⟨q1, q2, q3, q4, q5, q6, q7, q8⟩ := clear_quiet w hcl
                exact h.pop hm hf (Or.inr ⟨_, rfl, q1.trans t8⟩) (by rw [q2, t1, hf]; rfl) (fun x hx => t2 ▸ q3 x hx)
                  (q4.trans t3) (q5.trans t4) (q6.trans t5) (q7.trans t6) (q8.trans t7)
            unfold writeSurface
            cases o.l1bFails ⟨w.counter, f.loc, r, g⟩ with
            | some e => exact h.written
            | none =>
              dsimp only
              unfold writeL1bs
              cases hskip : o.skipL1bs with
              | true =>
                simp only [if_true]
                exact clear _ hf.symm rfl rfl rfl rfl rfl rfl rfl
              | false =>
                simp only [Bool.false_eq_true, if_false]
                cases o.l1bsFails ⟨w.counter, f.loc, r, g⟩ with
                | some e => exact wr _ rfl
                | none =>
                  dsimp only
                  exact clear _ hf.symm rfl rfl rfl rfl rfl rfl rfl

/-! ## Iterations -/

theorem surface_times (o : World) (h : Ordered c file n (upcoming s) s) (hm : Remembers s) :
    match surfacePhase c o file s with
    | .ok s' => Ordered c file n (upcoming s') s' ∧ Remembers s'
    | .error x => Risen x.state := by
  unfold surfacePhase
  by_cases hc : s.ctl.surfaceProcessing = true ∨ minSurfs ≤ s.ctl.surfaces.length ∨ s.ctl.gapProcessing = true
  · rw [if_pos hc]
    cases hw : s.ctl.surfaces with
    | nil => exact h.written
    | cons w rest =>
      dsimp only
      have q0 := loop_writes c file s.ctl.packets [] s.begun
      have q1 := fun s2 => loop_quiet (c := c) (file := file) s.ctl.packets [] s.begun s2 rfl
      revert q0 q1
      cases packetLoop c file [] s.ctl.packets s.begun with
      | error x =>
        rintro ⟨r1, r2, r3⟩ _
        have r1 : x.state.l1b = s.l1b := r1
        dsimp only
        unfold Risen
        rw [r1]
        exact h.written
      | ok s2 =>
        rintro _ q1
        have b : Quiet s s.begun := ⟨rfl, rfl, rfl, rfl, rfl, rfl, rfl, rfl⟩
        obtain ⟨k1, k2⟩ := (b.trans (q1 s2 rfl)).keep h hm
        exact finish_times o k1 k2
  · rw [if_neg hc]
    exact ⟨h, hm⟩

theorem end_times (h : Ordered c file n (upcoming s) s) (hm : Remembers s) :
    match endPhase s with
    | .ok s' => Ordered c file n (upcoming s') s' ∧ Remembers s'
    | .error x => Risen x.state := by
  unfold endPhase
  cases ht : Process.endPhase s.ctl with
  | error x =>
    unfold Process.endPhase at ht
    split at ht
    · split at ht
      · dsimp only at ht
        split at ht
        · cases ht
        · cases ht; exact h.written
      · cases ht
    · cases ht
  | ok t =>
    unfold Process.endPhase at ht
    split at ht
    · split at ht
      · rename_i hg
        dsimp only at ht
        split at ht
        · cases ht
          refine ⟨?_, fun _ h => by cases h⟩
          have e : ∀ u : State, u.ctl.gapResume = true → u.ctl.input = s.ctl.input → u.ctl.rest = s.ctl.rest → upcoming u = upcoming s := by
            intro u u1 u2 u3
            unfold upcoming
            rw [if_pos (Or.inr u1), if_pos (Or.inl hg), u2, u3]
          exact h.shift (e _ rfl rfl rfl) rfl rfl rfl
        · cases ht
      · cases ht
        exact Quiet.keep (s := s) ⟨rfl, rfl, rfl, rfl, rfl, rfl, rfl, rfl⟩ h hm
    · cases ht
      exact ⟨h, hm⟩

theorem begin_quiet (o : World) : Quiet s (beginIteration o s) := by
  unfold beginIteration
  dsimp only
  cases o.cancelled s.ctl.k <;> exact ⟨rfl, rfl, rfl, rfl, rfl, rfl, rfl, rfl⟩

theorem iteration_times (hc : c.Positive) {D H V : ℝ} (hd : Dense c file n D H V) (o : World)
    (h : Ordered c file n (upcoming s) s) (hm : Remembers s) :
    match step c o file s with
    | .ok s' => Ordered c file n (upcoming s') s' ∧ Remembers s'
    | .error x => Risen x.state := by
  unfold step
  obtain ⟨b1, b2⟩ := (begin_quiet o).keep h hm
  have q1 := input_writes c file (beginIteration o s)
  have q2 := fun b s1 => input_times (s' := s1) hc hd b b1 b2
  revert q1 q2
  cases inputPhase c file (beginIteration o s) with
  | error x =>
    rintro ⟨r1, _⟩ _
    dsimp only
    unfold Risen
    rw [r1]
    exact b1.written
  | ok x =>
    obtain ⟨b, s1⟩ := x
    rintro _ q2
    obtain ⟨k1, k2⟩ := q2 b s1 rfl
    cases b with
    | true => exact ⟨k1, k2⟩
    | false =>
      dsimp only
      have q5 := surface_times o k1 k2
      revert q5
      cases surfacePhase c o file s1 with
      | error x => exact id
      | ok s2 =>
        rintro ⟨q5, q6⟩
        exact end_times q5 q6

theorem run_times (hc : c.Positive) {D H V : ℝ} (hd : Dense c file n D H V) (o : World) (alg : Surface.Alg) (its : List (Item ℝ))
    (h1 : (recordsOf its).Pairwise (fun a b => a.counter < b.counter))
    (h2 : ∀ p ∈ recordsOf its, p.time = (file p.counter).time ∧ p.counter < n) :
    Risen (run c o file (3 * its.length + 2) (start alg its)).state := by
  have h := (run_good c o file (start alg its) its (fun s => Ordered c file n (upcoming s) s ∧ Remembers s)
    (fun x => Risen x.state) ?_ ?_ (3 * its.length + 2) (start alg its) (good_start c o file alg its) ?_).2
  · revert h
    cases run c o file (3 * its.length + 2) (start alg its) with
    | finished s' =>
      rintro ⟨s1, _, hw, rfl⟩
      exact hw.1.written
    | failed e s' =>
      rintro (h | ⟨_, h⟩)
      · exact h
      · exact h.1.written
    | nan s' => exact id
    | timeout s' => exact fun h => h.2.1.written
  · intro s s' _ hw _ hs
    have q := iteration_times hc hd o hw.1 hw.2
    rw [hs] at q
    exact q
  · intro s x _ hw _ hs
    have q := iteration_times hc hd o hw.1 hw.2
    rw [hs] at q
    exact q
  · have e : upcoming (start alg its) = recordsOf its := by
      unfold upcoming
      rw [if_neg (by rintro (h | h) <;> cases h)]
      rfl
    rw [e]
    refine ⟨⟨by simp [timesOf, start], h1, h2, by simp [timesOf, start], ?_⟩, ?_⟩
    · intro x hx; simp [newest, start, Process.start] at hx
    · intro _ _ x hx; simp [newest, start, Process.start] at hx

end Dedop.Whole
