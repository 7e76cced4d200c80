import Verif.Surface.Props

/-!
# Surfaces along a track (C58)
-/
namespace Dedop.Surface

open Real

/-- The states reached while the bursts of a product (or the part after a gap) come in.  `fresh` says
whether the newest burst created a surface between itself and the burst before.  Between two bursts the
processor may remove old surfaces and bursts, never the last one.  The burst times do not decrease.
If two surfaces are created by consecutive bursts, the first of these bursts must not have passed the
place of the second surface already (the bursts are closer together than the surfaces). -/
inductive Track (k : Conf) : Bool → Alg → List Surf → List Burst → Prop where
  | first {alg alg' : Alg} {surfs' : List Surf} {b : Burst} {force : Bool}
      (hb : b.Located k) (h : step k alg [] [] b force = .ok alg' surfs' true) :
      Track k false alg' surfs' [b]
  | next {fresh new : Bool} {alg alg' : Alg} {init surfs' : List Surf} {s : Surf} {bs : List Burst} {p b : Burst}
      (t : Track k fresh alg (init ++ [s]) (bs ++ [p])) (hb : b.Located k) (ht : p.time ≤ b.time)
      (h : step k alg (init ++ [s]) (bs ++ [p]) b false = .ok alg' surfs' new)
      (hr : new = true → fresh = true → ∀ r, s.res = some r → angle s.los (p.surf - s.loc.sat) ≤ r) :
      Track k new alg' surfs' (bs ++ [p] ++ [b])
  | drop {fresh : Bool} {alg : Alg} {d init : List Surf} {s : Surf} {e bs : List Burst} {p : Burst}
      (t : Track k fresh alg (d ++ (init ++ [s])) (e ++ (bs ++ [p]))) :
      Track k fresh alg (init ++ [s]) (bs ++ [p])

/-- Focusing changes no times. -/
theorem focusStep_times {k : Conf} {alg : Alg} {surfs surfs' : List Surf} {f : Bool}
    (h : focusStep k alg surfs = .val (f, surfs')) :
    surfs'.map (·.loc.time) = surfs.map (·.loc.time) := by
  have hfill : (surfs.map (fillDist k)).map (·.loc.time) = surfs.map (·.loc.time) := by
    rw [List.map_map]
    apply List.map_congr_left
    intro s _
    show (fillDist k s).loc.time = s.loc.time
    unfold fillDist
    split <;> rfl
  unfold focusStep at h
  split at h
  · cases h; rfl
  · simp only at h
    split at h
    · rename_i s p rest hrev
      split at h
      · cases h
      · split at h
        · split at h
          · cases h
          · rename_i s' hs'
            simp only [Num.val.injEq, Prod.mk.injEq] at h
            rw [← h.2, ← hfill]
            have e : (surfs.map (fillDist k)) = (s :: p :: rest).reverse := by
              rw [← hrev, List.reverse_reverse]
            rw [e, List.map_reverse, List.map_reverse, List.map_cons, List.map_cons]
            have ht : s'.loc.time = s.loc.time := by
              unfold focusSurface at hs'
              simp only at hs'
              split at hs'
              · cases hs'
              · simp only [Num.val.injEq] at hs'
                rw [← hs']
            rw [ht]; rfl
        · simp only [Num.val.injEq, Prod.mk.injEq] at h
          rw [← h.2]; exact hfill
    · simp only [Num.val.injEq, Prod.mk.injEq] at h
      rw [← h.2]; exact hfill

/-- What a step does to the times of the surfaces. -/
theorem step_times {k : Conf} {alg alg' : Alg} {surfs surfs' : List Surf} {bs : List Burst} {b : Burst}
    {force new : Bool} (h : step k alg surfs bs b force = .ok alg' surfs' new) :
    (new = false ∧ alg' = alg ∧ surfs' = surfs ∧
      call k alg surfs (bs ++ [b]) force = .ok alg surfs false) ∨
    (new = true ∧ ∃ t, call k alg surfs (bs ++ [b]) force = .ok alg' t true ∧
      surfs' = t ++ [makeSurf k alg'.loc] ∧ t.map (·.loc.time) = surfs.map (·.loc.time)) := by
  unfold step at h
  split at h
  · rename_i a t hc
    cases h
    refine Or.inr ⟨rfl, t, hc, rfl, ?_⟩
    unfold call at hc
    split at hc
    · cases hc
    · cases hc
    · cases hc
    · simp only at hc
      split at hc
      · cases hc
      · rename_i f s2 hf
        cases hc
        exact focusStep_times hf
  · rename_i hno
    cases hn : new with
    | true => subst hn; exact absurd h (fun h => hno _ _ h)
    | false =>
      subst hn
      refine Or.inl ⟨rfl, ?_⟩
      have hc := h
      unfold call at h
      split at h
      · cases h
      · cases h
      · rename_i hl
        cases h
        exact ⟨rfl, rfl, hc⟩
      · simp only at h
        split at h
        · cases h
        · cases h

theorem resolution_nonneg {k : Conf} (hk : 0 ≤ k.c / (2 * k.freq * k.pulses * k.pri)) (v : V) (r : ℝ)
    (h : resolution k v = some r) : 0 ≤ r := by
  unfold resolution at h
  simp only at h
  split at h
  · cases h
  · split at h
    · cases h
      apply Real.arcsin_nonneg.2
      have e : k.c / (2 * k.freq * ‖v‖ * k.pulses * k.pri) =
          k.c / (2 * k.freq * k.pulses * k.pri) / ‖v‖ := by
        rw [div_div]; congr 1; ring
      rw [e]
      exact div_nonneg hk (norm_nonneg v)
    · cases h

/-- Everything known in a state of the track. -/
structure Ahead (k : Conf) (fresh : Bool) (surfs : List Surf) (p : Burst) : Prop where
  sorted : (surfs.map (·.loc.time)).Pairwise (· ≤ ·)
  before : ∀ s ∈ surfs, s.loc.time ≤ p.time
  near : fresh = false → ∀ s r, surfs.getLast? = some s → s.res = some r → s.los ≠ 0 →
    angle s.los (p.surf - s.loc.sat) ≤ r

theorem track_ahead {k : Conf} (hpi : k.pi = π) (hk : 0 ≤ k.c / (2 * k.freq * k.pulses * k.pri))
    {fresh : Bool} {alg : Alg} {surfs : List Surf} {bs : List Burst} (t : Track k fresh alg surfs bs) :
    ∃ p, bs.getLast? = some p ∧ surfs ≠ [] ∧ Ahead k fresh surfs p := by
  induction t with
  | @first alg alg' surfs' b force hb h =>
    refine ⟨b, rfl, ?_⟩
    rcases step_times h with ⟨h0, -⟩ | ⟨-, t, hc, rfl, ht⟩
    · cases h0
    · have htn : t = [] := by
        have := congrArg List.length ht
        simpa using this
      subst htn
      have hl := call_loc hc
      rw [first_surface k alg [] [] b force (Or.inl rfl)] at hl
      have hloc : storeFirst k alg.loc b = alg'.loc := by
        have := Except.ok.inj hl
        exact Option.some.inj (Num.val.inj this)
      refine ⟨by simp, ?_, ?_, ?_⟩
      · simp
      · intro s hs
        simp only [List.nil_append, List.mem_singleton] at hs
        rw [hs]
        show alg'.loc.time ≤ _
        rw [← hloc]; exact le_refl _
      · intro _ s r hs hr hlos
        simp only [List.nil_append, List.getLast?_singleton, Option.some.injEq] at hs
        subst hs
        have e : b.surf - (makeSurf k alg'.loc).loc.sat = (makeSurf k alg'.loc).los := by
          show b.surf - alg'.loc.sat = alg'.loc.surf - alg'.loc.sat
          rw [← hloc]
          have : (storeFirst k alg.loc b).surf = b.surf := by
            rw [hb.2]; exact ecef_norm k hpi _ _ _
          rw [this]
        rw [e, show angle _ _ = 0 from InnerProductGeometry.angle_self hlos]
        exact resolution_nonneg hk _ _ hr
  | @next fresh new alg alg' init surfs' s bs p b t hb ht h hr ih =>
    obtain ⟨p', hp', -, ih⟩ := ih
    have : p' = p := by simpa using hp'.symm
    subst this
    refine ⟨b, by simp, ?_⟩
    rcases step_times h with ⟨rfl, -, rfl, hc⟩ | ⟨rfl, t', hc, rfl, htt⟩
    · refine ⟨by simp, ih.sorted, fun x hx => (ih.before x hx).trans ht, ?_⟩
      intro _ x r hx hxr hlos
      have : x = s := by simpa using hx.symm
      subst this
      by_contra hgt
      rw [List.append_assoc, List.cons_append, List.nil_append] at hc
      by_cases hbs : b.surf = x.loc.sat
      · unfold call at hc
        rw [locate_eq] at hc
        have : findNew k x p' b = .nan := by
          unfold findNew
          have : angleTo x b.surf = none := by
            unfold angleTo Geo.angleBetween
            rw [if_pos (by simp [hbs])]
          rw [this]
        rw [this] at hc
        simp at hc
      · exact (new_surface_iff k alg init x bs p' b r hxr hlos hbs).2.2 (not_le.1 hgt).le _ _ hc
    · have hl := call_loc hc
      rw [List.append_assoc, List.cons_append, List.nil_append, locate_eq] at hl
      obtain ⟨r, hsr, hlos, hcs, hps, hle, hne, hi⟩ := findNew_some (Except.ok.inj hl)
      have hprev : angle s.los (p'.surf - s.loc.sat) ≤ r := by
        cases hf : fresh with
        | false => exact ih.near hf s r (by simp) hsr hlos
        | true => exact hr rfl hf r hsr
      have hα := (on_segment_iff _ _ _ hle hne).2 (Or.inl hprev)
      have htime : alg'.loc.time = p'.time +
          ((r - angle s.los (p'.surf - s.loc.sat)) /
            (angle s.los (b.surf - s.loc.sat) - angle s.los (p'.surf - s.loc.sat))) * (b.time - p'.time) := by
        rw [hi]; rfl
      have hlo : p'.time ≤ alg'.loc.time := by
        rw [htime]
        have := mul_nonneg hα.1 (sub_nonneg.2 ht)
        linarith
      have hhi : alg'.loc.time ≤ b.time := by
        rw [htime]
        have := mul_le_of_le_one_left (sub_nonneg.2 ht) hα.2
        linarith
      have hmem : ∀ x ∈ t', x.loc.time ≤ p'.time := by
        intro x hx
        have : x.loc.time ∈ (init ++ [s]).map (·.loc.time) := by
          rw [← htt]; exact List.mem_map_of_mem hx
        obtain ⟨y, hy, e⟩ := List.mem_map.1 this
        rw [← e]
        exact ih.before y hy
      refine ⟨by simp, ?_, ?_, by intro h; cases h⟩
      · rw [List.map_append, List.pairwise_append]
        refine ⟨by rw [htt]; exact ih.sorted, by simp, ?_⟩
        intro x hx y hy
        simp only [List.map_cons, List.map_nil, List.mem_singleton] at hy
        obtain ⟨z, hz, rfl⟩ := List.mem_map.1 hx
        rw [hy]
        exact (hmem z hz).trans hlo
      · intro x hx
        rcases List.mem_append.1 hx with hx | hx
        · exact (hmem x hx).trans ht
        · rw [List.mem_singleton] at hx
          rw [hx]; exact hhi
  | @drop fresh alg d init s e bs p t ih =>
    obtain ⟨p', hp', -, ih⟩ := ih
    have : p' = p := by
      have := hp'.symm
      rw [← List.append_assoc] at this
      simpa using this
    subst this
    refine ⟨p', by simp, by simp, ?_, ?_, ?_⟩
    · have := ih.sorted
      rw [List.map_append, List.pairwise_append] at this
      exact this.2.1
    · intro x hx
      exact ih.before x (List.mem_append_right _ hx)
    · intro hf x r hx
      refine ih.near hf x r ?_
      have hx' : x = s := by simpa using hx.symm
      rw [← List.append_assoc]
      simp [hx']

/-- **C58, along a track (`_partial`: no burst passes two surfaces at once).**  While the bursts of a
product come in, in the order of time and closer together than the surfaces, every new surface lies between
the two newest bursts, in space and in time, and so the times of the surfaces never decrease.  Missing:
`off_segment_violated`. -/
theorem surfaces_advance_partial (k : Conf) (hpi : k.pi = π)
    (hk : 0 ≤ k.c / (2 * k.freq * k.pulses * k.pri)) (fresh : Bool) (alg : Alg)
    (init : List Surf) (s : Surf) (bs : List Burst) (p b : Burst)
    (t : Track k fresh alg (init ++ [s]) (bs ++ [p])) :
    ((init ++ [s]).map (·.loc.time)).Pairwise (· ≤ ·) ∧ s.loc.time ≤ p.time ∧
    ∀ alg' surfs', step k alg (init ++ [s]) (bs ++ [p]) b false = .ok alg' surfs' true →
      (fresh = true → ∀ r, s.res = some r → angle s.los (p.surf - s.loc.sat) ≤ r) →
      ∃ α ∈ Set.Icc (0 : ℝ) 1, ∃ new, surfs'.getLast? = some new ∧ Divides p b new.loc α := by
  obtain ⟨p', hp', -, ha⟩ := track_ahead hpi hk t
  have : p' = p := by simpa using hp'.symm
  subst this
  refine ⟨ha.sorted, ha.before s (by simp), ?_⟩
  intro alg' surfs' h hr
  rcases step_times h with ⟨h0, -⟩ | ⟨-, t', hc, rfl, -⟩
  · cases h0
  · have hl := call_loc hc
    rw [List.append_assoc, List.cons_append, List.nil_append, locate_eq] at hl
    obtain ⟨r, hsr, hlos, hcs, hps, hle, hne, hi⟩ := findNew_some (Except.ok.inj hl)
    have hprev : angle s.los (p'.surf - s.loc.sat) ≤ r := by
      cases hf : fresh with
      | false => exact ha.near hf s r (by simp) hsr hlos
      | true => exact hr hf r hsr
    refine ⟨_, (on_segment_iff _ _ _ hle hne).2 (Or.inl hprev), makeSurf k alg'.loc, by simp, ?_⟩
    show Divides p' b alg'.loc _
    rw [hi]; exact interpolate_divides _ _ _ _

end Dedop.Surface
