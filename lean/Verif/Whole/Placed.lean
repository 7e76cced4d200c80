import Verif.Whole.Late
import Verif.Whole.Rising
import Verif.Surface.Props

/-!
# The records lie on the measured track (C165)
-/
namespace Dedop.Whole

open Real Process

/-! ## Specification -/

/-- A location is the point with the ratio `α` between records `i` and `j` of the file, in time, place and movement of the satellite, its
attitude, and, unless the surfaces are adapted to a target, the place on the ground. -/
structure OnTrack (c : Conf) (file : ℕ → Raw) (l : Surface.Loc) (i j : ℕ) (α : ℝ) : Prop where
  time : l.time = (1 - α) * (file i).time + α * (file j).time
  sat : l.sat = (1 - α) • (burst c (file i)).sat + α • (burst c (file j)).sat
  vel : l.vel = (1 - α) • (file i).vel + α • (file j).vel
  altRate : l.altRate = (1 - α) * (file i).altRate + α * (file j).altRate
  roll : l.roll = (1 - α) * radians (file i).roll + α * radians (file j).roll
  pitch : l.pitch = (1 - α) * radians (file i).pitch + α * radians (file j).pitch
  yaw : l.yaw = (1 - α) * radians (file i).yaw + α * radians (file j).yaw
  ground : c.focusing = false → l.surf = (1 - α) • (burst c (file i)).surf + α • (burst c (file j)).surf

/-- Records `i` and `j` follow each other among those that can be used, without a gap. -/
def Successive (c : Conf) (file : ℕ → Raw) (i j : ℕ) : Prop :=
  Precedes c file i j ∧ (file j).time - (file i).time < c.bri * 1.5

/-- A location is that of a record of the file that can be used, or lies between two successive ones (in the extension of the line, if `A` allows
such ratios). -/
def Placed (c : Conf) (file : ℕ → Raw) (n : ℕ) (A : ℝ → Prop) (l : Surface.Loc) : Prop :=
  (∃ i, i < n ∧ Usable c file i ∧ OnTrack c file l i i 0) ∨
    ∃ i j α, j < n ∧ Usable c file j ∧ Successive c file i j ∧ A α ∧ OnTrack c file l i j α

/-! ## Surface locations -/

/-- What focusing does not change. -/
def core (l : Surface.Loc) : ℝ × Surface.V × Surface.V × ℝ × ℝ × ℝ × ℝ := (l.time, l.sat, l.vel, l.altRate, l.roll, l.pitch, l.yaw)

theorem OnTrack.congr {c : Conf} {file : ℕ → Raw} {l l' : Surface.Loc} {i j : ℕ} {α : ℝ} (h : OnTrack c file l i j α) (h1 : core l' = core l)
    (h2 : c.focusing = false → l'.surf = l.surf) : OnTrack c file l' i j α := by
  unfold core at h1
  simp only [Prod.mk.injEq] at h1
  obtain ⟨e1, e2, e3, e4, e5, e6, e7⟩ := h1
  exact ⟨e1 ▸ h.time, e2 ▸ h.sat, e3 ▸ h.vel, e4 ▸ h.altRate, e5 ▸ h.roll, e6 ▸ h.pitch, e7 ▸ h.yaw, fun hf => (h2 hf) ▸ h.ground hf⟩

theorem Placed.congr {c : Conf} {file : ℕ → Raw} {n : ℕ} {A : ℝ → Prop} {l l' : Surface.Loc} (h : Placed c file n A l) (h1 : core l' = core l)
    (h2 : c.focusing = false → l'.surf = l.surf) : Placed c file n A l' := by
  rcases h with ⟨i, a, b, d⟩ | ⟨i, j, α, a, b, d, e, f⟩
  · exact Or.inl ⟨i, a, b, d.congr h1 h2⟩
  · exact Or.inr ⟨i, j, α, a, b, d, e, f.congr h1 h2⟩

theorem focus_core (k : Surface.Conf) (alg : Surface.Alg) (surfs surfs' : List Surface.Surf) (b : Bool)
    (h : Surface.focusStep k alg surfs = .val (b, surfs')) :
    List.Forall₂ (fun f' f => core f'.loc = core f.loc ∧ (k.focusing = false → f'.loc.surf = f.loc.surf)) surfs' surfs := by
  have hrefl : ∀ l : List Surface.Surf, List.Forall₂ (fun f' f : Surface.Surf => core f'.loc = core f.loc ∧ (k.focusing = false → f'.loc.surf = f.loc.surf)) l l := by
    intro l
    induction l with
    | nil => exact .nil
    | cons f l ih => exact .cons ⟨rfl, fun _ => rfl⟩ ih
  unfold Surface.focusStep at h
  by_cases hf : k.focusing = false
  · rw [if_pos hf] at h
    cases h
    exact hrefl _
  rw [if_neg hf] at h
  dsimp only at h
  have hmap : ∀ l : List Surface.Surf, List.Forall₂ (fun f' f : Surface.Surf => core f'.loc = core f.loc ∧ (k.focusing = false → f'.loc.surf = f.loc.surf))
      (l.map (Surface.fillDist k)) l := by
    intro l
    induction l with
    | nil => exact .nil
    | cons f l ih =>
      refine .cons ?_ ih
      unfold Surface.fillDist
      split <;> exact ⟨rfl, fun _ => rfl⟩
  split at h
  · rename_i f p rest hrev
    split at h
    · cases h
    · split at h
      · split at h
        · cases h
        · rename_i f' hfoc
          cases h
          have hl : surfs.map (Surface.fillDist k) = rest.reverse ++ [p, f] := by
            have := congrArg List.reverse hrev
            simpa using this
          have ht : core f'.loc = core f.loc := by
            unfold Surface.focusSurface at hfoc
            dsimp only at hfoc
            split at hfoc
            · cases hfoc
            · cases hfoc; rfl
          have e : (f' :: p :: rest).reverse = rest.reverse ++ [p, f'] := by simp
          rw [e]
          have h1 := hmap surfs
          rw [hl] at h1
          have h2 : List.Forall₂ (fun f' f : Surface.Surf => core f'.loc = core f.loc ∧ (k.focusing = false → f'.loc.surf = f.loc.surf))
              (rest.reverse ++ [p, f']) (rest.reverse ++ [p, f]) :=
            List.rel_append (hrefl _) (.cons ⟨rfl, fun _ => rfl⟩ (.cons ⟨ht, fun q => absurd q hf⟩ .nil))
          have trans : ∀ {a b d : List Surface.Surf},
              List.Forall₂ (fun f' f : Surface.Surf => core f'.loc = core f.loc ∧ (k.focusing = false → f'.loc.surf = f.loc.surf)) a b →
              List.Forall₂ (fun f' f : Surface.Surf => core f'.loc = core f.loc ∧ (k.focusing = false → f'.loc.surf = f.loc.surf)) b d →
              List.Forall₂ (fun f' f : Surface.Surf => core f'.loc = core f.loc ∧ (k.focusing = false → f'.loc.surf = f.loc.surf)) a d := by
            intro a b d hab
            induction hab generalizing d with
            | nil => intro h; exact h
            | cons h _ ih =>
              intro h'
              cases h' with
              | cons h' hr => exact .cons ⟨h.1.trans h'.1, fun q => (h.2 q).trans (h'.2 q)⟩ (ih hr)
          exact trans h2 h1
      · cases h
        exact hmap _
  · cases h
    exact hmap _

theorem placed_first (c : Conf) (file : ℕ → Raw) (l : Surface.Loc) (i : ℕ) :
    OnTrack c file (Surface.storeFirst c.surface l (burst c (file i))) i i 0 := by
  have hs : (Surface.storeFirst c.surface l (burst c (file i))).surf = (burst c (file i)).surf := Surface.ecef_norm _ rfl _ _ _
  refine ⟨?_, ?_, ?_, ?_, ?_, ?_, ?_, fun _ => ?_⟩
  · simp only [sub_zero, one_mul, zero_mul, add_zero]; rfl
  · simp only [sub_zero, one_smul, zero_smul, add_zero]; rfl
  · simp only [sub_zero, one_smul, zero_smul, add_zero]; rfl
  · simp only [sub_zero, one_mul, zero_mul, add_zero]; rfl
  · simp only [sub_zero, one_mul, zero_mul, add_zero]; rfl
  · simp only [sub_zero, one_mul, zero_mul, add_zero]; rfl
  · simp only [sub_zero, one_mul, zero_mul, add_zero]; rfl
  · simp only [sub_zero, one_smul, zero_smul, add_zero]; exact hs

theorem lerpV_eq (α : ℝ) (a b : Surface.V) : Surface.lerpV α a b = (1 - α) • a + α • b := by
  unfold Surface.lerpV
  rw [smul_sub, sub_smul, one_smul]
  abel

theorem lerp_eq (α a b : ℝ) : Surface.lerp α a b = (1 - α) * a + α * b := by
  unfold Surface.lerp
  ring

theorem placed_between (c : Conf) (file : ℕ → Raw) (i j : ℕ) (α : ℝ) :
    OnTrack c file (Surface.interpolate c.surface (burst c (file i)) (burst c (file j)) α) i j α :=
  ⟨lerp_eq _ _ _, lerpV_eq _ _ _, lerpV_eq _ _ _, lerp_eq _ _ _, lerp_eq _ _ _, lerp_eq _ _ _, lerp_eq _ _ _, fun _ => lerpV_eq _ _ _⟩

variable {c : Conf} {file : ℕ → Raw} {n : ℕ} {A : ℝ → Prop} {recs up : List (Pk ℝ)} {s s' : State}

/-- The locations of the records written and of the surfaces in the queue. -/
def locsOf (s : State) : List Surface.Loc := s.l1b.map (·.loc) ++ s.surfs.map (·.loc)

/-- What the list of records used has to fulfil. -/
structure Source (c : Conf) (file : ℕ → Raw) (n : ℕ) (recs : List (Pk ℝ)) : Prop where
  sound : ∀ p ∈ recs, p.time = (file p.counter).time ∧ p.counter < n ∧ Usable c file p.counter
  next : ∀ pre x p suf, recs = pre ++ x :: p :: suf → Precedes c file x.counter p.counter

/-- The invariant. -/
structure Tracked (c : Conf) (file : ℕ → Raw) (n : ℕ) (A : ℝ → Prop) (recs up : List (Pk ℝ)) (s : State) : Prop where
  rest : ∃ pre, recs = pre ++ up
  last : ∀ x, newest s = some x → ∃ pre, recs = pre ++ x :: up
  placed : ∀ l ∈ locsOf s, Placed c file n A l

theorem Tracked.of (h : Tracked c file n A recs up s) (h1 : s'.l1b = s.l1b) (h2 : s'.surfs = s.surfs) (h3 : newest s' = newest s) :
    Tracked c file n A recs up s' := by
  refine ⟨h.rest, h3 ▸ h.last, ?_⟩
  have : locsOf s' = locsOf s := by unfold locsOf; rw [h1, h2]
  rw [this]
  exact h.placed

theorem Tracked.shift (h : Tracked c file n A recs up s) (h0 : upcoming s' = up) (h1 : s'.l1b = s.l1b) (h2 : s'.surfs = s.surfs)
    (h3 : newest s' = newest s) : Tracked c file n A recs (upcoming s') s' := h0 ▸ h.of h1 h2 h3

/-- Which ratios are possible: any, or those of surfaces that lie ahead. -/
def Ratios (c : Conf) (file : ℕ → Raw) (A : ℝ → Prop) (s : State) : Prop :=
  (∀ α, A α) ∨ ((∀ α, 0 < α → α ≤ 1 → A α) ∧ ∀ x, newest s = some x → ∀ f, s.surfs.getLast? = some f → Ahead c file f x)

theorem step_track (hs : Source c file n recs) (alg alg' : Surface.Alg) (surfs surfs' : List Surface.Surf) (pks : List (Pk ℝ × Bool)) (p : Pk ℝ)
    (force new : Bool) (hp : p ∈ recs) (hpl : ∀ f ∈ surfs, Placed c file n A f.loc)
    (hx : force = false → ∀ x, (pks.getLast?).map (·.1) = some x → Successive c file x.counter p.counter)
    (hα : (∀ α, A α) ∨ ((∀ α, 0 < α → α ≤ 1 → A α) ∧
      ∀ x, (pks.getLast?).map (·.1) = some x → ∀ f, surfs.getLast? = some f → Ahead c file f x))
    (h : Surface.step c.surface alg surfs (pks.map (fun x => burst c (file x.1.counter))) (burst c (file p.counter)) force = .ok alg' surfs' new) :
    ∀ f ∈ surfs', Placed c file n A f.loc := by
  obtain ⟨_, hpn, hpu⟩ := hs.sound p hp
  unfold Surface.step at h
  unfold Surface.call at h
  cases hl : Surface.locate c.surface alg surfs (pks.map (fun x => burst c (file x.1.counter)) ++ [burst c (file p.counter)]) force with
  | error e => rw [hl] at h; cases h
  | ok r =>
    rw [hl] at h
    cases r with
    | nan => cases h
    | val o =>
      unfold Surface.locate at hl
      have put : ∀ l : Surface.Loc, Placed c file n A l → o = some l → ∀ f ∈ surfs', Placed c file n A f.loc := by
        rintro l l1 rfl
        dsimp only at h
        cases hf : Surface.focusStep c.surface { alg with loc := l } surfs with
        | nan => rw [hf] at h; cases h
        | val x =>
          obtain ⟨g, s1⟩ := x
          rw [hf] at h
          cases h
          intro f hfm0
          rcases List.mem_append.1 hfm0 with hfm | hfm
          · clear hfm0
            have h2 := focus_core _ _ _ _ _ hf
            clear hf hα hl hx
            induction h2 with
            | nil => cases hfm
            | cons hh _ ih =>
              rcases List.mem_cons.1 hfm with rfl | hfm
              · exact (hpl _ (by simp)).congr hh.1 hh.2
              · exact ih (fun f hf => hpl f (by simp [hf])) hfm
          · rw [List.mem_singleton] at hfm
            rw [hfm]
            exact l1
      by_cases hfirst : surfs = [] ∨ force = true
      · rw [if_pos hfirst] at hl
        rw [List.getLast?_append, List.getLast?_singleton] at hl
        cases hl
        exact put _ (Or.inl ⟨p.counter, hpn, hpu, placed_first c file _ _⟩) rfl
      · rw [if_neg hfirst] at hl
        rw [not_or] at hfirst
        have hforce : force = false := by simpa using hfirst.2
        split at hl
        · rename_i s cc pp rest h1 h2
          cases hpk : pks.getLast? with
          | none =>
            rw [List.getLast?_eq_none_iff] at hpk
            subst hpk
            simp at h2
          | some x =>
            obtain ⟨init, rfl⟩ : ∃ init, pks = init ++ [x] := by
              rw [List.getLast?_eq_some_iff] at hpk; exact hpk
            have h2' : cc = burst c (file p.counter) ∧ pp = burst c (file x.1.counter) := by
              simp at h2
              exact ⟨h2.1.symm, h2.2.1.symm⟩
            obtain ⟨rfl, rfl⟩ := h2'
            have x1 := hx hforce x.1 (by simp)
            have hl' : Surface.findNew c.surface s (burst c (file x.1.counter)) (burst c (file p.counter)) = .val o := by
              injection hl
            cases o with
            | none =>
              cases h
              exact hpl
            | some l =>
              obtain ⟨r, hr, hlos, _, _, hle, hne, hi⟩ := Surface.findNew_some hl'
              refine put l (Or.inr ⟨x.1.counter, p.counter, _, hpn, hpu, x1, ?_, hi ▸ placed_between c file _ _ _⟩) rfl
              rcases hα with hα | ⟨hα, x3⟩
              · exact hα _
              · have hlt := x3 x.1 (by simp) s h1 r hr hlos
                have hden : 0 < InnerProductGeometry.angle s.los ((burst c (file p.counter)).surf - s.loc.sat) -
                    InnerProductGeometry.angle s.los ((burst c (file x.1.counter)).surf - s.loc.sat) := by linarith
                refine hα _ (div_pos (by linarith) hden) ?_
                rw [div_le_one hden]; linarith
        · cases hl

theorem locations_track (hs : Source c file n recs) (p : Pk ℝ) (force new : Bool) (h : Tracked c file n A recs (p :: up) s)
    (hα : Ratios c file A s)
    (hx : force = false → ∀ x, newest s = some x → (file p.counter).time - (file x.counter).time < c.bri * 1.5)
    (hl : surfaceLocations c file s p force = .ok (new, s')) : Tracked c file n A recs up s' ∧ newest s' = some p ∧
      s'.ctl.prevTime = s.ctl.prevTime ∧ s'.ctl.rest = s.ctl.rest ∧ s'.ctl.gapProcessing = s.ctl.gapProcessing := by
  obtain ⟨⟨pre, a1⟩, a2, a3⟩ := h
  have hp : p ∈ recs := by rw [a1]; simp
  unfold surfaceLocations at hl
  dsimp only at hl
  have key : ∀ alg' surfs' nw, Surface.step c.surface s.alg s.surfs (s.ctl.packets.map (fun x => burst c (file x.1.counter)))
      (burst c (file p.counter)) force = .ok alg' surfs' nw →
      ∀ s'' : State, s''.l1b = s.l1b → s''.surfs = surfs' → newest s'' = some p → Tracked c file n A recs up s'' := by
    intro alg' surfs' nw hstep s'' e1 e2 e3
    have q := step_track (A := A) hs s.alg alg' s.surfs surfs' s.ctl.packets p force nw hp
      (fun f hf => a3 _ (List.mem_append_right _ (List.mem_map_of_mem hf)))
      (fun hf x hxx => by
        obtain ⟨pre, e⟩ := a2 x hxx
        exact ⟨hs.next _ _ _ _ e, hx hf x hxx⟩) hα hstep
    refine ⟨⟨pre ++ [p], by rw [a1]; simp⟩, ?_, ?_⟩
    · intro x hxx
      rw [e3] at hxx
      cases hxx
      exact ⟨pre, a1⟩
    · intro l hm
      unfold locsOf at hm
      rw [e1, e2] at hm
      rcases List.mem_append.1 hm with hm | hm
      · exact a3 _ (List.mem_append_left _ hm)
      · obtain ⟨f, hf, rfl⟩ := List.mem_map.1 hm
        exact q f hf
  cases hstep : Surface.step c.surface s.alg s.surfs (s.ctl.packets.map (fun x => burst c (file x.1.counter))) (burst c (file p.counter)) force with
  | err e => rw [hstep] at hl; cases hl
  | nan => rw [hstep] at hl; cases hl
  | ok alg' surfs' nw =>
    rw [hstep] at hl
    have hn : ∀ t : St ℝ, t.packets = s.ctl.packets ++ [(p, false)] → ∀ surfs mem alg closest l1b l1bs,
        newest ⟨t, surfs, mem, alg, closest, l1b, l1bs⟩ = some p := fun t ht _ _ _ _ _ _ => newest_snoc _ _ _ _ _ _ _ _ _ ht
    cases nw with
    | false =>
      cases hl
      exact ⟨key _ _ _ hstep _ rfl rfl (hn _ rfl _ _ _ _ _ _), hn _ rfl _ _ _ _ _ _, rfl, rfl, rfl⟩
    | true =>
      cases hl
      exact ⟨key _ _ _ hstep _ rfl rfl (hn _ rfl _ _ _ _ _ _), hn _ rfl _ _ _ _ _ _, rfl, rfl, rfl⟩

theorem handle_track (hsrc : Source c file n recs) (p : Pk ℝ) (b : Bool)
    (h : Tracked c file n A recs (p :: recordsOf s.ctl.rest) s) (hm : Remembers s) (hα : Ratios c file A s) (hin : s.ctl.input = some p)
    (hg : s.ctl.gapProcessing = false)
    (hs : handlePacket c file s p = .ok (b, s')) : Tracked c file n A recs (upcoming s') s' ∧ Remembers s' := by
  have hp : p ∈ recs := by obtain ⟨pre, e⟩ := h.rest; rw [e]; simp
  unfold handlePacket at hs
  dsimp only at hs
  split at hs
  · rename_i htime
    split at hs
    · cases hs
    · rename_i new s1 hl
      cases hs
      obtain ⟨q1, q3, q2, q4, q5⟩ := locations_track (A := A) (s := { s with
          ctl := { s.ctl.log (.calibrated p.counter) with prevTime := some p.time }
          mem := Function.update s.mem p.counter (calibrated c (file p.counter) (s.mem p.counter)) }) hsrc p _ new
        (h.of rfl rfl rfl) hα (by
          intro hf x hx
          have e := hm hg hf x hx
          unfold inTime at htime
          have htime : (match s.ctl.prevTime with
            | none => true
            | some t => decide (p.time - t < c.bri * 1.5)) = true := htime
          rw [e] at htime
          have ht := of_decide_eq_true htime
          have hxr : x ∈ recs := by obtain ⟨pre, e⟩ := h.last x hx; rw [e]; simp
          rw [(hsrc.sound p hp).1, (hsrc.sound x hxr).1] at ht
          exact ht) hl
      have e : upcoming { s1 with ctl := { s1.ctl with gapResume := false } } = recordsOf s.ctl.rest := by
        unfold upcoming
        have q5 : s1.ctl.gapProcessing = false := q5.trans hg
        have q4 : s1.ctl.rest = s.ctl.rest := q4
        rw [if_neg (by rintro (h | h); · rw [q5] at h; cases h
                       · cases h)]
        show [] ++ recordsOf s1.ctl.rest = _
        rw [q4]; rfl
      rw [e]
      refine ⟨q1.of rfl rfl rfl, ?_⟩
      intro _ _ x hx
      have hx : newest s1 = some x := hx
      rw [q3] at hx
      cases hx
      exact q2
  · cases hs
    refine ⟨?_, fun h => by cases h⟩
    exact h.shift (upcoming_gap (l := s.ctl.rest) rfl hin rfl) rfl rfl rfl

theorem read_track (h : Tracked c file n A recs (recordsOf s.ctl.rest) s) (hm : Remembers s) (hα : Ratios c file A s)
    (hs : readNext c file s = .ok s') :
    Tracked c file n A recs (s'.ctl.input.toList ++ recordsOf s'.ctl.rest) s' ∧ Remembers s' ∧ Ratios c file A s' ∧
      s'.ctl.gapProcessing = s.ctl.gapProcessing := by
  unfold readNext Process.readNext at hs
  cases hrest : s.ctl.rest with
  | nil =>
    rw [hrest] at hs h
    dsimp only at hs
    split at hs
    · cases hs
    · rename_i t ht
      cases hs
      split at ht
      · cases ht
        exact ⟨h.of rfl rfl rfl, hm, hα, rfl⟩
      · cases ht
  | cons x rest =>
    rw [hrest] at hs h
    cases x with
    | failure e => cases hs
    | invalid =>
      cases hs
      exact ⟨h.of rfl rfl rfl, hm, hα, rfl⟩
    | record p =>
      cases hs
      exact ⟨h.of rfl rfl rfl, hm, hα, rfl⟩

theorem input_track (hsrc : Source c file n recs) (b : Bool)
    (h : Tracked c file n A recs (upcoming s) s) (hm : Remembers s) (hα : Ratios c file A s)
    (hs : inputPhase c file s = .ok (b, s')) : Tracked c file n A recs (upcoming s') s' ∧ Remembers s' := by
  unfold inputPhase at hs
  by_cases hg : s.ctl.gapProcessing = true
  · rw [if_pos hg] at hs
    split at hs
    · cases hs
      exact ⟨h.of rfl rfl rfl, hm⟩
    · cases hs
      exact ⟨h, hm⟩
  · rw [if_neg hg] at hs
    have hg' : s.ctl.gapProcessing = false := by simpa using hg
    have q : ∀ s1, (if s.ctl.gapResume then .ok s else readNext c file s : Out State) = .ok s1 →
        Tracked c file n A recs (s1.ctl.input.toList ++ recordsOf s1.ctl.rest) s1 ∧ Remembers s1 ∧ Ratios c file A s1 ∧
          s1.ctl.gapProcessing = false := by
      intro s1 h1
      by_cases hr : s.ctl.gapResume = true
      · rw [if_pos hr] at h1
        cases h1
        unfold upcoming at h
        rw [if_pos (Or.inr hr)] at h
        exact ⟨h, hm, hα, hg'⟩
      · rw [if_neg hr] at h1
        unfold upcoming at h
        rw [if_neg (by rintro (h | h); exacts [hg h, hr h])] at h
        obtain ⟨a1, a2, a3, a4⟩ := read_track h hm hα h1
        exact ⟨a1, a2, a3, a4.trans hg'⟩
    cases h1 : (if s.ctl.gapResume then .ok s else readNext c file s : Out State) with
    | error x => rw [h1] at hs; cases hs
    | ok s1 =>
      rw [h1] at hs
      obtain ⟨a1, a2, a3, a4⟩ := q s1 h1
      dsimp only at hs
      cases hin : s1.ctl.input with
      | none =>
        rw [hin] at hs a1
        cases hs
        refine ⟨?_, a2⟩
        unfold upcoming
        rw [hin]
        simpa using a1
      | some p =>
        rw [hin] at hs a1
        exact handle_track hsrc p b a1 a2 a3 hin a4 hs

theorem Quiet.track {s s' : State} (h : Quiet s s') (h1 : Tracked c file n A recs (Whole.upcoming s) s) (h2 : Remembers s) :
    Tracked c file n A recs (Whole.upcoming s') s' ∧ Remembers s' := by
  refine ⟨h.upcoming ▸ h1.of h.l1b h.surfs h.newest, ?_⟩
  unfold Remembers
  rw [h.gap, h.resume, h.newest, h.prev]
  exact h2

/-! ## The first surface -/

/-- The records written are where they should be. -/
def Written (c : Conf) (file : ℕ → Raw) (n : ℕ) (A : ℝ → Prop) (s : State) : Prop := ∀ rec ∈ s.l1b, Placed c file n A rec.loc

theorem Tracked.written (h : Tracked c file n A recs up s) : Written c file n A s :=
  fun _ hr => h.placed _ (List.mem_append_left _ (List.mem_map_of_mem hr))

theorem Tracked.pop (h : Tracked c file n A recs (upcoming s) s) (hm : Remembers s) {f : Surface.Surf} {fs : List Surface.Surf}
    (hf : s.surfs = f :: fs) (h1 : s'.l1b = s.l1b ∨ ∃ rec : Record, rec.loc = f.loc ∧ s'.l1b = s.l1b ++ [rec])
    (h2 : s'.surfs = fs) (h3 : ∀ x, newest s' = some x → newest s = some x) (h4 : s'.ctl.rest = s.ctl.rest)
    (h5 : s'.ctl.input = s.ctl.input) (h6 : s'.ctl.gapProcessing = s.ctl.gapProcessing)
    (h7 : s'.ctl.gapResume = s.ctl.gapResume) (h8 : s'.ctl.prevTime = s.ctl.prevTime) :
    Tracked c file n A recs (upcoming s') s' ∧ Remembers s' := by
  have hu : upcoming s' = upcoming s := by unfold upcoming; rw [h4, h5, h6, h7]
  have hsub : ∀ l ∈ locsOf s', l ∈ locsOf s := by
    intro l hl
    unfold locsOf at hl ⊢
    rw [h2] at hl
    rw [hf]
    rcases h1 with h1 | ⟨rec, h1, h9⟩
    · rw [h1] at hl
      simp only [List.mem_append, List.map_cons, List.mem_cons] at hl ⊢
      tauto
    · rw [h9, List.map_append] at hl
      simp only [List.mem_append, List.map_cons, List.mem_cons, List.map_nil, List.not_mem_nil, or_false, h1] at hl ⊢
      tauto
  refine ⟨⟨hu ▸ h.rest, ?_, fun l hl => h.placed l (hsub l hl)⟩, ?_⟩
  · rw [hu]
    exact fun x hx => h.last x (h3 x hx)
  · intro g1 g2 x hx
    rw [h8]
    exact hm (h6 ▸ g1) (h7 ▸ g2) x (h3 x hx)

theorem finish_track (o : World) (h : Tracked c file n A recs (upcoming s) s) (hm : Remembers s) :
    match finishSurface c o file s with
    | .ok s' => Tracked c file n A recs (upcoming s') s' ∧ Remembers s'
    | .error x => Written c file n A x.state := by
  unfold finishSurface
  cases hw : s.ctl.surfaces with
  | nil => exact h.written
  | cons w rest =>
    cases hf : s.surfs with
    | nil => exact h.written
    | cons f fs =>
      dsimp only
      cases hc : Chain.surfaceAw c.weighting c.pattern o.argsort o.round o.junk c.chain s.mem (place f) s.closest (looksOf w) with
      | error e => exact h.written
      | ok r =>
        cases r with
        | none => exact h.pop hm hf (Or.inl rfl) (by simp) (fun _ => id) rfl rfl rfl rfl rfl
        | some r =>
          dsimp only
          cases hg : sigma0 c file s.mem f r with
          | none => exact h.written
          | some g =>
            dsimp only
            have wr : ∀ t : State, t.l1b = s.l1b ++ [(⟨w.counter, f.loc, r, g⟩ : Record)] → Written c file n A t := by
              intro t ht rec hr
              rw [ht] at hr
              rcases List.mem_append.1 hr with hr | hr
              · exact h.written rec hr
              · rw [List.mem_singleton] at hr
                subst hr
                refine h.placed _ (List.mem_append_right _ ?_)
                rw [hf]
                simp
            have clear : ∀ t : State, t.surfs = s.surfs → newest t = newest s → t.ctl.rest = s.ctl.rest → t.ctl.input = s.ctl.input →
                t.ctl.gapProcessing = s.ctl.gapProcessing → t.ctl.gapResume = s.ctl.gapResume → t.ctl.prevTime = s.ctl.prevTime →
                t.l1b = s.l1b ++ [(⟨w.counter, f.loc, r, g⟩ : Record)] →
                match clearOld w t with
                | .ok s' => Tracked c file n A recs (upcoming s') s' ∧ Remembers s'
                | .error x => Written c file n A x.state := by
              intro t t1 t2 t3 t4 t5 t6 t7 t8
              have q := clear_ends w t
              cases hcl : clearOld w t with
              | error x =>
                rw [hcl] at q
                exact wr _ (q.1.trans t8)
              | ok s' =>
                obtain ⟨q1, q2, q3, q4, q5, q6, q7, q8⟩ := clear_quiet w hcl
                exact h.pop hm hf (Or.inr ⟨_, rfl, q1.trans t8⟩) (by rw [q2, t1, hf]; rfl) (fun x hx => t2 ▸ q3 x hx)
                  (q4.trans t3) (q5.trans t4) (q6.trans t5) (q7.trans t6) (q8.trans t7)
            unfold writeSurface
            cases o.l1bFails ⟨w.counter, f.loc, r, g⟩ with
            | some e => exact h.written
            | none =>
              dsimp only
              unfold writeL1bs
              cases hskip : o.skipL1bs with
              | true =>
                simp only [if_true]
                exact clear _ hf.symm rfl rfl rfl rfl rfl rfl rfl
              | false =>
                simp only [Bool.false_eq_true, if_false]
                cases o.l1bsFails ⟨w.counter, f.loc, r, g⟩ with
                | some e => exact wr _ rfl
                | none =>
                  dsimp only
                  exact clear _ hf.symm rfl rfl rfl rfl rfl rfl rfl

/-! ## Iterations -/

theorem surface_track (o : World) (h : Tracked c file n A recs (upcoming s) s) (hm : Remembers s) :
    match surfacePhase c o file s with
    | .ok s' => Tracked c file n A recs (upcoming s') s' ∧ Remembers s'
    | .error x => Written c file n A x.state := by
  unfold surfacePhase
  by_cases hc : s.ctl.surfaceProcessing = true ∨ minSurfs ≤ s.ctl.surfaces.length ∨ s.ctl.gapProcessing = true
  · rw [if_pos hc]
    cases hw : s.ctl.surfaces with
    | nil => exact h.written
    | cons w rest =>
      dsimp only
      have q0 := loop_writes c file s.ctl.packets [] s.begun
      have q1 := fun s2 => loop_quiet (c := c) (file := file) s.ctl.packets [] s.begun s2 rfl
      revert q0 q1
      cases packetLoop c file [] s.ctl.packets s.begun with
      | error x =>
        rintro ⟨r1, r2, r3⟩ _
        have r1 : x.state.l1b = s.l1b := r1
        dsimp only
        unfold Written
        rw [r1]
        exact h.written
      | ok s2 =>
        rintro _ q1
        have b : Quiet s s.begun := ⟨rfl, rfl, rfl, rfl, rfl, rfl, rfl, rfl⟩
        obtain ⟨k1, k2⟩ := (b.trans (q1 s2 rfl)).track h hm
        exact finish_track o k1 k2
  · rw [if_neg hc]
    exact ⟨h, hm⟩

theorem end_track (h : Tracked c file n A recs (upcoming s) s) (hm : Remembers s) :
    match endPhase s with
    | .ok s' => Tracked c file n A recs (upcoming s') s' ∧ Remembers s'
    | .error x => Written c file n A x.state := by
  unfold endPhase
  cases ht : Process.endPhase s.ctl with
  | error x =>
    unfold Process.endPhase at ht
    split at ht
    · split at ht
      · dsimp only at ht
        split at ht
        · cases ht
        · cases ht; exact h.written
      · cases ht
    · cases ht
  | ok t =>
    unfold Process.endPhase at ht
    split at ht
    · split at ht
      · rename_i hg
        dsimp only at ht
        split at ht
        · cases ht
          refine ⟨?_, fun _ h => by cases h⟩
          have e : ∀ u : State, u.ctl.gapResume = true → u.ctl.input = s.ctl.input → u.ctl.rest = s.ctl.rest → upcoming u = upcoming s := by
            intro u u1 u2 u3
            unfold upcoming
            rw [if_pos (Or.inr u1), if_pos (Or.inl hg), u2, u3]
          exact h.shift (e _ rfl rfl rfl) rfl rfl rfl
        · cases ht
      · cases ht
        exact Quiet.track (s := s) ⟨rfl, rfl, rfl, rfl, rfl, rfl, rfl, rfl⟩ h hm
    · cases ht
      exact ⟨h, hm⟩

theorem iteration_track (hsrc : Source c file n recs) (o : World)
    (h : Tracked c file n A recs (upcoming s) s) (hm : Remembers s) (hα : Ratios c file A s) :
    match step c o file s with
    | .ok s' => Tracked c file n A recs (upcoming s') s' ∧ Remembers s'
    | .error x => Written c file n A x.state := by
  unfold step
  have hq := begin_quiet (s := s) o
  obtain ⟨b1, b2⟩ := hq.track h hm
  have b3 : Ratios c file A (beginIteration o s) := by
    unfold Ratios
    rw [hq.newest, hq.surfs]
    exact hα
  have q1 := input_writes c file (beginIteration o s)
  have q2 := fun b s1 => input_track (s' := s1) hsrc b b1 b2 b3
  revert q1 q2
  cases inputPhase c file (beginIteration o s) with
  | error x =>
    rintro ⟨r1, _⟩ _
    dsimp only
    unfold Written
    rw [r1]
    exact b1.written
  | ok x =>
    obtain ⟨b, s1⟩ := x
    rintro _ q2
    obtain ⟨k1, k2⟩ := q2 b s1 rfl
    cases b with
    | true => exact ⟨k1, k2⟩
    | false =>
      dsimp only
      have q5 := surface_track o k1 k2
      revert q5
      cases surfacePhase c o file s1 with
      | error x => exact id
      | ok s2 =>
        rintro ⟨q5, q6⟩
        exact end_track q5 q6

theorem run_track (o : World) (alg : Surface.Alg) (its : List (Item ℝ)) (hsrc : Source c file n (recordsOf its)) (J : State → Prop)
    (hJ0 : J (start alg its)) (hJ : ∀ s s', J s → step c o file s = .ok s' → J s') (hJα : ∀ s, J s → Ratios c file A s) :
    Written c file n A (run c o file (3 * its.length + 2) (start alg its)).state := by
  have h := (run_good c o file (start alg its) its (fun s => (Tracked c file n A (recordsOf its) (upcoming s) s ∧ Remembers s) ∧ J s)
    (fun x => Written c file n A x.state) ?_ ?_ (3 * its.length + 2) (start alg its) (good_start c o file alg its) ?_).2
  · revert h
    cases run c o file (3 * its.length + 2) (start alg its) with
    | finished s' =>
      rintro ⟨s1, _, hw, rfl⟩
      exact hw.1.1.written
    | failed e s' =>
      rintro (h | ⟨_, h⟩)
      · exact h
      · exact h.1.1.written
    | nan s' => exact id
    | timeout s' => exact fun h => h.2.1.1.written
  · intro s s' _ hw _ hs
    have q := iteration_track hsrc o hw.1.1 hw.1.2 (hJα s hw.2)
    rw [hs] at q
    exact ⟨q, hJ s s' hw.2 hs⟩
  · intro s x _ hw _ hs
    have q := iteration_track hsrc o hw.1.1 hw.1.2 (hJα s hw.2)
    rw [hs] at q
    exact q
  · have e : upcoming (start alg its) = recordsOf its := by
      unfold upcoming
      rw [if_neg (by rintro (h | h) <;> cases h)]
      rfl
    rw [e]
    refine ⟨⟨⟨⟨[], rfl⟩, ?_, by simp [locsOf, start]⟩, ?_⟩, hJ0⟩
    · intro x hx; simp [newest, start, Process.start] at hx
    · intro _ _ x hx; simp [newest, start, Process.start] at hx

theorem items_source (file : ℕ → Raw) (n : ℕ) (d : Reader.Dataset) (h : Reader.openDataset c.bounds (positions file n) = .ok d) :
    Source c file n (recordsOf (items file n d)) := by
  have e : itemIds (items file n d) = (recordsOf (items file n d)).map (·.counter) := by
    unfold itemIds recordsOf
    rw [List.map_filterMap]
    congr 1
    funext x
    cases x <;> rfl
  obtain ⟨h1, h2⟩ := items_usable (c := c) file n d h
  constructor
  · intro p hp
    obtain ⟨a, b⟩ := (items_records file n d h).2 p hp
    exact ⟨a, b, (h2 _ (e ▸ List.mem_map_of_mem hp)).2⟩
  · intro pre x p suf hl
    refine precedes_adjacent file n d h (pre.map (·.counter)) (suf.map (·.counter)) x.counter p.counter ?_
    rw [e, hl]
    simp

/-! ## C165 -/

/-- **C165.**  Every record of the product, whatever the file, is at a record of the file which can be used, or on the line through two successive ones
without a gap between them; time, satellite, velocity, attitude and ground point are taken at the same ratio. -/
theorem records_on_track (c : Conf) (o : World) (alg : Surface.Alg) (file : ℕ → Raw) (n : ℕ) :
    ∀ rec, rec ∈ (process c o alg file n).state.l1b ∨ rec ∈ (process c o alg file n).state.l1bs →
      Placed c file n (fun _ => True) rec.loc := by
  intro rec hr
  replace hr : rec ∈ (process c o alg file n).state.l1b := hr.elim id (fun h => (products_agree c o alg file n).2.1.subset h)
  revert rec
  unfold process
  cases h : Reader.openDataset c.bounds (positions file n) with
  | error e => intro rec hr; simp [Outcome.state, start] at hr
  | ok d => exact run_track o alg _ (items_source file n d h) (fun _ => True) trivial (fun _ _ _ _ => trivial) (fun _ _ => Or.inl fun _ => trivial)

/-- **C165.**  If the file is dense (as in C159), the records lie between the two records of the file, not before the first nor after the second. -/
theorem records_between (c : Conf) (hc : c.Positive) (o : World) (alg : Surface.Alg) (file : ℕ → Raw) (n : ℕ) (D H V : ℝ)
    (hd : Dense c file n D H V) :
    ∀ rec, rec ∈ (process c o alg file n).state.l1b ∨ rec ∈ (process c o alg file n).state.l1bs →
      Placed c file n (fun α => 0 < α ∧ α ≤ 1) rec.loc := by
  intro rec hr
  replace hr : rec ∈ (process c o alg file n).state.l1b := hr.elim id (fun h => (products_agree c o alg file n).2.1.subset h)
  revert rec
  unfold process
  cases h : Reader.openDataset c.bounds (positions file n) with
  | error e => intro rec hr; simp [Outcome.state, start] at hr
  | ok d =>
    obtain ⟨h1, h2⟩ := items_records file n d h
    refine run_track o alg _ (items_source file n d h) (fun s => Ordered c file n (upcoming s) s ∧ Remembers s) ?_ ?_ ?_
    · have e : upcoming (start alg (items file n d)) = recordsOf (items file n d) := by
        unfold upcoming
        rw [if_neg (by rintro (h | h) <;> cases h)]
        rfl
      rw [e]
      refine ⟨⟨by simp [timesOf, start], h1, h2, by simp [timesOf, start], ?_⟩, ?_⟩
      · intro x hx; simp [newest, start, Process.start] at hx
      · intro _ _ x hx; simp [newest, start, Process.start] at hx
    · intro s s' hw hs
      have q := iteration_times hc hd o hw.1 hw.2
      rw [hs] at q
      exact q
    · exact fun s hw => Or.inr ⟨fun α a b => ⟨a, b⟩, fun x hx => (hw.1.last x hx).2.2.2⟩

/-- **C165**, as seen in the product: the time of every record lies between the times of two successive records of the file. -/
theorem record_times_within (c : Conf) (hc : c.Positive) (o : World) (alg : Surface.Alg) (file : ℕ → Raw) (n : ℕ) (D H V : ℝ)
    (hd : Dense c file n D H V) (rec : Record) (hr : rec ∈ (process c o alg file n).state.l1b) :
    (∃ i, i < n ∧ rec.loc.time = (file i).time) ∨
      ∃ i j, j < n ∧ Successive c file i j ∧ (file i).time < rec.loc.time ∧ rec.loc.time ≤ (file j).time := by
  rcases records_between c hc o alg file n D H V hd rec (Or.inl hr) with ⟨i, a, _, b⟩ | ⟨i, j, α, a, _, b, ⟨d, e⟩, f⟩
  · exact Or.inl ⟨i, a, by simpa using b.time⟩
  · have h1 := hd.rising i j b.1.1 a
    refine Or.inr ⟨i, j, a, b, ?_, ?_⟩ <;> rw [f.time] <;> nlinarith

/-- The hypotheses of the second statement are met by a file of any number of records. -/
example (o : World) (alg : Surface.Alg) (rec : Record) (h : rec ∈ (process demoConf o alg northFile 5000).state.l1b) :
    Placed demoConf northFile 5000 (fun α => 0 < α ∧ α ≤ 1) rec.loc :=
  records_between demoConf (north_dense 5000).1 o alg northFile 5000 _ _ _ (north_dense 5000).2 rec (Or.inl h)

/-- There are records in the product of the example, and they are placed. -/
example (alg : Surface.Alg) : ∃ rec ∈ (process demoConf (demoWorld realArg) alg demoFile 2).state.l1b,
    Placed demoConf demoFile 2 (fun _ => True) rec.loc := by
  obtain ⟨s, rec, e, h, _⟩ := demo_run_full realArg realArg_isArgsort alg
  have hm : rec ∈ (process demoConf (demoWorld realArg) alg demoFile 2).state.l1b := by
    rw [e]
    show rec ∈ s.l1b
    rw [h]
    simp
  exact ⟨rec, hm, records_on_track _ _ _ _ _ rec (Or.inl hm)⟩

end Dedop.Whole
