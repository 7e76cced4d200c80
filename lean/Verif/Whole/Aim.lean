import Verif.Whole.Props

/-!
# What the looks of a record point at (lemmas)
-/
namespace Dedop.Whole

open Real Process

/-! ## Specification -/

/-- Seen from the position of the satellite in record `id` of the file, the place `pos` is at the angle `a` from
the velocity, and this is within the limits of view of the record. -/
def InView (c : Conf) (file : ℕ → Raw) (pos : Surface.V) (id : ℕ) (a : ℝ) : Prop :=
  Surface.beamAngle pos (burst c (file id)).sat (file id).vel = some a ∧
    ∃ q d, qMin c ‖(file id).vel‖ = .ok q ∧ doppler c (file id) = some d ∧ q ≤ a - d ∧ a - d ≤ π - q

/-- Each look of the record was formed in the direction of the place given in the record. -/
def Record.Aimed (c : Conf) (file : ℕ → Raw) (rec : Record) : Prop :=
  ∀ row ∈ rec.result.gathered.rows, InView c file rec.loc.surf row.burst row.beamAngle

/-- The look of a stack points at the place. -/
def Points (c : Conf) (file : ℕ → Raw) (mem : ℕ → Chain.L1A) (pos : Surface.V) (l : ℕ × ℤ × ℕ) : Prop :=
  ∃ a, (mem l.2.2).angles[l.1]? = some a ∧ InView c file pos l.2.2 a

/-- The looks of each surface which was not moved point at it. -/
def Aim (c : Conf) (file : ℕ → Raw) (s : State) : Prop :=
  ∀ (k : ℕ) w (f : Surface.Surf), s.ctl.surfaces[k]? = some w → s.surfs[k]? = some f → f.focused = false →
    ∀ l ∈ looksOf w, Points c file s.mem f.loc.surf l

/-- Number of surfaces in the queue which were moved. -/
def movedIn (surfs : List Surface.Surf) : ℕ := surfs.countP (·.focused)

/-- Number of surfaces which may have been moved so far. -/
def moves (c : Conf) (s : State) : ℕ := if c.focusing = true ∧ s.alg.focusFound = true then 1 else 0

open Classical in
/-- Number of records with a look which does not point at the place of the record. -/
noncomputable def astray (c : Conf) (file : ℕ → Raw) (l : List Record) : ℕ := l.countP (fun rec => decide (¬ rec.Aimed c file))

/-- Invariant about looks and surfaces. -/
structure Sighted (c : Conf) (file : ℕ → Raw) (s : State) : Prop where
  aim : Aim c file s
  few : astray c file s.l1b + movedIn s.surfs ≤ moves c s

/-- Moves which keep surfaces and beam angles. -/
structure Steadfast (s s' : State) : Prop where
  surfaces : s'.ctl.surfaces = s.ctl.surfaces
  surfs : s'.surfs = s.surfs
  alg : s'.alg = s.alg
  l1b : s'.l1b = s.l1b
  angles : ∀ w ∈ s.ctl.surfaces, ∀ id ∈ stackIds w, (s'.mem id).angles = (s.mem id).angles

/-! ## Surface locations -/

theorem fillDist_same (k : Surface.Conf) (f : Surface.Surf) :
    (Surface.fillDist k f).loc = f.loc ∧ (Surface.fillDist k f).focused = f.focused := by
  unfold Surface.fillDist
  split <;> exact ⟨rfl, rfl⟩

theorem fill_moved (k : Surface.Conf) (surfs : List Surface.Surf) : movedIn (surfs.map (Surface.fillDist k)) = movedIn surfs := by
  unfold movedIn
  rw [List.countP_map]
  congr 1
  funext f
  exact (fillDist_same k f).2

theorem focus_aim (k : Surface.Conf) (alg : Surface.Alg) (surfs surfs' : List Surface.Surf) (b : Bool)
    (h : Surface.focusStep k alg surfs = .val (b, surfs')) :
    surfs'.length = surfs.length ∧
    (∀ (i : ℕ) (f' : Surface.Surf), surfs'[i]? = some f' → f'.focused = false → ∃ f : Surface.Surf, surfs[i]? = some f ∧ f.focused = false ∧ f'.loc = f.loc) ∧
    ((b = alg.focusFound ∧ movedIn surfs' = movedIn surfs) ∨
      (k.focusing = true ∧ alg.focusFound = false ∧ b = true ∧ movedIn surfs' ≤ movedIn surfs + 1)) := by
  unfold Surface.focusStep at h
  by_cases hf : k.focusing = false
  · rw [if_pos hf] at h
    cases h
    exact ⟨rfl, fun i f' h1 h2 => ⟨f', h1, h2, rfl⟩, Or.inl ⟨rfl, rfl⟩⟩
  rw [if_neg hf] at h
  have hf' : k.focusing = true := by simpa using hf
  dsimp only at h
  have same : (surfs.map (Surface.fillDist k)).length = surfs.length ∧
      (∀ (i : ℕ) (f' : Surface.Surf), (surfs.map (Surface.fillDist k))[i]? = some f' → f'.focused = false →
        ∃ f : Surface.Surf, surfs[i]? = some f ∧ f.focused = false ∧ f'.loc = f.loc) := by
    refine ⟨by simp, ?_⟩
    intro i f' h1 h2
    rw [List.getElem?_map] at h1
    cases h3 : surfs[i]? with
    | none => rw [h3] at h1; cases h1
    | some f =>
      rw [h3] at h1
      cases h1
      obtain ⟨a1, a2⟩ := fillDist_same k f
      exact ⟨f, rfl, a2 ▸ h2, a1⟩
  split at h
  · rename_i f p rest hrev
    split at h
    · cases h
    · split at h
      · rename_i hcond
        split at h
        · cases h
        · rename_i f' hfoc
          cases h
          have hl : surfs.map (Surface.fillDist k) = (p :: rest).reverse ++ [f] := by
            have := congrArg List.reverse hrev
            simpa using this
          have hl' : (f' :: p :: rest).reverse = (p :: rest).reverse ++ [f'] := by simp
          have hfoc' : f'.focused = true := by
            unfold Surface.focusSurface at hfoc
            dsimp only at hfoc
            split at hfoc
            · cases hfoc
            · cases hfoc; rfl
          rw [hl']
          refine ⟨?_, ?_, Or.inr ⟨hf', hcond.1, rfl, ?_⟩⟩
          · rw [← same.1, hl]; simp
          · intro i g h1 h2
            rw [List.getElem?_append] at h1
            split at h1
            · refine same.2 i g ?_ h2
              rw [hl, List.getElem?_append_left (by assumption)]
              exact h1
            · have := List.mem_of_getElem? h1
              rw [List.mem_singleton] at this
              subst this
              rw [hfoc'] at h2
              cases h2
          · rw [← fill_moved k surfs, hl]
            simp only [movedIn, List.countP_append]
            have : List.countP (·.focused) [f'] ≤ 1 := by
              exact List.countP_le_length
            omega
      · cases h
        exact ⟨same.1, same.2, Or.inl ⟨rfl, fill_moved k surfs⟩⟩
  · cases h
    exact ⟨same.1, same.2, Or.inl ⟨rfl, fill_moved k surfs⟩⟩

theorem step_aim (k : Surface.Conf) (alg alg' : Surface.Alg) (surfs surfs' : List Surface.Surf) (bursts : List Surface.Burst)
    (b : Surface.Burst) (force new : Bool) (h : Surface.step k alg surfs bursts b force = .ok alg' surfs' new) :
    surfs'.length = surfs.length + new.toNat ∧
    (∀ (i : ℕ) (f' : Surface.Surf), surfs'[i]? = some f' → f'.focused = false → i < surfs.length →
      ∃ f : Surface.Surf, surfs[i]? = some f ∧ f.focused = false ∧ f'.loc = f.loc) ∧
    ((alg'.focusFound = alg.focusFound ∧ movedIn surfs' = movedIn surfs) ∨
      (k.focusing = true ∧ alg.focusFound = false ∧ alg'.focusFound = true ∧ movedIn surfs' ≤ movedIn surfs + 1)) := by
  unfold Surface.step at h
  unfold Surface.call at h
  cases hl : Surface.locate k alg surfs (bursts ++ [b]) force with
  | error e => rw [hl] at h; cases h
  | ok r =>
    rw [hl] at h
    cases r with
    | nan => cases h
    | val o =>
      cases o with
      | none =>
        cases h
        exact ⟨rfl, fun i f' h1 h2 _ => ⟨f', h1, h2, rfl⟩, Or.inl ⟨rfl, rfl⟩⟩
      | some l =>
        dsimp only at h
        cases hf : Surface.focusStep k { alg with loc := l } surfs with
        | nan => rw [hf] at h; cases h
        | val x =>
          obtain ⟨g, s1⟩ := x
          rw [hf] at h
          cases h
          obtain ⟨a1, a2, a3⟩ := focus_aim k _ surfs s1 g hf
          have hm : movedIn (s1 ++ [Surface.makeSurf k l]) = movedIn s1 := by
            simp [movedIn, Surface.makeSurf]
          refine ⟨by simp [a1], ?_, ?_⟩
          · intro i f' h1 h2 h3
            rw [List.getElem?_append_left (by omega)] at h1
            exact a2 i f' h1 h2
          · rw [hm]
            exact a3

/-! ## Pieces of an iteration -/

theorem Sighted.keep {c : Conf} {file : ℕ → Raw} {s s' : State} (h : Sighted c file s) (hk : Steadfast s s') : Sighted c file s' := by
  obtain ⟨h1, h2⟩ := h
  obtain ⟨k1, k2, k3, k4, k5⟩ := hk
  refine ⟨?_, ?_⟩
  · intro k w f hw hf hm l hl
    rw [k1] at hw
    rw [k2] at hf
    obtain ⟨a, ha, hv⟩ := h1 k w f hw hf hm l hl
    refine ⟨a, ?_, hv⟩
    rw [k5 w (List.mem_of_getElem? hw) _ (mem_looksOf hl)]
    exact ha
  · rw [k4, k2]
    have : moves c s' = moves c s := by unfold moves; rw [k3]
    rw [this]
    exact h2

theorem read_aim (c : Conf) (file : ℕ → Raw) (ids : List ℕ) (hnd : ids.Nodup) (s s' : State) (hi : Ids ids s.ctl)
    (hst : ∀ w ∈ s.ctl.surfaces, ∀ id ∈ stackIds w, id ∈ readOf s.ctl.trace)
    (hs : readNext c file s = .ok s') : Steadfast s s' := by
  unfold readNext Process.readNext at hs
  cases hr : s.ctl.rest with
  | nil =>
    rw [hr] at hs
    dsimp only at hs
    split at hs
    · cases hs
    · rename_i t ht
      split at ht
      · cases ht
        cases hs
        exact ⟨rfl, rfl, rfl, rfl, fun _ _ _ _ => rfl⟩
      · cases ht
  | cons x rest =>
    rw [hr] at hs
    cases x with
    | failure e => cases hs
    | invalid =>
      cases hs
      exact ⟨rfl, rfl, rfl, rfl, fun _ _ _ _ => rfl⟩
    | record p =>
      cases hs
      have hnew : p.counter ∉ readOf s.ctl.trace := by
        have := hi.all
        rw [hr] at this
        rw [← this, List.nodup_append] at hnd
        intro hm
        exact hnd.2.2 _ hm p.counter (by simp [itemIds]) rfl
      refine ⟨rfl, rfl, rfl, rfl, ?_⟩
      intro w hw id hid
      have hne : id ≠ p.counter := fun he => hnew (he ▸ hst w hw id hid)
      dsimp only
      rw [Function.update_of_ne hne]

theorem locations_aim (c : Conf) (file : ℕ → Raw) (s s' : State) (p : Pk ℝ) (force b : Bool) (hI : Inv s) (h : Sighted c file s)
    (hs : surfaceLocations c file s p force = .ok (b, s')) : Sighted c file s' := by
  unfold surfaceLocations at hs
  dsimp only at hs
  cases hst : Surface.step c.surface s.alg s.surfs (s.ctl.packets.map (fun x => burst c (file x.1.counter)))
      (burst c (file p.counter)) force with
  | err e => rw [hst] at hs; cases hs
  | nan => rw [hst] at hs; cases hs
  | ok alg surfs new =>
    rw [hst] at hs
    obtain ⟨a1, a2, a3⟩ := step_aim c.surface s.alg alg s.surfs surfs _ _ force new hst
    have few : astray c file s.l1b + movedIn surfs ≤ if c.focusing = true ∧ alg.focusFound = true then 1 else 0 := by
      have h2 := h.few
      unfold moves at h2
      rcases a3 with ⟨e1, e2⟩ | ⟨e1, e2, e3, e4⟩
      · rw [e1, e2]; exact h2
      · have e1' : c.focusing = true := e1
        simp only [e1', e2, Bool.false_eq_true, and_false, if_false] at h2
        simp only [e1', e3, and_self, if_true]
        omega
    have old : ∀ (k : ℕ) w (f : Surface.Surf), s.ctl.surfaces[k]? = some w → surfs[k]? = some f → f.focused = false →
        ∀ l ∈ looksOf w, Points c file s.mem f.loc.surf l := by
      intro k w f hw hf hm l hl
      have hk : k < s.surfs.length := by
        rw [hI.len]; exact (List.getElem?_eq_some_iff.1 hw).1
      obtain ⟨f0, b1, b2, b3⟩ := a2 k f hf hm hk
      rw [b3]
      exact h.aim k w f0 hw b1 b2 l hl
    cases new with
    | false =>
      cases hs
      exact ⟨old, few⟩
    | true =>
      cases hs
      refine ⟨?_, few⟩
      intro k w f hw hf hm l hl
      replace hw : (s.ctl.surfaces ++ [(⟨s.ctl.count, [], [], []⟩ : Beams.Surf (Pk ℝ))])[k]? = some w := hw
      rw [List.getElem?_append] at hw
      split at hw
      · exact old k w f hw hf hm l hl
      · have := List.mem_of_getElem? hw
        rw [List.mem_singleton] at this
        subst this
        simp [looksOf] at hl

theorem calibrate_aim (c : Conf) (file : ℕ → Raw) (s : State) (p : Pk ℝ) :
    Steadfast s { s with
      ctl := s.ctl.log (.calibrated p.counter)
      mem := Function.update s.mem p.counter (calibrated c (file p.counter) (s.mem p.counter)) } := by
  refine ⟨rfl, rfl, rfl, rfl, ?_⟩
  intro w _ id _
  dsimp only
  by_cases he : id = p.counter
  · subst he
    rw [Function.update_self]
    rfl
  · rw [Function.update_of_ne he]

theorem handle_aim (c : Conf) (file : ℕ → Raw) (s s' : State) (p : Pk ℝ) (b : Bool) (hI : Inv s) (h : Sighted c file s)
    (hs : handlePacket c file s p = .ok (b, s')) : Sighted c file s' := by
  unfold handlePacket at hs
  have h1 := h.keep (calibrate_aim c file s p)
  dsimp only at hs
  split at hs
  · split at hs
    · cases hs
    · rename_i new s1 h2
      cases hs
      have h3 := locations_aim c file _ s1 p _ new ?_ ?_ h2
      · exact h3.keep ⟨rfl, rfl, rfl, rfl, fun _ _ _ _ => rfl⟩
      · exact hI.of rfl rfl rfl
      · exact h1.keep ⟨rfl, rfl, rfl, rfl, fun _ _ _ _ => rfl⟩
  · cases hs
    exact h1.keep ⟨rfl, rfl, rfl, rfl, fun _ _ _ _ => rfl⟩

theorem input_aim (c : Conf) (file : ℕ → Raw) (ids : List ℕ) (hnd : ids.Nodup) (s s' : State) (b : Bool) (hi : Ids ids s.ctl)
    (hst : ∀ w ∈ s.ctl.surfaces, ∀ id ∈ stackIds w, id ∈ readOf s.ctl.trace) (hI : Inv s) (h : Sighted c file s)
    (hs : inputPhase c file s = .ok (b, s')) : Sighted c file s' := by
  unfold inputPhase at hs
  split at hs
  · split at hs
    · cases hs
      exact h.keep ⟨rfl, rfl, rfl, rfl, fun _ _ _ _ => rfl⟩
    · cases hs; exact h
  · split at hs
    · cases hs
    · rename_i s1 h1
      have hm : Sighted c file s1 ∧ Inv s1 := by
        split at h1
        · cases h1; exact ⟨h, hI⟩
        · have hk := read_aim c file ids hnd s s1 hi hst h1
          refine ⟨h.keep hk, ?_⟩
          have hc : s1.ctl.count = s.ctl.count := by
            unfold readNext Process.readNext at h1
            split at h1
            · cases h1
            · rename_i t ht
              have : t.count = s.ctl.count := by
                split at ht
                · split at ht
                  · cases ht; rfl
                  · cases ht
                · cases ht
                · cases ht; rfl
                · cases ht; rfl
              split at h1
              · cases h1; exact this
              · cases h1; exact this
          exact hI.of hk.surfs hk.surfaces hc
      split at hs
      · cases hs; exact hm.1
      · exact handle_aim c file s1 s' _ b hm.2 hm.1 hs

/-! ## Beams -/

theorem burst_aim (c : Conf) (file : ℕ → Raw) (s s' : State) (p : Pk ℝ) (b : Bool) (hI : Inv s)
    (hnew : ∀ w ∈ s.ctl.surfaces, p.counter ∉ stackIds w) (h : Sighted c file s)
    (hs : burstBeams c file s p = .ok (b, s')) : Sighted c file s' := by
  unfold burstBeams at hs
  cases hq : qMin c ‖(file p.counter).vel‖ with
  | error e => rw [hq] at hs; cases hs
  | ok q =>
    rw [hq] at hs
    cases hs
    set v := view q (doppler c (file p.counter)) with hv
    set ang : Beams.Surf (Pk ℝ) × ℕ → ℝ := fun x => angle (burst c (file p.counter)) v s.surfs x.2 with hang
    obtain ⟨run, hrun⟩ := Beams.firstRun_exists (Beams.Visible v ang) s.ctl.surfaces.zipIdx
    obtain ⟨o1, o2, _⟩ := Beams.seen_is_run c.pulses v ang (fun x : Beams.Surf (Pk ℝ) × ℕ => x.1.counter) (fun x => x.2 == 0)
      s.ctl.surfaces.zipIdx run hrun
    set out := Beams.beamAngles c.pulses v ang (fun x : Beams.Surf (Pk ℝ) × ℕ => x.1.counter) (fun x => x.2 == 0)
      s.ctl.surfaces.zipIdx with hout
    set tr := Beams.trend c.pulses s.ctl.sizePrev s.ctl.trendPrev out.angles.length
    obtain ⟨pre, post, hq1, _, hvis, _⟩ := hrun
    have hsubz : (Beams.lastN c.pulses run).Sublist s.ctl.surfaces.zipIdx := by
      rw [hq1]
      exact ((List.drop_sublist _ _).trans (List.sublist_append_right pre run)).trans (List.sublist_append_left _ post)
    have hsub : out.counters.Sublist (s.ctl.surfaces.map (·.counter)) := by
      rw [o1]
      have := hsubz.map (fun x : Beams.Surf (Pk ℝ) × ℕ => x.1.counter)
      have e : s.ctl.surfaces.zipIdx.map (fun x : Beams.Surf (Pk ℝ) × ℕ => x.1.counter) = s.ctl.surfaces.map (·.counter) := by
        conv_rhs => rw [← List.zipIdx_map_fst 0 s.ctl.surfaces, List.map_map]
        rfl
      rw [e] at this
      exact this
    obtain ⟨back, e1, e2⟩ := Beams.outer_spec c.pulses tr out.angles.length p out.counters 0 [] s.ctl.surfaces hsub hI.nodup
    have e1' : Beams.outer c.pulses tr out.angles.length p 0 0 out.counters s.ctl.surfaces = back := by simpa using e1
    rw [e1']
    refine ⟨?_, h.few⟩
    intro k w' f hw' hf hm l hl
    replace hw' : back[k]? = some w' := hw'
    replace hf : s.surfs[k]? = some f := hf
    obtain ⟨g1, g2⟩ := List.forall₂_iff_get.1 e2
    obtain ⟨hk', rfl⟩ := List.getElem?_eq_some_iff.1 hw'
    have hk : k < s.ctl.surfaces.length := by omega
    have g3 := g2 k hk hk'
    simp only [List.get_eq_getElem] at g3
    have hw : s.ctl.surfaces[k]? = some s.ctl.surfaces[k] := List.getElem?_eq_getElem hk
    have hmem : s.ctl.surfaces[k] ∈ s.ctl.surfaces := List.getElem_mem hk
    have hold : ∀ l ∈ looksOf s.ctl.surfaces[k], Points c file
        (Function.update s.mem p.counter { s.mem p.counter with angles := out.angles, trend := tr }) f.loc.surf l := by
      intro l hl
      have hne : l.2.2 ≠ p.counter := fun he => hnew _ hmem (he ▸ mem_looksOf hl)
      unfold Points
      rw [Function.update_of_ne hne]
      exact h.aim k _ f hw hf hm l hl
    by_cases hin : s.ctl.surfaces[k].counter ∈ out.counters
    · obtain ⟨j, hj⟩ := List.getElem?_of_mem hin
      rw [g3.1 j hj, looksOf_add _ _ _ _ _ _ (hI.lists _ hmem)] at hl
      rcases List.mem_append.1 hl with hl | hl
      · exact hold l hl
      · rw [List.mem_singleton] at hl
        subst hl
        rw [o1, List.getElem?_map] at hj
        cases hx : (Beams.lastN c.pulses run)[j]? with
        | none => rw [hx] at hj; cases hj
        | some x =>
          rw [hx] at hj
          have hxm : x ∈ Beams.lastN c.pulses run := List.mem_of_getElem? hx
          have hxz := hsubz.subset hxm
          obtain ⟨w, i⟩ := x
          rw [List.mem_zipIdx_iff_getElem?] at hxz
          dsimp only at hxz
          have hcw : w.counter = s.ctl.surfaces[k].counter := by simpa using hj
          have hik : i = k := by
            have n1 := hI.nodup
            obtain ⟨hi, hwi⟩ := List.getElem?_eq_some_iff.1 hxz
            refine (List.Nodup.getElem_inj_iff n1 (hi := by simpa using hi) (hj := by simpa using hk)).1 ?_
            simp only [List.getElem_map]
            rw [hwi, hcw]
          subst hik
          have hvis' := hvis _ ((List.drop_sublist _ _).subset hxm)
          have ha : out.angles[j]? = some (ang (w, i)) := by
            rw [o2, List.getElem?_map, hx]; rfl
          refine ⟨ang (w, i), ?_, ?_⟩
          · simp only [Function.update_self, Nat.zero_add]
            exact ha
          · dsimp only
            unfold Beams.Visible at hvis'
            rw [hang] at hvis' ⊢
            dsimp only at hvis' ⊢
            unfold angle at hvis' ⊢
            rw [hf] at hvis' ⊢
            simp only [Option.bind_some] at hvis' ⊢
            cases hb : Surface.beamAngle f.loc.surf (burst c (file p.counter)).sat (burst c (file p.counter)).vel with
            | none =>
              rw [hb] at hvis'
              dsimp only at hvis'
              exfalso
              linarith [hvis'.2]
            | some a =>
              rw [hb] at hvis'
              dsimp only at hvis' ⊢
              refine ⟨hb, q, ?_⟩
              cases hd : doppler c (file p.counter) with
              | none =>
                rw [hv, hd] at hvis'
                simp only [view] at hvis'
                exfalso
                linarith [hvis'.1, hvis'.2]
              | some d =>
                rw [hv, hd] at hvis'
                exact ⟨d, hq, rfl, hvis'.1, hvis'.2⟩
    · rw [g3.2 hin] at hl
      exact hold l hl

theorem loop_aim (c : Conf) (o : World) (file : ℕ → Raw) (sAt : ℕ → State) (todo : List (Pk ℝ × Bool)) :
    ∀ (done : List (Pk ℝ × Bool)) (s s' : State), Inv s → (afterInput c o file (sAt (s.ctl.k - 1))).surfs = s.surfs →
      (waiting todo).Nodup → (∀ w ∈ s.ctl.surfaces, ∀ id ∈ stackIds w, id ∉ waiting todo) → Made c file s → Sighted c file s →
      packetLoop c file done todo s = .ok s' → Sighted c file s' := by
  induction todo with
  | nil =>
    intro done s s' _ _ _ _ _ h hs
    cases hs
    exact h
  | cons x todo ih =>
    intro done s s' hI hS hnd hdis hM h hs
    obtain ⟨p, f⟩ := x
    cases f with
    | true =>
      rw [packetLoop] at hs
      exact ih _ s s' hI hS hnd hdis hM h hs
    | false =>
      rw [packetLoop] at hs
      have hw : waiting ((p, false) :: todo) = p.counter :: waiting todo := rfl
      rw [hw] at hnd hdis
      obtain ⟨b1, b2, b3⟩ := burst_sim c o file sAt s p hI hS
      have hnew : ∀ w ∈ s.ctl.surfaces, p.counter ∉ stackIds w := fun w hw hm => hdis w hw _ hm (by simp)
      have bm := fun b s1 => burst_made c file s s1 p b hI hnew hM
      have ba := fun b s1 => burst_aim c file s s1 p b hI hnew h
      cases hb : burstBeams c file s p with
      | error x => rw [hb] at hs; cases hs
      | ok x =>
        obtain ⟨seen, s1⟩ := x
        rw [hb] at hs
        dsimp only at hs
        obtain ⟨_, _, e2, e3, e4, _, _⟩ := b3 seen s1 hb
        obtain ⟨m1, m2, m3, m4, m5⟩ := bm seen s1 hb
        have ha1 := ba seen s1 hb
        cases ha : Chain.azimuth c.chain (s1.mem p.counter) with
        | error e => rw [ha] at hs; cases hs
        | ok beams =>
          rw [ha] at hs
          dsimp only at hs
          have hm : Made c file { s1 with ctl := { s1.ctl.log (.beams p.counter) with packets := done ++ (p, true) :: todo } } := by
            refine m1.of (fun w hw => Or.inl hw) rfl rfl rfl ?_ ?_
            · simp [St.log, readOf]
            · simp [St.log, calibratedOf]
          have hk : Sighted c file { s1 with ctl := { s1.ctl.log (.beams p.counter) with packets := done ++ (p, true) :: todo } } :=
            ha1.keep ⟨rfl, rfl, rfl, rfl, fun _ _ _ _ => rfl⟩
          cases seen with
          | false =>
            cases hs
            exact hk
          | true =>
            exact ih (done ++ [(p, true)])
              { s1 with ctl := { s1.ctl.log (.beams p.counter) with packets := done ++ (p, true) :: todo } } s' (e2.of rfl rfl rfl) (by
                change (afterInput c o file (sAt (s1.ctl.k - 1))).surfs = s1.surfs
                rw [e3, e4]; exact hS) (List.nodup_cons.1 hnd).2 (by
                intro w' hw' id hid
                rcases m5 w' hw' id hid with rfl | ⟨w, hw, h1⟩
                · exact (List.nodup_cons.1 hnd).1
                · intro hm
                  exact hdis w hw id h1 (by simp [hm])) hm hk hs

/-! ## The first surface -/

theorem loop_rows (x : ℝ) (es : List (Stack.Entry ℝ (ℕ → ℂ))) (off m k : ℕ) (best : Option ℝ)
    (g g' : Stack.Gathered ℝ (ℕ → ℂ)) (h : Stack.gatherLoop x es off m k best g = .ok g')
    (hg : ∀ row ∈ g.rows, ∃ e ∈ es, Stack.gatherRow x e = .ok row) :
    ∀ row ∈ g'.rows, ∃ e ∈ es, Stack.gatherRow x e = .ok row := by
  induction m generalizing k best g with
  | zero => rw [Stack.gatherLoop] at h; cases h; exact hg
  | succ m ih =>
    rw [Stack.gatherLoop] at h
    cases he : es[k + off]? with
    | none => rw [he] at h; cases h
    | some e =>
      rw [he] at h
      dsimp only at h
      cases hr : Stack.gatherRow x e with
      | error => rw [hr] at h; cases h
      | ok row =>
        rw [hr] at h
        dsimp only at h
        refine ih _ _ _ h ?_
        intro r hr'
        rcases List.mem_append.1 hr' with hr' | hr'
        · exact hg r hr'
        · rw [List.mem_singleton] at hr'
          subst hr'
          exact ⟨e, List.mem_of_getElem? he, hr⟩

/-- Each look of a result is a look of the stack. -/
theorem rows_from_looks (argsort : List ℝ → List ℕ) (round : ℝ → ℤ) (junk : ℕ → ℂ) (c : Chain.Conf)
    (bursts : ℕ → Chain.L1A) (s : Chain.Surf) (prev : ℕ) (looks : Chain.Looks) (r : Chain.Result)
    (h : Chain.surface argsort round junk c bursts s prev looks = .ok (some r)) :
    ∀ row ∈ r.gathered.rows, ∃ l ∈ looks, row.burst = l.2.2 ∧ (bursts l.2.2).angles[l.1]? = some row.beamAngle := by
  unfold Chain.surface at h
  cases h1 : Chain.entries junk c bursts looks with
  | error => rw [h1] at h; cases h
  | ok es =>
    rw [h1] at h
    dsimp only at h
    cases h2 : Stack.gather argsort c.looks (π / 2) prev es with
    | error => rw [h2] at h; cases h
    | ok g =>
      rw [h2] at h
      dsimp only at h
      split at h
      · cases h
      · have hr : r.gathered = g := by
          split at h
          · cases h
          · split at h
            · cases h
            · split at h
              · cases h
              · cases h; rfl
        rw [hr]
        intro row hrow
        have h3 : ∀ row ∈ g.rows, ∃ e ∈ es, Stack.gatherRow (π / 2) e = .ok row := by
          unfold Stack.gather at h2
          cases hw : Stack.window argsort c.looks (π / 2) es with
          | error => rw [hw] at h2; cases h2
          | ok w =>
            rw [hw] at h2
            exact loop_rows _ es _ _ _ _ _ g h2 (by simp)
        obtain ⟨e, he, hrow'⟩ := h3 row hrow
        obtain ⟨l, hl, beams, hb, rfl⟩ := Chain.entries_mem junk c bursts looks es h1 e he
        unfold Stack.gatherRow at hrow'
        split at hrow'
        · rename_i beam a hbeam ha
          cases hrow'
          exact ⟨l, hl, rfl, ha⟩
        · cases hrow'

theorem makes_aim {c : Conf} {o : World} {file : ℕ → Raw} {s : State} {w : Beams.Surf (Pk ℝ)} {rest : List (Beams.Surf (Pk ℝ))}
    {f : Surface.Surf} {fs : List Surface.Surf} {r : Chain.Result} {g : List ℝ × ℝ} (h : Sighted c file s)
    (e1 : s.ctl.surfaces = w :: rest) (e2 : s.surfs = f :: fs) (hf : f.focused = false)
    (e3 : Chain.surfaceAw c.weighting c.pattern o.argsort o.round o.junk c.chain s.mem (place f) s.closest (looksOf w) = .ok (some r)) :
    Record.Aimed c file ⟨w.counter, f.loc, r, g⟩ := by
  intro row hrow
  obtain ⟨r0, e3, e0⟩ := Chain.surfaceAw_ok_some e3
  have hrow : row ∈ r0.gathered.rows := by
    have hrow : row ∈ r.gathered.rows := hrow
    rw [e0] at hrow
    exact hrow
  obtain ⟨l, hl, b1, b2⟩ := rows_from_looks _ _ _ _ _ _ _ _ _ e3 row hrow
  obtain ⟨a, a1, a2⟩ := h.aim 0 w f (by rw [e1]; rfl) (by rw [e2]; rfl) hf l hl
  rw [b1]
  rw [a1] at b2
  cases b2
  exact a2

theorem astray_snoc (c : Conf) (file : ℕ → Raw) (l : List Record) (rec : Record) :
    astray c file (l ++ [rec]) ≤ astray c file l + 1 ∧
      (rec.Aimed c file → astray c file (l ++ [rec]) = astray c file l) := by
  unfold astray
  rw [List.countP_append]
  constructor
  · exact Nat.add_le_add_left List.countP_le_length _
  · intro h
    simp [h]

theorem moved_cons (f : Surface.Surf) (fs : List Surface.Surf) :
    movedIn (f :: fs) = movedIn fs + if f.focused = true then 1 else 0 := by
  unfold movedIn
  rw [List.countP_cons]

theorem Aim.tail {c : Conf} {file : ℕ → Raw} {s s' : State} (h : Aim c file s) (h1 : s'.ctl.surfaces = s.ctl.surfaces.tail)
    (h2 : s'.surfs = s.surfs.tail) (h3 : s'.mem = s.mem) : Aim c file s' := by
  intro k w f hw hf hm l hl
  rw [h1, List.getElem?_tail] at hw
  rw [h2, List.getElem?_tail] at hf
  rw [h3]
  exact h (k + 1) w f hw hf hm l hl

/-- What is known when a piece of the program ended early. -/
def Bounded (c : Conf) (file : ℕ → Raw) (s : State) : Prop := astray c file s.l1b ≤ if c.focusing = true then 1 else 0

theorem Sighted.bounded {c : Conf} {file : ℕ → Raw} {s : State} (h : Sighted c file s) : Bounded c file s := by
  have := h.few
  unfold moves at this
  unfold Bounded
  split at this
  · rename_i hc
    rw [if_pos hc.1]; omega
  · omega

theorem finish_aim (c : Conf) (o : World) (file : ℕ → Raw) (s : State) (h : Sighted c file s) :
    match finishSurface c o file s with
    | .ok s' => Sighted c file s'
    | .error x => Bounded c file x.state := by
  unfold finishSurface
  cases hw : s.ctl.surfaces with
  | nil => exact h.bounded
  | cons w rest =>
    cases hf : s.surfs with
    | nil => exact h.bounded
    | cons f fs =>
      dsimp only
      cases hc : Chain.surfaceAw c.weighting c.pattern o.argsort o.round o.junk c.chain s.mem (place f) s.closest (looksOf w) with
      | error e => exact h.bounded
      | ok r =>
        have hfew := h.few
        rw [hf, moved_cons] at hfew
        cases r with
        | none =>
          refine ⟨h.aim.tail (by simp [hw, St.log]) (by simp [hf]) rfl, ?_⟩
          show astray c file s.l1b + movedIn fs ≤ moves c s
          omega
        | some r =>
          dsimp only
          cases hg : sigma0 c file s.mem f r with
          | none => exact h.bounded
          | some g =>
            dsimp only
            have hbud : astray c file (s.l1b ++ [(⟨w.counter, f.loc, r, g⟩ : Record)]) + movedIn fs ≤ moves c s := by
              obtain ⟨a1, a2⟩ := astray_snoc c file s.l1b ⟨w.counter, f.loc, r, g⟩
              by_cases hfo : f.focused = true
              · rw [if_pos hfo] at hfew; omega
              · rw [if_neg hfo] at hfew
                rw [a2 (makes_aim h hw hf (by simpa using hfo) hc)]
                omega
            have hbound : astray c file (s.l1b ++ [(⟨w.counter, f.loc, r, g⟩ : Record)]) ≤ if c.focusing = true then 1 else 0 := by
              unfold moves at hbud
              split at hbud
              · rename_i hc
                rw [if_pos hc.1]; omega
              · omega
            have clear : ∀ t : State, t.ctl.surfaces = s.ctl.surfaces → t.surfs = s.surfs → t.mem = s.mem → t.alg = s.alg →
                t.l1b = s.l1b ++ [(⟨w.counter, f.loc, r, g⟩ : Record)] →
                match clearOld w t with
                | .ok s' => Sighted c file s'
                | .error x => Bounded c file x.state := by
              intro t t1 t2 t3 t4 t5
              have q := clear_ends w t
              cases hcl : clearOld w t with
              | error x =>
                rw [hcl] at q
                show astray c file x.state.l1b ≤ _
                rw [q.1, t5]
                exact hbound
              | ok s' =>
                rw [hcl] at q
                obtain ⟨q1, q2, q3, q4, q5, q6, q7⟩ := q
                have q8 : s'.surfs = t.surfs.tail ∧ s'.alg = t.alg := by
                  unfold clearOld at hcl
                  split at hcl
                  · cases hcl
                  · cases hcl; exact ⟨rfl, rfl⟩
                refine ⟨h.aim.tail (q7.trans (by rw [t1])) (q8.1.trans (by rw [t2])) (q4.trans t3), ?_⟩
                have e1 : s'.surfs = fs := by rw [q8.1, t2, hf]; rfl
                have e2 : moves c s' = moves c s := by unfold moves; rw [q8.2, t4]
                rw [q1, t5, e1, e2]
                exact hbud
            unfold writeSurface
            cases o.l1bFails ⟨w.counter, f.loc, r, g⟩ with
            | some e => exact h.bounded
            | none =>
              dsimp only
              unfold writeL1bs
              cases hskip : o.skipL1bs with
              | true =>
                simp only [if_true]
                exact clear _ rfl hf.symm rfl rfl rfl
              | false =>
                simp only [Bool.false_eq_true, if_false]
                cases o.l1bsFails ⟨w.counter, f.loc, r, g⟩ with
                | some e => exact hbound
                | none =>
                  dsimp only
                  exact clear _ rfl hf.symm rfl rfl rfl

theorem finish_new (c : Conf) (o : World) (file : ℕ → Raw) (s : State) :
    match finishSurface c o file s with
    | .ok s' => ∀ rec ∈ s'.l1b, rec ∈ s.l1b ∨ Makes c o file s rec
    | .error x => ∀ rec ∈ x.state.l1b, rec ∈ s.l1b ∨ Makes c o file s rec := by
  unfold finishSurface
  cases hw : s.ctl.surfaces with
  | nil => exact fun rec h => Or.inl h
  | cons w rest =>
    cases hf : s.surfs with
    | nil => exact fun rec h => Or.inl h
    | cons f fs =>
      dsimp only
      cases hc : Chain.surfaceAw c.weighting c.pattern o.argsort o.round o.junk c.chain s.mem (place f) s.closest (looksOf w) with
      | error e => exact fun rec h => Or.inl h
      | ok r =>
        cases r with
        | none => exact fun rec h => Or.inl h
        | some r =>
          dsimp only
          cases hg : sigma0 c file s.mem f r with
          | none => exact fun rec h => Or.inl h
          | some g =>
            dsimp only
            have new : ∀ l : List Record, l = s.l1b ++ [(⟨w.counter, f.loc, r, g⟩ : Record)] →
                ∀ rec ∈ l, rec ∈ s.l1b ∨ Makes c o file s rec := by
              rintro l rfl rec hrec
              rcases List.mem_append.1 hrec with hrec | hrec
              · exact Or.inl hrec
              · rw [List.mem_singleton] at hrec
                subst hrec
                exact Or.inr ⟨w, rest, f, fs, r, g, hw, hf, hc, hg, rfl⟩
            have clear : ∀ t : State, t.l1b = s.l1b ++ [(⟨w.counter, f.loc, r, g⟩ : Record)] →
                match clearOld w t with
                | .ok s' => ∀ rec ∈ s'.l1b, rec ∈ s.l1b ∨ Makes c o file s rec
                | .error x => ∀ rec ∈ x.state.l1b, rec ∈ s.l1b ∨ Makes c o file s rec := by
              intro t t5
              have q := clear_ends w t
              cases hcl : clearOld w t with
              | error x =>
                rw [hcl] at q
                exact new _ (q.1.trans t5)
              | ok s' =>
                rw [hcl] at q
                exact new _ (q.1.trans t5)
            unfold writeSurface
            cases o.l1bFails ⟨w.counter, f.loc, r, g⟩ with
            | some e => exact fun rec h => Or.inl h
            | none =>
              dsimp only
              unfold writeL1bs
              cases hskip : o.skipL1bs with
              | true =>
                simp only [if_true]
                exact clear _ rfl
              | false =>
                simp only [Bool.false_eq_true, if_false]
                cases o.l1bsFails ⟨w.counter, f.loc, r, g⟩ with
                | some e => exact new _ rfl
                | none =>
                  dsimp only
                  exact clear _ rfl

/-! ## Iterations -/

/-- Each record was made when the looks of the surfaces pointed at them. -/
def Born (c : Conf) (o : World) (file : ℕ → Raw) (ids : List ℕ) (l : List Record) : Prop :=
  ∀ rec ∈ l, ∃ s2, Origin c o file ids s2 rec ∧ Sighted c file s2

variable {c : Conf} {o : World} {file : ℕ → Raw} {s0 : State} {its : List (Item ℝ)}

theorem surface_aim {s1 : State} (hnd : (itemIds its).Nodup) (h : Mid its s1)
    (hS : afterInput c o file (stateAt c o file s0 (s1.ctl.k - 1)) = s1) (hm : Made c file s1) (ha : Sighted c file s1)
    (hb : Born c o file (itemIds its) s1.l1b) :
    match surfacePhase c o file s1 with
    | .ok s' => Sighted c file s' ∧ Born c o file (itemIds its) s'.l1b
    | .error x => Bounded c file x.state ∧ Born c o file (itemIds its) x.state.l1b := by
  unfold surfacePhase
  by_cases hc : s1.ctl.surfaceProcessing = true ∨ minSurfs ≤ s1.ctl.surfaces.length ∨ s1.ctl.gapProcessing = true
  · rw [if_pos hc]
    cases hw : s1.ctl.surfaces with
    | nil => exact ⟨ha.bounded, hb⟩
    | cons w rest =>
      dsimp only
      obtain ⟨n1, n2⟩ := h.apart hnd
      have q0 := loop_writes c file s1.ctl.packets [] s1.begun
      have q1 := fun s2 => loop_aim c o file (stateAt c o file s0) s1.ctl.packets [] s1.begun s2 (h.inv.of rfl rfl rfl) (by
        change (afterInput c o file (stateAt c o file s0 (s1.ctl.k - 1))).surfs = s1.surfs
        rw [hS]) n1 n2 (hm.of (fun w hw => Or.inl hw) rfl rfl rfl rfl rfl)
        (ha.keep (s' := s1.begun) ⟨rfl, rfl, rfl, rfl, fun _ _ _ _ => rfl⟩)
      have q2 := fun s2 => loop_made c o file (stateAt c o file s0) s1.ctl.packets [] s1.begun s2 (h.inv.of rfl rfl rfl) (by
        change (afterInput c o file (stateAt c o file s0 (s1.ctl.k - 1))).surfs = s1.surfs
        rw [hS]) n1 n2 (hm.of (fun w hw => Or.inl hw) rfl rfl rfl rfl rfl)
      have q3 := fun s2 => mid_loop (s2 := s2) h hS
      revert q0 q1 q2 q3
      cases packetLoop c file [] s1.ctl.packets s1.begun with
      | error x =>
        rintro ⟨r1, r2, r3⟩ _ _ _
        dsimp only
        unfold Bounded
        rw [r1]
        exact ⟨ha.bounded, hb⟩
      | ok s2 =>
        rintro ⟨r1, _⟩ q1 q2 q3
        dsimp only
        have a1 := q1 s2 rfl
        have a2 := (q2 s2 rfl).1
        have a3 := q3 s2 rfl
        have new : ∀ l : List Record, (∀ rec ∈ l, rec ∈ s2.l1b ∨ Makes c o file s2 rec) → Born c o file (itemIds its) l := by
          intro l hl rec hrec
          rcases hl rec hrec with h1 | h1
          · rw [r1] at h1
            exact hb rec h1
          · exact ⟨s2, ⟨a2, a3.inv, a3.known hnd, h1⟩, a1⟩
        have f1 := finish_aim c o file s2 a1
        have f2 := finish_new c o file s2
        revert f1 f2
        cases finishSurface c o file s2 with
        | error x => exact fun f1 f2 => ⟨f1, new _ f2⟩
        | ok s' => exact fun f1 f2 => ⟨f1, new _ f2⟩
  · rw [if_neg hc]
    exact ⟨ha, hb⟩

theorem end_aim (s : State) (h : Sighted c file s) :
    match endPhase s with
    | .ok s' => Sighted c file s'
    | .error x => Bounded c file x.state := by
  unfold endPhase
  cases ht : Process.endPhase s.ctl with
  | error x =>
    unfold Process.endPhase at ht
    split at ht
    · split at ht
      · dsimp only at ht
        split at ht
        · cases ht
        · cases ht; exact h.bounded
      · cases ht
    · cases ht
  | ok t =>
    unfold Process.endPhase at ht
    split at ht
    · split at ht
      · dsimp only at ht
        split at ht
        · cases ht
          exact h.keep ⟨rfl, rfl, rfl, rfl, fun _ _ _ _ => rfl⟩
        · cases ht
      · cases ht
        exact h.keep ⟨rfl, rfl, rfl, rfl, fun _ _ _ _ => rfl⟩
    · cases ht
      exact h.keep ⟨rfl, rfl, rfl, rfl, fun _ _ _ _ => rfl⟩

theorem Sighted.begin {s : State} (h : Sighted c file s) : Sighted c file (beginIteration o s) := by
  refine h.keep ?_
  unfold beginIteration
  dsimp only
  cases o.cancelled s.ctl.k <;> exact ⟨rfl, rfl, rfl, rfl, fun _ _ _ _ => rfl⟩

theorem iteration_aim {s : State} (hnd : (itemIds its).Nodup) (h : Good c o file s0 its s) (hr : s.ctl.running = true)
    (hm : Made c file s) (ha : Sighted c file s) (hb : Born c o file (itemIds its) s.l1b) :
    match step c o file s with
    | .ok s' => Sighted c file s' ∧ Born c o file (itemIds its) s'.l1b
    | .error x => Bounded c file x.state ∧ Born c o file (itemIds its) x.state.l1b := by
  unfold step
  have q1 := input_writes c file (beginIteration o s)
  have q2 := fun b s1 => h.input (b := b) (s1 := s1) hr
  have hst : ∀ w ∈ (beginIteration o s).ctl.surfaces, ∀ id ∈ stackIds w, id ∈ readOf (beginIteration o s).ctl.trace :=
    fun w hw id hid => (h.begin.held w hw id hid).2.2.1
  have q3 := fun b s1 => input_made c file (itemIds its) hnd (beginIteration o s) s1 b h.begin.ids hst hm.begin
  have q4 := fun b s1 => input_aim c file (itemIds its) hnd (beginIteration o s) s1 b h.begin.ids hst h.begin.inv ha.begin
  revert q1 q2 q3 q4
  cases inputPhase c file (beginIteration o s) with
  | error x =>
    rintro ⟨r1, r2, r3⟩ _ _ _
    dsimp only
    unfold Bounded
    rw [r1]
    exact ⟨ha.bounded, hb⟩
  | ok x =>
    obtain ⟨b, s1⟩ := x
    rintro ⟨r1, _⟩ q2 q3 q4
    have r1 : s1.l1b = s.l1b := r1
    obtain ⟨m1, m2, _⟩ := q2 b s1 rfl
    have hm1 := q3 b s1 rfl
    have ha1 := q4 b s1 rfl
    cases b with
    | true => exact ⟨ha1, by rw [r1]; exact hb⟩
    | false =>
      dsimp only
      have q5 := surface_aim hnd m1 m2 hm1 ha1 (by rw [r1]; exact hb)
      revert q5
      cases surfacePhase c o file s1 with
      | error x => exact id
      | ok s2 =>
        rintro ⟨q5, q6⟩
        have e1 := end_aim s2 q5
        have e2 := end_ends (c := c) (file := file) s2
        dsimp only
        revert e1 e2
        cases endPhase s2 with
        | error x => exact fun e1 e2 => ⟨e1, by rw [e2.1]; exact q6⟩
        | ok s' => exact fun e1 e2 => ⟨e1, by rw [e2.1]; exact q6⟩

theorem run_aim (alg : Surface.Alg) (hnd : (itemIds its).Nodup) :
    Bounded c file (run c o file (3 * its.length + 2) (start alg its)).state ∧
      Born c o file (itemIds its) (run c o file (3 * its.length + 2) (start alg its)).state.l1b := by
  have h := (run_good c o file (start alg its) its (fun s => Made c file s ∧ Sighted c file s ∧ Born c o file (itemIds its) s.l1b)
    (fun x => Bounded c file x.state ∧ Born c o file (itemIds its) x.state.l1b)
    ?_ ?_ (3 * its.length + 2) (start alg its) (good_start c o file alg its) ?_).2
  · revert h
    cases run c o file (3 * its.length + 2) (start alg its) with
    | finished s' =>
      rintro ⟨s1, _, hw, rfl⟩
      exact ⟨hw.2.1.bounded, hw.2.2⟩
    | failed e s' =>
      rintro (h | ⟨_, h⟩)
      · exact h
      · exact ⟨h.2.1.bounded, h.2.2⟩
    | nan s' => exact id
    | timeout s' => exact fun h => ⟨h.2.2.1.bounded, h.2.2.2⟩
  · intro s s' hg hw hr hs
    have q := step_ends hnd hg hr hw.1
    have q' := iteration_aim hnd hg hr hw.1 hw.2.1 hw.2.2
    rw [hs] at q q'
    exact ⟨q.2.1, q'⟩
  · intro s x hg hw hr hs
    have q := iteration_aim hnd hg hr hw.1 hw.2.1 hw.2.2
    rw [hs] at q
    exact q
  · refine ⟨⟨?_, Or.inl rfl, ?_⟩, ⟨?_, ?_⟩, ?_⟩
    · intro w hw; simp [start, Process.start] at hw
    · intro id hid; simp [start, Process.start, readOf] at hid
    · intro k w f hw; simp [start, Process.start] at hw
    · simp [start, astray, movedIn]
    · intro rec hrec; simp [start] at hrec

end Dedop.Whole
