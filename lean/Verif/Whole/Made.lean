import Verif.Whole.Run
import Verif.Chain.Own
import Verif.Beams.Props

/-!
# The bursts and stacks of the whole processor (lemmas)

While a file is processed, each burst object holds the values read, calibrated as often as the trace says; each
look of a stack is a beam of its burst.
-/
namespace Dedop.Whole

open Real Process

/-! ## Specification -/

/-- A burst as read from the file, calibrated `n` times (`processor.py:192-206`). -/
noncomputable def base (c : Conf) (file : ℕ → Raw) (n id : ℕ) : Chain.L1A :=
  (calibrated c (file id))^[n] (fresh c id (file id))

/-- A burst without its beams. -/
def body (b : Chain.L1A) : Chain.L1A := { b with angles := [], trend := 0 }

/-- A look is a beam of its burst, and the number of beams fits the trend. -/
def LookOk (c : Conf) (mem : ℕ → Chain.L1A) (l : ℕ × ℤ × ℕ) : Prop :=
  l.1 < (mem l.2.2).angles.length ∧ Azimuth.TrendOk c.pulses (Chain.azBurst c.chain (mem l.2.2))

/-- Size and trend left behind by the last burst. -/
def PrevOk (n : ℕ) (size trend : ℤ) : Prop :=
  size = -1 ∨ ((trend = 0 ↔ size = n) ∧ (trend = 0 ∨ trend = 1 ∨ trend = -1))

/-- Invariant about bursts and stacks. -/
structure Made (c : Conf) (file : ℕ → Raw) (s : State) : Prop where
  looks : ∀ w ∈ s.ctl.surfaces, ∀ l ∈ looksOf w, LookOk c s.mem l
  prev : PrevOk c.pulses s.ctl.sizePrev s.ctl.trendPrev
  bodies : ∀ id ∈ readOf s.ctl.trace, body (s.mem id) = base c file ((calibratedOf s.ctl.trace).count id) id

/-! ## Lemmas -/

theorem mem_looksOf {w : Beams.Surf (Pk ℝ)} {l : ℕ × ℤ × ℕ} (h : l ∈ looksOf w) : l.2.2 ∈ stackIds w := by
  unfold looksOf at h
  obtain ⟨k, hk⟩ := List.getElem?_of_mem h
  obtain ⟨i, x, _, h2, rfl⟩ := List.getElem?_zipWith_eq_some.1 hk
  have h3 := (List.of_mem_zip (a := x.1) (b := x.2) (List.mem_of_getElem? h2)).2
  exact List.mem_map_of_mem h3

theorem looksOf_add (n : ℕ) (tr : ℤ) (size k : ℕ) (p : Pk ℝ) (w : Beams.Surf (Pk ℝ))
    (h : w.indices.length = w.bursts.length ∧ w.indicesAbs.length = w.bursts.length) :
    looksOf (Beams.addStack n tr size k p w) = looksOf w ++ [(k, Beams.absIndex n tr size k, p.counter)] := by
  unfold looksOf Beams.addStack
  dsimp only
  rw [List.zip_append h.2, List.zipWith_append (by simp [h.1, h.2])]
  rfl

theorem outer_mem {B : Type} (P : Beams.Surf B → Prop) (n : ℕ) (tr : ℤ) (size : ℕ) (p : B) (cs : List ℕ) :
    ∀ (k last : ℕ) (l : List (Beams.Surf B)), (∀ j, k ≤ j → j < k + cs.length → ∀ w, P w → P (Beams.addStack n tr size j p w)) →
      (∀ w ∈ l, P w) → ∀ w ∈ Beams.outer n tr size p k last cs l, P w := by
  have hin : ∀ k c (l : List (Beams.Surf B)), (∀ w, P w → P (Beams.addStack n tr size k p w)) → (∀ w ∈ l, P w) →
      ∀ w ∈ (Beams.inner (Beams.addStack n tr size k p) c l).1, P w := by
    intro k c l hP
    induction l with
    | nil => intro h w hw; simp [Beams.inner] at hw
    | cons x l ih =>
      intro h w hw
      unfold Beams.inner at hw
      split at hw
      · rcases List.mem_cons.1 hw with rfl | hw
        · exact hP _ (h _ (by simp))
        · exact h _ (by simp [hw])
      · rcases List.mem_cons.1 hw with rfl | hw
        · exact h _ (by simp)
        · exact ih (fun w hw => h w (by simp [hw])) w hw
  induction cs with
  | nil => intro k last l _ h; exact h
  | cons c rest ih =>
    intro k last l hP h
    unfold Beams.outer
    dsimp only
    refine ih _ _ _ (fun j h1 h2 => hP j (by omega) (by simp; omega)) ?_
    intro w hw
    rcases List.mem_append.1 hw with hw | hw
    · exact h w (List.mem_of_mem_take hw)
    · exact hin _ _ _ (hP k (by omega) (by simp)) (fun w hw => h w (List.mem_of_mem_drop hw)) w hw

theorem trend_ok (n : ℕ) (ps pt : ℤ) (size : ℕ) (h : PrevOk n ps pt) :
    (Beams.trend n ps pt size = 0 ↔ size = n) ∧
    (Beams.trend n ps pt size = 0 ∨ Beams.trend n ps pt size = 1 ∨ Beams.trend n ps pt size = -1) := by
  unfold Beams.trend
  by_cases h1 : size = n
  · rw [if_pos h1]; simp [h1]
  rw [if_neg h1]
  by_cases h2 : ps = -1 ∨ (size : ℤ) > ps
  · rw [if_pos h2]; simp [h1]
  rw [if_neg h2]
  by_cases h3 : (size : ℤ) < ps
  · rw [if_pos h3]; simp [h1]
  rw [if_neg h3]
  have h4 : ps = size := by omega
  rcases h with h | ⟨h5, h6⟩
  · omega
  · refine ⟨?_, h6⟩
    rw [h5, h4]
    exact_mod_cast Iff.rfl

theorem base_succ (c : Conf) (file : ℕ → Raw) (n id : ℕ) :
    base c file (n + 1) id = calibrated c (file id) (base c file n id) := by
  unfold base
  rw [Function.iterate_succ_apply']

theorem body_calibrated (c : Conf) (r : Raw) (b : Chain.L1A) : body (calibrated c r b) = calibrated c r (body b) := rfl

/-- Moves which keep bursts and stacks. -/
theorem Made.of {c : Conf} {file : ℕ → Raw} {s s' : State} (h : Made c file s)
    (h1 : ∀ w ∈ s'.ctl.surfaces, w ∈ s.ctl.surfaces ∨ looksOf w = []) (h2 : s'.mem = s.mem)
    (h3 : s'.ctl.sizePrev = s.ctl.sizePrev) (h4 : s'.ctl.trendPrev = s.ctl.trendPrev)
    (h5 : readOf s'.ctl.trace = readOf s.ctl.trace) (h6 : calibratedOf s'.ctl.trace = calibratedOf s.ctl.trace) :
    Made c file s' := by
  obtain ⟨a, b, d⟩ := h
  refine ⟨?_, by rw [h3, h4]; exact b, by rw [h5, h6, h2]; exact d⟩
  intro w hw l hl
  rw [h2]
  rcases h1 w hw with h | h
  · exact a w h l hl
  · rw [h] at hl; simp at hl

theorem read_made (c : Conf) (file : ℕ → Raw) (ids : List ℕ) (hnd : ids.Nodup) (s s' : State) (hi : Ids ids s.ctl)
    (hst : ∀ w ∈ s.ctl.surfaces, ∀ id ∈ stackIds w, id ∈ readOf s.ctl.trace) (h : Made c file s)
    (hs : readNext c file s = .ok s') : Made c file s' ∧ (∀ w ∈ s'.ctl.surfaces, ∀ id ∈ stackIds w, id ∈ readOf s'.ctl.trace) ∧
      ∀ p, s'.ctl.input = some p → p.counter ∈ readOf s'.ctl.trace := by
  unfold readNext Process.readNext at hs
  cases hr : s.ctl.rest with
  | nil =>
    rw [hr] at hs
    dsimp only at hs
    split at hs
    · cases hs
    · rename_i t ht
      split at ht
      · cases ht
        cases hs
        have e1 : readOf (s.ctl.trace ++ [.endOfInput]) = readOf s.ctl.trace := by rw [readOf_append]; simp [readOf]
        refine ⟨h.of (fun w hw => Or.inl hw) rfl rfl rfl e1 ?_, ?_, ?_⟩
        · show calibratedOf (s.ctl.trace ++ [.endOfInput]) = _
          rw [calibratedOf_append]; simp [calibratedOf]
        · show ∀ w ∈ s.ctl.surfaces, ∀ id ∈ stackIds w, id ∈ readOf (s.ctl.trace ++ [.endOfInput])
          rw [e1]; exact hst
        · intro p hp; cases hp
      · cases ht
  | cons x rest =>
    rw [hr] at hs
    cases x with
    | failure e => cases hs
    | invalid =>
      cases hs
      have e1 : readOf (s.ctl.trace ++ [.read none] ++ [.progress]) = readOf s.ctl.trace := by
        rw [readOf_append, readOf_append]; simp [readOf]
      refine ⟨h.of (fun w hw => Or.inl hw) rfl rfl rfl e1 ?_, ?_, ?_⟩
      · show calibratedOf (s.ctl.trace ++ [.read none] ++ [.progress]) = _
        rw [calibratedOf_append, calibratedOf_append]; simp [calibratedOf]
      · show ∀ w ∈ s.ctl.surfaces, ∀ id ∈ stackIds w, id ∈ readOf (s.ctl.trace ++ [.read none] ++ [.progress])
        rw [e1]; exact hst
      · intro p hp; cases hp
    | record p =>
      cases hs
      have e1 : readOf (s.ctl.trace ++ [.read (some p.counter)] ++ [.progress]) = readOf s.ctl.trace ++ [p.counter] := by
        rw [readOf_append, readOf_append]; simp [readOf]
      have e2 : calibratedOf (s.ctl.trace ++ [.read (some p.counter)] ++ [.progress]) = calibratedOf s.ctl.trace := by
        rw [calibratedOf_append, calibratedOf_append]; simp [calibratedOf]
      have hnew : p.counter ∉ readOf s.ctl.trace := by
        have := hi.all
        rw [hr] at this
        rw [← this, List.nodup_append] at hnd
        intro hm
        exact hnd.2.2 _ hm p.counter (by simp [itemIds]) rfl
      have hacc : p.counter ∉ acceptedOf s.ctl.trace := fun hm => hnew (by rw [hi.pend]; simp [hm])
      have hgap : p.counter ∉ gapOf s.ctl.trace := fun hm => hnew (hi.gap.subset hm)
      have hcal : (calibratedOf s.ctl.trace).count p.counter = 0 := by
        rw [hi.cal, List.count_eq_zero_of_not_mem hacc, List.count_eq_zero_of_not_mem hgap]
      refine ⟨⟨?_, h.prev, ?_⟩, ?_, ?_⟩
      · intro w hw l hl
        have hne : l.2.2 ≠ p.counter := by
          intro heq
          have := hst w hw _ (mem_looksOf hl)
          rw [heq] at this
          exact hnew this
        have := h.looks w hw l hl
        unfold LookOk
        dsimp only
        rw [Function.update_of_ne hne]
        exact this
      · show ∀ id ∈ readOf (s.ctl.trace ++ [.read (some p.counter)] ++ [.progress]), body (Function.update s.mem p.counter _ id) =
          base c file ((calibratedOf (s.ctl.trace ++ [.read (some p.counter)] ++ [.progress])).count id) id
        rw [e1, e2]
        intro id hid
        by_cases he : id = p.counter
        · subst he
          rw [Function.update_self, hcal]
          rfl
        · rw [Function.update_of_ne he]
          refine h.bodies id ?_
          simpa [he] using hid
      · show ∀ w ∈ s.ctl.surfaces, ∀ id ∈ stackIds w, id ∈ readOf (s.ctl.trace ++ [.read (some p.counter)] ++ [.progress])
        rw [e1]
        intro w hw id hid
        exact List.mem_append_left _ (hst w hw id hid)
      · intro q hq
        cases hq
        show p.counter ∈ readOf (s.ctl.trace ++ [.read (some p.counter)] ++ [.progress])
        rw [e1]; simp

theorem locations_made (c : Conf) (file : ℕ → Raw) (s s' : State) (p : Pk ℝ) (force b : Bool) (h : Made c file s)
    (hs : surfaceLocations c file s p force = .ok (b, s')) : Made c file s' := by
  unfold surfaceLocations at hs
  dsimp only at hs
  split at hs
  · cases hs
  · cases hs
  · cases hs
    refine h.of (fun w hw => Or.inl hw) rfl rfl rfl ?_ ?_
    · simp [St.log, readOf]
    · simp [St.log, calibratedOf]
  · cases hs
    refine h.of ?_ rfl rfl rfl ?_ ?_
    · intro w hw
      simp only [St.log, List.mem_append, List.mem_singleton] at hw
      rcases hw with hw | rfl
      · exact Or.inl hw
      · exact Or.inr rfl
    · simp [St.log, readOf]
    · simp [St.log, calibratedOf]

theorem calibrate_made (c : Conf) (file : ℕ → Raw) (s : State) (p : Pk ℝ) (h : Made c file s) :
    Made c file { s with
      ctl := s.ctl.log (.calibrated p.counter)
      mem := Function.update s.mem p.counter (calibrated c (file p.counter) (s.mem p.counter)) } := by
  refine ⟨?_, h.prev, ?_⟩
  · intro w hw l hl
    have := h.looks w hw l hl
    unfold LookOk
    dsimp only
    by_cases he : l.2.2 = p.counter
    · rw [he, Function.update_self]
      rw [LookOk, he] at this
      exact this
    · rw [Function.update_of_ne he]; exact this
  · intro id hid
    have e1 : readOf (s.ctl.log (.calibrated p.counter)).trace = readOf s.ctl.trace := by
      simp [St.log, readOf]
    have e2 : calibratedOf (s.ctl.log (.calibrated p.counter)).trace = calibratedOf s.ctl.trace ++ [p.counter] := by
      simp [St.log, calibratedOf]
    dsimp only at hid ⊢
    rw [e1] at hid
    rw [e2, List.count_append]
    by_cases he : id = p.counter
    · subst he
      rw [Function.update_self, body_calibrated, h.bodies _ hid]
      simp [base_succ]
    · rw [Function.update_of_ne he, h.bodies id hid]
      have : List.count id [p.counter] = 0 := by simp [Ne.symm he]
      rw [this]
      rfl

theorem handle_made (c : Conf) (file : ℕ → Raw) (s s' : State) (p : Pk ℝ) (b : Bool) (h : Made c file s)
    (hs : handlePacket c file s p = .ok (b, s')) : Made c file s' := by
  unfold handlePacket at hs
  have h1 := calibrate_made c file s p h
  dsimp only at hs
  split at hs
  · split at hs
    · cases hs
    · rename_i new s1 h2
      cases hs
      have h3 := locations_made c file _ s1 p _ new ?_ h2
      · exact h3.of (fun w hw => Or.inl hw) rfl rfl rfl rfl rfl
      · exact h1.of (fun w hw => Or.inl hw) rfl rfl rfl rfl rfl
  · cases hs
    refine h1.of (fun w hw => Or.inl hw) rfl rfl rfl ?_ ?_
    · simp [St.log, readOf]
    · simp [St.log, calibratedOf]

theorem input_made (c : Conf) (file : ℕ → Raw) (ids : List ℕ) (hnd : ids.Nodup) (s s' : State) (b : Bool) (hi : Ids ids s.ctl)
    (hst : ∀ w ∈ s.ctl.surfaces, ∀ id ∈ stackIds w, id ∈ readOf s.ctl.trace) (h : Made c file s)
    (hs : inputPhase c file s = .ok (b, s')) : Made c file s' := by
  unfold inputPhase at hs
  split at hs
  · split at hs
    · cases hs
      refine h.of (fun w hw => Or.inl hw) rfl rfl rfl ?_ ?_
      · simp [St.log, readOf]
      · simp [St.log, calibratedOf]
    · cases hs; exact h
  · split at hs
    · cases hs
    · rename_i s1 h1
      have hm : Made c file s1 := by
        split at h1
        · cases h1; exact h
        · exact (read_made c file ids hnd s s1 hi hst h h1).1
      split at hs
      · cases hs; exact hm
      · exact handle_made c file s1 s' _ b hm hs

/-- Ids of the bursts of a list of packets which were not processed. -/
def waiting (l : List (Pk ℝ × Bool)) : List ℕ := (l.filter (fun x => !x.2)).map (·.1.counter)

theorem burst_made (c : Conf) (file : ℕ → Raw) (s s' : State) (p : Pk ℝ) (b : Bool) (hI : Inv s)
    (hnew : ∀ w ∈ s.ctl.surfaces, p.counter ∉ stackIds w) (h : Made c file s)
    (hs : burstBeams c file s p = .ok (b, s')) : Made c file s' ∧ s'.ctl.trace = s.ctl.trace ∧ s'.l1b = s.l1b ∧
      s'.l1bs = s.l1bs ∧ ∀ w' ∈ s'.ctl.surfaces, ∀ id ∈ stackIds w', id = p.counter ∨ ∃ w ∈ s.ctl.surfaces, id ∈ stackIds w := by
  unfold burstBeams at hs
  cases hq : qMin c ‖(file p.counter).vel‖ with
  | error e => rw [hq] at hs; cases hs
  | ok q =>
    rw [hq] at hs
    cases hs
    obtain ⟨hlen, hle⟩ := Beams.seen_at_most_pulses c.pulses (view q (doppler c (file p.counter)))
      (fun x => angle (burst c (file p.counter)) (view q (doppler c (file p.counter))) s.surfs x.2)
      (fun x : Beams.Surf (Pk ℝ) × ℕ => x.1.counter) (fun x => x.2 == 0) s.ctl.surfaces.zipIdx
    set out := Beams.beamAngles c.pulses (view q (doppler c (file p.counter)))
          (fun x => angle (burst c (file p.counter)) (view q (doppler c (file p.counter))) s.surfs x.2)
          (fun x : Beams.Surf (Pk ℝ) × ℕ => x.1.counter) (fun x => x.2 == 0) s.ctl.surfaces.zipIdx
    have ht := trend_ok c.pulses s.ctl.sizePrev s.ctl.trendPrev out.angles.length h.prev
    set tr := Beams.trend c.pulses s.ctl.sizePrev s.ctl.trendPrev out.angles.length
    refine ⟨⟨?_, ?_, ?_⟩, rfl, rfl, rfl, ?_⟩
    · intro w hw l hl
      set mem := Function.update s.mem p.counter { s.mem p.counter with angles := out.angles, trend := tr } with hmem
      have key := outer_mem (fun w => (w.indices.length = w.bursts.length ∧ w.indicesAbs.length = w.bursts.length) ∧
          ∀ l ∈ looksOf w, LookOk c mem l) c.pulses tr out.angles.length p out.counters 0 0 s.ctl.surfaces ?_ ?_ w hw
      · exact key.2 l hl
      · intro j _ hj w ⟨hw1, hw2⟩
        refine ⟨by simp [Beams.addStack, hw1.1, hw1.2], ?_⟩
        rw [looksOf_add _ _ _ _ _ _ hw1]
        intro l hl
        rcases List.mem_append.1 hl with hl | hl
        · exact hw2 l hl
        · rw [List.mem_singleton] at hl
          subst hl
          refine ⟨?_, ?_⟩
          · simp only [hmem, Function.update_self]
            omega
          · simp only [hmem, Function.update_self]
            exact ⟨hle, ht.1, ht.2⟩
      · intro w hw
        refine ⟨hI.lists w hw, fun l hl => ?_⟩
        have hne : l.2.2 ≠ p.counter := by
          intro he
          exact hnew w hw (he ▸ mem_looksOf hl)
        have := h.looks w hw l hl
        unfold LookOk
        rw [hmem, Function.update_of_ne hne]
        exact this
    · right
      refine ⟨?_, ht.2⟩
      dsimp only
      rw [ht.1]
      exact_mod_cast Iff.rfl
    · intro id hid
      dsimp only
      by_cases he : id = p.counter
      · subst he
        rw [Function.update_self]
        exact h.bodies _ hid
      · rw [Function.update_of_ne he]
        exact h.bodies id hid
    · intro w' hw' id hid
      refine outer_mem (fun w' => ∀ id ∈ stackIds w', id = p.counter ∨ ∃ w ∈ s.ctl.surfaces, id ∈ stackIds w) c.pulses tr
        out.angles.length p out.counters 0 0 s.ctl.surfaces ?_ ?_ w' hw' id hid
      · intro j _ _ w hw id hid
        simp only [stackIds, Beams.addStack, List.map_append, List.mem_append, List.map_cons, List.map_nil,
          List.mem_singleton] at hid
        rcases hid with hid | hid
        · exact hw id hid
        · exact Or.inl hid
      · intro w hw id hid
        exact Or.inr ⟨w, hw, hid⟩

theorem loop_made (c : Conf) (o : World) (file : ℕ → Raw) (sAt : ℕ → State) (todo : List (Pk ℝ × Bool)) :
    ∀ (done : List (Pk ℝ × Bool)) (s s' : State), Inv s → (afterInput c o file (sAt (s.ctl.k - 1))).surfs = s.surfs →
      (waiting todo).Nodup → (∀ w ∈ s.ctl.surfaces, ∀ id ∈ stackIds w, id ∉ waiting todo) → Made c file s →
      packetLoop c file done todo s = .ok s' → Made c file s' ∧ s'.l1b = s.l1b ∧ s'.l1bs = s.l1bs := by
  induction todo with
  | nil =>
    intro done s s' _ _ _ _ h hs
    cases hs
    exact ⟨h, rfl, rfl⟩
  | cons x todo ih =>
    intro done s s' hI hS hnd hdis h hs
    obtain ⟨p, f⟩ := x
    cases f with
    | true =>
      rw [packetLoop] at hs
      exact ih _ s s' hI hS hnd hdis h hs
    | false =>
      rw [packetLoop] at hs
      have hw : waiting ((p, false) :: todo) = p.counter :: waiting todo := rfl
      rw [hw] at hnd hdis
      obtain ⟨b1, b2, b3⟩ := burst_sim c o file sAt s p hI hS
      have bm := fun b s1 => burst_made c file s s1 p b hI
        (fun w hw hm => hdis w hw _ hm (by simp)) h
      cases hb : burstBeams c file s p with
      | error x => rw [hb] at hs; cases hs
      | ok x =>
        obtain ⟨seen, s1⟩ := x
        rw [hb] at hs
        dsimp only at hs
        obtain ⟨_, _, e2, e3, e4, _, _⟩ := b3 seen s1 hb
        obtain ⟨m1, m2, m3, m4, m5⟩ := bm seen s1 hb
        cases ha : Chain.azimuth c.chain (s1.mem p.counter) with
        | error e => rw [ha] at hs; cases hs
        | ok beams =>
          rw [ha] at hs
          dsimp only at hs
          have hm : Made c file { s1 with ctl := { s1.ctl.log (.beams p.counter) with packets := done ++ (p, true) :: todo } } := by
            refine m1.of (fun w hw => Or.inl hw) rfl rfl rfl ?_ ?_
            · simp [St.log, readOf]
            · simp [St.log, calibratedOf]
          cases seen with
          | false =>
            cases hs
            exact ⟨hm, m3, m4⟩
          | true =>
            have := ih (done ++ [(p, true)])
              { s1 with ctl := { s1.ctl.log (.beams p.counter) with packets := done ++ (p, true) :: todo } } s' (e2.of rfl rfl rfl) (by
                change (afterInput c o file (sAt (s1.ctl.k - 1))).surfs = s1.surfs
                rw [e3, e4]; exact hS) (List.nodup_cons.1 hnd).2 (by
                intro w' hw' id hid
                rcases m5 w' hw' id hid with rfl | ⟨w, hw, h1⟩
                · exact (List.nodup_cons.1 hnd).1
                · intro hm
                  exact hdis w hw id h1 (by simp [hm])) hm hs
            exact ⟨this.1, this.2.1.trans m3, this.2.2.trans m4⟩

end Dedop.Whole
