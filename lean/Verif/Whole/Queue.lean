import Verif.Whole.Steps
import Verif.Whole.Aim

/-!
# The bursts which are kept (lemmas for C173)

The queue of bursts is emptied by the writing of a surface only if the stack of that surface begins before the stack of a surface
written earlier.
-/
namespace Dedop.Whole

open Real Process

/-- The first burst of the stack of each surface written, in the order of writing.  Not in the code: for statements about
`processor.py:351-361`. -/
def firstsOf (t : List Event) : List ℕ := t.filterMap (fun | .l1b _ (i :: _) => some i | _ => none)

theorem firstsOf_append (a b : List Event) : firstsOf (a ++ b) = firstsOf a ++ firstsOf b := List.filterMap_append

/-- Bursts not older than the stacks written are still kept, as long as the stacks begin in order. -/
structure Queued (s : State) : Prop where
  kept : (firstsOf s.ctl.trace).Pairwise (· ≤ ·) → ∀ id ∈ acceptedOf s.ctl.trace, (∀ m ∈ firstsOf s.ctl.trace, m ≤ id) →
    id ∈ s.ctl.packets.map (·.1.counter)
  known : ∀ m ∈ firstsOf s.ctl.trace, m ∈ acceptedOf s.ctl.trace
  sub : (s.ctl.packets.map (·.1.counter)).Sublist (acceptedOf s.ctl.trace)
  made : s.ctl.surfaces ≠ [] → acceptedOf s.ctl.trace ≠ []

theorem Queued.of {s s' : State} (h : Queued s) (h1 : firstsOf s'.ctl.trace = firstsOf s.ctl.trace)
    (h2 : acceptedOf s'.ctl.trace = acceptedOf s.ctl.trace)
    (h3 : s'.ctl.packets.map (·.1.counter) = s.ctl.packets.map (·.1.counter))
    (h4 : s'.ctl.surfaces ≠ [] → acceptedOf s.ctl.trace ≠ []) : Queued s' := by
  obtain ⟨a, b, c, d⟩ := h
  refine ⟨?_, ?_, ?_, ?_⟩
  · rw [h1, h2, h3]; exact a
  · rw [h1, h2]; exact b
  · rw [h2, h3]; exact c
  · rw [h2]; exact h4

/-- With no burst kept although there are surfaces, the stacks did not begin in order. -/
theorem Queued.dry {s : State} (h : Queued s) (hp : s.ctl.packets = []) (hs : s.ctl.surfaces ≠ []) :
    ¬ (firstsOf s.ctl.trace).Pairwise (· ≤ ·) := by
  intro hw
  have key : ∀ id ∈ acceptedOf s.ctl.trace, (∀ m ∈ firstsOf s.ctl.trace, m ≤ id) → False := by
    intro id h1 h2
    have := h.kept hw id h1 h2
    rw [hp] at this
    simp at this
  rcases List.eq_nil_or_concat (firstsOf s.ctl.trace) with h0 | ⟨l, a, h0⟩
  · cases ha : acceptedOf s.ctl.trace with
    | nil => exact h.made hs ha
    | cons x xs => exact key x (by rw [ha]; simp) (by rw [h0]; simp)
  · rw [List.concat_eq_append] at h0
    refine key a (h.known a (by rw [h0]; simp)) ?_
    intro m hm
    rw [h0] at hm hw
    rcases List.mem_append.1 hm with hm | hm
    · exact (List.pairwise_append.1 hw).2.2 m hm a (by simp)
    · simp at hm; omega

theorem drop_mem (l : List (Pk ℝ × Bool)) (b : ℕ) :
    (l.map (·.1.counter)).Pairwise (· < ·) → b ∈ l.map (·.1.counter) → ∀ id ∈ l.map (·.1.counter), b ≤ id →
      id ∈ (l.dropWhile (fun x => x.1.counter != b)).map (·.1.counter) := by
  induction l with
  | nil => intro _ h; simp at h
  | cons x xs ih =>
    intro hw hb id hid hle
    rw [List.map_cons, List.pairwise_cons] at hw
    by_cases hx : x.1.counter = b
    · rw [List.dropWhile_cons_of_neg (by simp [hx])]
      exact hid
    · rw [List.dropWhile_cons_of_pos (by simp [hx])]
      rw [List.map_cons, List.mem_cons] at hb hid
      have hb' : b ∈ xs.map (·.1.counter) := by
        rcases hb with hb | hb
        · exact absurd hb.symm hx
        · exact hb
      refine ih hw.2 hb' id ?_ hle
      rcases hid with hid | hid
      · have := hw.1 b hb'
        omega
      · exact hid

theorem Queued.begin {s : State} (h : Queued s) (o : World) : Queued (beginIteration o s) := by
  refine h.of ?_ ?_ ?_ ?_ <;> unfold beginIteration <;> dsimp only <;> split
  all_goals first
    | rfl
    | exact h.made
    | simp [St.log, firstsOf, acceptedOf]

theorem read_kept (c : Conf) (file : ℕ → Raw) (s s' : State) (hs : readNext c file s = .ok s') :
    firstsOf s'.ctl.trace = firstsOf s.ctl.trace ∧ acceptedOf s'.ctl.trace = acceptedOf s.ctl.trace ∧
      s'.ctl.packets = s.ctl.packets ∧ s'.ctl.surfaces = s.ctl.surfaces ∧ s'.surfs = s.surfs ∧ s.ctl.trace <+: s'.ctl.trace := by
  unfold readNext Process.readNext at hs
  cases hr : s.ctl.rest with
  | nil =>
    rw [hr] at hs
    dsimp only at hs
    cases hp : s.ctl.surfaceProcessing <;> rw [hp] at hs <;> cases hs
    refine ⟨?_, ?_, rfl, rfl, rfl, ?_⟩
    · simp [St.log, firstsOf]
    · simp [St.log, acceptedOf]
    · simp [St.log]
  | cons y rest =>
    rw [hr] at hs
    cases y with
    | failure e => cases hs
    | invalid =>
      cases hs
      refine ⟨?_, ?_, rfl, rfl, rfl, ?_⟩
      · simp [St.log, firstsOf]
      · simp [St.log, acceptedOf]
      · simp [St.log]
    | record p =>
      cases hs
      refine ⟨?_, ?_, rfl, rfl, rfl, ?_⟩
      · simp [St.log, firstsOf]
      · simp [St.log, acceptedOf]
      · simp [St.log]

/-- A burst is added at the end. -/
theorem Queued.add {s s' : State} (h : Queued s) (p : Pk ℝ) (h1 : firstsOf s'.ctl.trace = firstsOf s.ctl.trace)
    (h2 : acceptedOf s'.ctl.trace = acceptedOf s.ctl.trace ++ [p.counter])
    (h3 : s'.ctl.packets = s.ctl.packets ++ [(p, false)]) : Queued s' := by
  obtain ⟨a, b, c, d⟩ := h
  refine ⟨?_, ?_, ?_, ?_⟩
  · rw [h1, h2, h3, List.map_append]
    intro hw id hid hm
    rcases List.mem_append.1 hid with hid | hid
    · exact List.mem_append_left _ (a hw id hid hm)
    · exact List.mem_append_right _ (by simpa using hid)
  · rw [h1, h2]
    exact fun m hm => List.mem_append_left _ (b m hm)
  · rw [h2, h3, List.map_append]
    exact c.append (List.Sublist.refl _)
  · rw [h2]
    simp

theorem input_kept (c : Conf) (file : ℕ → Raw) (s s' : State) (b : Bool) (hk : Queued s)
    (h : inputPhase c file s = .ok (b, s')) : Queued s' := by
  unfold inputPhase at h
  split at h
  · split at h <;> cases h
    · exact hk.of (by simp [St.log, firstsOf]) (by simp [St.log, acceptedOf]) rfl hk.made
    · exact hk
  · have hr : ∀ s1, (if s.ctl.gapResume = true then (.ok s : Out State) else readNext c file s) = .ok s1 → Queued s1 := by
      intro s1 h1
      split at h1
      · cases h1; exact hk
      · obtain ⟨r1, r2, r3, r4, _⟩ := read_kept c file s s1 h1
        exact hk.of r1 r2 (by rw [r3]) (by rw [r4]; exact hk.made)
    revert hr h
    generalize (if s.ctl.gapResume = true then (.ok s : Out State) else readNext c file s) = r
    intro h hr
    cases r with
    | error x => cases h
    | ok s1 =>
      have hk1 := hr s1 rfl
      dsimp only at h
      split at h
      · cases h; exact hk1
      · rename_i p hp
        unfold handlePacket at h
        dsimp only at h
        split at h
        · split at h
          · cases h
          · rename_i new t hl
            cases h
            unfold surfaceLocations at hl
            dsimp only at hl
            split at hl
            · cases hl
            · cases hl
            · cases hl
              exact hk1.add p (by simp [St.log, firstsOf]) (by simp [St.log, acceptedOf]) rfl
            · cases hl
              exact hk1.add p (by simp [St.log, firstsOf]) (by simp [St.log, acceptedOf]) rfl
        · cases h
          exact hk1.of (by simp [St.log, firstsOf]) (by simp [St.log, acceptedOf]) rfl hk1.made

theorem loop_kept (c : Conf) (file : ℕ → Raw) (todo : List (Pk ℝ × Bool)) :
    ∀ (done : List (Pk ℝ × Bool)) (s s' : State), packetLoop c file done todo s = .ok s' →
      s.ctl.packets.map (·.1.counter) = (done ++ todo).map (·.1.counter) →
      firstsOf s'.ctl.trace = firstsOf s.ctl.trace ∧ acceptedOf s'.ctl.trace = acceptedOf s.ctl.trace ∧
      s'.ctl.packets.map (·.1.counter) = s.ctl.packets.map (·.1.counter) := by
  induction todo with
  | nil => intro done s s' h _; cases h; exact ⟨rfl, rfl, rfl⟩
  | cons y todo ih =>
    intro done s s' h hd
    obtain ⟨p, f⟩ := y
    cases f with
    | true =>
      rw [packetLoop] at h
      exact ih _ s s' h (by rw [hd]; simp)
    | false =>
      rw [packetLoop] at h
      unfold burstBeams at h
      cases hq : qMin c ‖(file p.counter).vel‖ with
      | error e => rw [hq] at h; cases h
      | ok q =>
        rw [hq] at h
        dsimp only at h
        cases haz : Chain.azimuth c.chain (Function.update s.mem p.counter _ p.counter) with
        | error e => rw [haz] at h; cases h
        | ok beams =>
          rw [haz] at h
          dsimp only at h
          split at h
          · obtain ⟨h1, h2, h3⟩ := ih _ _ s' h (by simp)
            refine ⟨h1.trans ?_, h2.trans ?_, h3.trans ?_⟩
            · simp [St.log, firstsOf]
            · simp [St.log, acceptedOf]
            · rw [hd]; simp
          · cases h
            refine ⟨?_, ?_, ?_⟩
            · simp [St.log, firstsOf]
            · simp [St.log, acceptedOf]
            · rw [hd]; simp

theorem finish_kept (c : Conf) (o : World) (file : ℕ → Raw) (s s' : State) (hk : Queued s) (hne : acceptedOf s.ctl.trace ≠ [])
    (hlt : (acceptedOf s.ctl.trace).Pairwise (· < ·))
    (hheld : ∀ w ∈ s.ctl.surfaces, ∀ id ∈ stackIds w, id ∈ acceptedOf s.ctl.trace)
    (h : finishSurface c o file s = .ok s') : Queued s' := by
  unfold finishSurface at h
  cases hw : s.ctl.surfaces with
  | nil => rw [hw] at h; cases h
  | cons w rest =>
    cases hf : s.surfs with
    | nil => rw [hw, hf] at h; cases h
    | cons f fs =>
      rw [hw, hf] at h
      dsimp only at h
      split at h
      · cases h
      · cases h
        exact hk.of (by simp [St.log, firstsOf]) (by simp [St.log, acceptedOf]) rfl (fun _ => hne)
      · split at h
        · cases h
        · unfold writeSurface at h
          split at h
          · cases h
          · split at h
            · cases h
            · rename_i t ht
              have hclear : ∀ t : State, t.ctl.packets = s.ctl.packets → acceptedOf t.ctl.trace = acceptedOf s.ctl.trace →
                  firstsOf t.ctl.trace = firstsOf s.ctl.trace ++ firstsOf [.l1b w.counter (stackIds w)] →
                  clearOld w t = .ok s' → Queued s' := by
                intro t t1 t2 t3 hc
                unfold clearOld at hc
                split at hc
                · cases hc
                · rename_i u hu
                  cases hc
                  cases hb : w.bursts with
                  | nil =>
                    have hst : stackIds w = [] := by unfold stackIds; rw [hb]; rfl
                    rw [hst] at t3
                    have t4 : firstsOf t.ctl.trace = firstsOf s.ctl.trace := by rw [t3]; simp [firstsOf]
                    unfold Process.clearOld at hu
                    rw [hb] at hu
                    cases hp : t.ctl.packets with
                    | nil =>
                      rw [hp] at hu
                      cases hu
                      exact hk.of t4 t2 (by rw [← t1, hp]) (fun _ => hne)
                    | cons y ys => rw [hp] at hu; cases hu
                  | cons b bs =>
                    have hst : stackIds w = b.counter :: bs.map (·.counter) := by unfold stackIds; rw [hb]; rfl
                    have hbm : b.counter ∈ acceptedOf s.ctl.trace := hheld w (by rw [hw]; simp) _ (by rw [hst]; simp)
                    have t4 : firstsOf t.ctl.trace = firstsOf s.ctl.trace ++ [b.counter] := by rw [t3, hst]; simp [firstsOf]
                    have hu' : u.packets = t.ctl.packets.dropWhile (fun x => x.1.counter != b.counter) ∧ u.trace = t.ctl.trace := by
                      unfold Process.clearOld at hu
                      rw [hb] at hu
                      cases hp : t.ctl.packets with
                      | nil => rw [hp] at hu; cases hu; exact ⟨rfl, rfl⟩
                      | cons y ys =>
                        rw [hp] at hu
                        cases hu
                        exact ⟨by rw [← hp], rfl⟩
                    obtain ⟨u1, u2⟩ := hu'
                    rw [t1] at u1
                    refine ⟨?_, ?_, ?_, ?_⟩
                    · show (firstsOf u.trace).Pairwise _ → _
                      rw [u2, t4]
                      intro hp id hid hm
                      rw [t2] at hid
                      obtain ⟨p1, _, p2⟩ := List.pairwise_append.1 hp
                      show id ∈ u.packets.map _
                      rw [u1]
                      refine drop_mem _ _ (hlt.sublist hk.sub) ?_ id ?_ (hm _ (by simp))
                      · exact hk.kept p1 _ hbm (fun m hm' => p2 m hm' _ (by simp))
                      · exact hk.kept p1 _ hid (fun m hm' => hm m (List.mem_append_left _ hm'))
                    · show ∀ m ∈ firstsOf u.trace, m ∈ acceptedOf u.trace
                      rw [u2, t4, t2]
                      intro m hm
                      rcases List.mem_append.1 hm with hm | hm
                      · exact hk.known m hm
                      · simp at hm; rw [hm]; exact hbm
                    · show (u.packets.map _).Sublist (acceptedOf u.trace)
                      rw [u1, u2, t2]
                      exact ((List.dropWhile_sublist _).map _).trans hk.sub
                    · intro _
                      show acceptedOf u.trace ≠ []
                      rw [u2, t2]
                      exact hne
              unfold writeL1bs at ht
              split at ht
              · cases ht
                refine hclear _ ?_ ?_ ?_ h
                · rfl
                · simp [St.log, acceptedOf]
                · simp [St.log, firstsOf]
              · split at ht
                · cases ht
                · cases ht
                  refine hclear _ ?_ ?_ ?_ h
                  · rfl
                  · simp [St.log, acceptedOf]
                  · simp only [St.log, firstsOf_append, List.append_assoc]
                    simp [firstsOf]

theorem step_kept {c : Conf} {o : World} {file : ℕ → Raw} {s0 : State} {its : List (Item ℝ)} (hlt : (itemIds its).Pairwise (· < ·))
    {s s' : State} (h : Good c o file s0 its s) (hr : s.ctl.running = true) (hk : Queued s) (hs : step c o file s = .ok s') : Queued s' := by
  unfold step at hs
  have hk0 := hk.begin o
  have q1 := fun b s1 => h.input (b := b) (s1 := s1) hr
  cases hin : inputPhase c file (beginIteration o s) with
  | error y => rw [hin] at hs; cases hs
  | ok y =>
    obtain ⟨b, s1⟩ := y
    rw [hin] at hs
    have hk1 := input_kept c file _ s1 b hk0 hin
    obtain ⟨m1, m2, _⟩ := q1 b s1 hin
    cases b with
    | true => cases hs; exact hk1
    | false =>
      dsimp only at hs
      cases hsp : surfacePhase c o file s1 with
      | error y => rw [hsp] at hs; cases hs
      | ok s2 =>
        rw [hsp] at hs
        dsimp only at hs
        have hk2 : Queued s2 := by
          unfold surfacePhase at hsp
          split at hsp
          · cases hw : s1.ctl.surfaces with
            | nil => rw [hw] at hsp; cases hsp
            | cons w rest =>
              rw [hw] at hsp
              dsimp only at hsp
              cases hl : packetLoop c file [] s1.ctl.packets s1.begun with
              | error y => rw [hl] at hsp; cases hsp
              | ok s3 =>
                rw [hl] at hsp
                have h3 := mid_loop (s2 := s3) m1 m2 hl
                obtain ⟨l1, l2, l3⟩ := loop_kept c file _ [] s1.begun s3 hl rfl
                have hne : acceptedOf s1.ctl.trace ≠ [] := hk1.made (by rw [hw]; simp)
                have hne3 : acceptedOf s3.ctl.trace ≠ [] := by rw [l2]; exact hne
                have hk3 : Queued s3 := hk1.of l1 l2 l3 (fun _ => hne)
                refine finish_kept c o file s3 s2 hk3 hne3 ?_ (fun w hw id hid => (h3.held w hw id hid).2.1) hsp
                have e1 : (acceptedOf s3.ctl.trace).Sublist (readOf s3.ctl.trace) := by
                  rw [h3.ids.pend]; exact List.sublist_append_left _ _
                have e2 : (readOf s3.ctl.trace).Sublist (itemIds its) := by
                  rw [← h3.ids.all]; exact List.sublist_append_left _ _
                exact hlt.sublist (e1.trans e2)
          · cases hsp; exact hk1
        unfold endPhase at hs
        split at hs
        · cases hs
        · rename_i t ht
          cases hs
          unfold Process.endPhase at ht
          split at ht
          · rename_i h0
            split at ht
            · dsimp only at ht
              split at ht
              · cases ht
                exact hk2.of (by simp [St.log, firstsOf]) (by simp [St.log, acceptedOf]) rfl hk2.made
              · cases ht
            · cases ht
              exact hk2.of rfl rfl rfl hk2.made
          · cases ht
            exact hk2

theorem start_kept (alg : Surface.Alg) (its : List (Item ℝ)) : Queued (start alg its) := by
  refine ⟨?_, ?_, ?_, ?_⟩ <;> simp [start, Process.start, firstsOf, acceptedOf]

end Dedop.Whole
