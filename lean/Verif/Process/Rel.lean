import Verif.Process.Model

/-!
# The moves of the processing loop as relations (lemmas)

The phases of an iteration, described by relations between the states before and after, which the proofs
of the invariants analyse by cases.
-/
namespace Dedop.Process

variable {R : Type} [Field R] [LinearOrder R]

/-- Result of a piece of program satisfies `Q`, or raised in a state satisfying `E`. -/
def Post {A : Type} (r : Res R A) (Q : A → Prop) (E : PyErr → St R → Prop) : Prop :=
  match r with
  | .ok a => Q a
  | .error (e, s) => E e s

/-- Something outside the loop's own code raises `e`. -/
def Raises (env : Env R) (e : PyErr) : Prop :=
  (∃ s p, env.calFails s p = some e) ∨ (∃ s, env.found s = .error e) ∨
  (∃ s p, env.azimuthFails s p = some e) ∨ (∃ s, env.gatherFails s = some e) ∨
  (∃ s, env.algorithmFails s = some e) ∨ (∃ s, env.l1bFails s = some e) ∨
  (∃ s, env.l1bsFails s = some e)

/-! ## Beams of a burst -/

/-- How one burst changes a surface: it keeps its counter and gains at most this burst. -/
def Gains (p : Pk R) (s s' : Beams.Surf (Pk R)) : Prop :=
  s'.counter = s.counter ∧ (s' = s ∨ s'.bursts = s.bursts ++ [p])

theorem Gains.refl (p : Pk R) (s : Beams.Surf (Pk R)) : Gains p s s := ⟨rfl, Or.inl rfl⟩

theorem inner_gains (p : Pk R) (n : Nat) (tr : Int) (size k c : Nat) (l : List (Beams.Surf (Pk R))) :
    List.Forall₂ (Gains p) l (Beams.inner (Beams.addStack n tr size k p) c l).1 ∧
    (Beams.inner (Beams.addStack n tr size k p) c l).2 ≤ l.length ∧
    (Beams.inner (Beams.addStack n tr size k p) c l).1.drop
      (Beams.inner (Beams.addStack n tr size k p) c l).2 =
      l.drop (Beams.inner (Beams.addStack n tr size k p) c l).2 := by
  induction l with
  | nil => simp [Beams.inner]
  | cons s rest ih =>
    unfold Beams.inner
    split
    · refine ⟨List.Forall₂.cons ⟨rfl, Or.inr rfl⟩ ?_, by simp, by simp⟩
      exact List.forall₂_same.2 (fun x _ => Gains.refl p x)
    · obtain ⟨h1, h2, h3⟩ := ih
      refine ⟨List.Forall₂.cons (Gains.refl p s) h1, ?_, ?_⟩
      · simp only [List.length_cons]; omega
      · simpa using h3

theorem outer_gains (p : Pk R) (n : Nat) (tr : Int) (size : Nat) (cs : List Nat) :
    ∀ (k last : Nat) (l0 l : List (Beams.Surf (Pk R))), List.Forall₂ (Gains p) l0 l →
      l.drop last = l0.drop last →
      List.Forall₂ (Gains p) l0 (Beams.outer n tr size p k last cs l) := by
  induction cs with
  | nil => intro k last l0 l h _; exact h
  | cons c rest ih =>
    intro k last l0 l h hd
    unfold Beams.outer
    simp only
    obtain ⟨g1, g2, g3⟩ := inner_gains p n tr size k c (l.drop last)
    have hlen := h.length_eq
    apply ih
    · rw [← List.take_append_drop last l0]
      refine List.rel_append (List.forall₂_take last h) ?_
      rw [← hd]
      exact g1
    · rw [List.drop_append, List.drop_eq_nil_of_le (by simp), List.nil_append]
      have e : last + (Beams.inner (Beams.addStack n tr size k p) c (l.drop last)).2 - (l.take last).length =
          (Beams.inner (Beams.addStack n tr size k p) c (l.drop last)).2 + (last - l.length) := by
        simp only [List.length_take]; omega
      rw [e]
      by_cases hl : last ≤ l.length
      · rw [show last - l.length = 0 by omega, Nat.add_zero, g3, List.drop_drop, ← List.drop_drop, hd, List.drop_drop]
      · have hz : l.drop last = [] := List.drop_eq_nil_of_le (by omega)
        have hz0 : l0.drop last = [] := by rw [← hd]; exact hz
        have hlen2 := g1.length_eq
        have : (Beams.inner (Beams.addStack n tr size k p) c (l.drop last)).1 = [] :=
          List.length_eq_zero_iff.1 (by rw [← hlen2, hz]; rfl)
        rw [this]
        simp only [List.drop_nil]
        rw [← List.drop_drop, hz0]
        simp

theorem burstBeams_spec (env : Env R) (s : St R) (p : Pk R) :
    List.Forall₂ (Gains p) s.surfaces (burstBeams env s p).2.surfaces ∧
    (burstBeams env s p).2 = { s with
      sizePrev := (burstBeams env s p).2.sizePrev
      trendPrev := (burstBeams env s p).2.trendPrev
      surfaces := (burstBeams env s p).2.surfaces } := by
  refine ⟨?_, rfl⟩
  unfold burstBeams
  exact outer_gains p _ _ _ _ 0 0 _ _ (List.forall₂_same.2 (fun x _ => Gains.refl p x)) rfl

/-! ## The loop over the packets -/

/-- How processing some bursts changes a surface. -/
def GainsAll (new : List (Pk R)) (s s' : Beams.Surf (Pk R)) : Prop :=
  s'.counter = s.counter ∧ ∃ added, s'.bursts = s.bursts ++ added ∧ added.Sublist new

/-- Effect of the packet loop: the bursts `new`, the first ones not yet processed, are processed. -/
structure LoopSpec (todo : List (Pk R × Bool)) (s s' : St R) (new : List (Pk R)) (n : Nat) : Prop where
  surfaces : List.Forall₂ (GainsAll new) s.surfaces s'.surfaces
  trace : s'.trace = s.trace ++ new.map (fun p => Event.beams p.counter)
  new : new.map (fun p => (p, false)) = (todo.take n).filter (fun x => !x.2)
  frame : s' = { s with surfaces := s'.surfaces, trace := s'.trace, packets := s'.packets
                        sizePrev := s'.sizePrev, trendPrev := s'.trendPrev }

theorem forall₂_gainsAll_cons {p : Pk R} {new : List (Pk R)} {a b c : List (Beams.Surf (Pk R))}
    (h1 : List.Forall₂ (Gains p) a b) (h2 : List.Forall₂ (GainsAll new) b c) :
    List.Forall₂ (GainsAll (p :: new)) a c := by
  induction h1 generalizing c with
  | nil => cases h2; exact List.Forall₂.nil
  | cons hx _ ih =>
    cases h2 with
    | cons hy ht =>
      refine List.Forall₂.cons ?_ (ih ht)
      obtain ⟨e1, h1⟩ := hx
      obtain ⟨e2, added, h2, hs⟩ := hy
      refine ⟨e2.trans e1, ?_⟩
      rcases h1 with rfl | h1
      · exact ⟨added, h2, hs.cons _⟩
      · exact ⟨p :: added, by rw [h2, h1]; simp, hs.cons_cons _⟩

theorem gainsAll_nil (l : List (Beams.Surf (Pk R))) : List.Forall₂ (GainsAll []) l l :=
  List.forall₂_same.2 (fun x _ => ⟨rfl, [], by simp, List.Sublist.refl _⟩)

theorem packetLoop_spec (env : Env R) (todo : List (Pk R × Bool)) :
    ∀ (done : List (Pk R × Bool)) (s : St R), s.packets = done ++ todo →
      Post (packetLoop env done todo s)
        (fun s' => ∃ new n, LoopSpec todo s s' new n ∧
          s'.packets = done ++ ((todo.take n).map (fun x => (x.1, true)) ++ todo.drop n))
        (fun e s' => Raises env e ∧
          ∃ new n, LoopSpec todo s s' new n ∧ s'.packets.map (·.1) = s.packets.map (·.1)) := by
  induction todo with
  | nil =>
    intro done s hp
    exact ⟨[], 0, ⟨gainsAll_nil _, by simp, by simp, rfl⟩, by simpa using hp⟩
  | cons x todo ih =>
    intro done s hp
    obtain ⟨p, f⟩ := x
    cases f with
    | true =>
      rw [packetLoop]
      have := ih (done ++ [(p, true)]) s (by simpa using hp)
      revert this
      unfold Post
      cases packetLoop env (done ++ [(p, true)]) todo s with
      | ok s' =>
        rintro ⟨new, n, ⟨h1, h2, h3, h4⟩, h5⟩
        exact ⟨new, n + 1, ⟨h1, h2, by simpa using h3, h4⟩, by simpa using h5⟩
      | error x =>
        rintro ⟨hx, new, n, ⟨h1, h2, h3, h4⟩, h5⟩
        exact ⟨hx, new, n + 1, ⟨h1, h2, by simpa using h3, h4⟩, h5⟩
    | false =>
      rw [packetLoop]
      obtain ⟨hs, hf⟩ := burstBeams_spec env s p
      set r := burstBeams env s p with hr
      have base : ∀ (pks : List (Pk R × Bool)),
          LoopSpec ((p, false) :: todo) s { r.2.log (.beams p.counter) with packets := pks } [p] 1 := by
        intro pks
        refine ⟨?_, ?_, by simp, ?_⟩
        · exact forall₂_gainsAll_cons hs (gainsAll_nil _)
        · have : r.2.trace = s.trace := by rw [hf]
          simp [St.log, this]
        · simp only [St.log]
          rw [hf]
      have hpk : r.2.packets = s.packets := by rw [hf]
      cases hz : env.azimuthFails (r.2.log (.beams p.counter)) p with
      | some e =>
        simp only [call, hz]
        refine ⟨Or.inr (Or.inr (Or.inl ⟨_, _, hz⟩)), [p], 1, ?_, ?_⟩
        · have := base (r.2.log (.beams p.counter)).packets
          exact this
        · simp [St.log, hpk]
      | none =>
        simp only [call, hz]
        set s2 : St R := { r.2.log (.beams p.counter) with packets := done ++ (p, true) :: todo } with hs2
        by_cases hw : r.1 = true
        · rw [if_pos hw]
          have := ih (done ++ [(p, true)]) s2 (by simp [hs2])
          have hb := base (done ++ (p, true) :: todo)
          revert this
          unfold Post
          have comb : ∀ s' new n, LoopSpec todo s2 s' new n →
              LoopSpec ((p, false) :: todo) s s' (p :: new) (n + 1) := by
            rintro s' new n ⟨h1, h2, h3, h4⟩
            refine ⟨forall₂_gainsAll_cons hs h1, ?_, by simpa using h3, ?_⟩
            · rw [h2, hb.trace]; simp
            · rw [h4]
              have := hb.frame
              rw [← hs2] at this
              rw [this]
          cases packetLoop env (done ++ [(p, true)]) todo s2 with
          | ok s' =>
            rintro ⟨new, n, h, h5⟩
            exact ⟨p :: new, n + 1, comb s' new n h, by simpa using h5⟩
          | error x =>
            rintro ⟨hx, new, n, h, h5⟩
            refine ⟨hx, p :: new, n + 1, comb x.2 new n h, ?_⟩
            rw [h5, hp, hs2]; simp
        · rw [if_neg hw]
          exact ⟨[p], 1, base _, by simp [hs2]⟩

/-! ## The phases -/

/-- The state in which the packet loop runs. -/
def St.begun (s : St R) : St R := { s with surfaceProcessing := true }

/-- Effect of the surface phase. -/
inductive SurfRel (env : Env R) (s : St R) : St R → Prop
  | idle (h : ¬(s.surfaceProcessing = true ∨ minSurfs ≤ s.surfaces.length ∨ s.gapProcessing = true)) :
      SurfRel env s s
  | dropped (h : s.surfaceProcessing = true ∨ minSurfs ≤ s.surfaces.length ∨ s.gapProcessing = true)
      (s1 : St R) (new : List (Pk R)) (n : Nat) (loop : LoopSpec s.packets s.begun s1 new n)
      (pk : s1.packets = (s.packets.take n).map (fun x => (x.1, true)) ++ s.packets.drop n)
      (w : Beams.Surf (Pk R)) (rest : List (Beams.Surf (Pk R))) (hw : s1.surfaces = w :: rest)
      (few : min w.bursts.length env.nLooks < env.nLooks / 2) :
      SurfRel env s ({ s1 with surfaces := rest }.log (.dropped w.counter (stackIds w)))
  | written (h : s.surfaceProcessing = true ∨ minSurfs ≤ s.surfaces.length ∨ s.gapProcessing = true)
      (s1 : St R) (new : List (Pk R)) (n : Nat) (loop : LoopSpec s.packets s.begun s1 new n)
      (pk : s1.packets = (s.packets.take n).map (fun x => (x.1, true)) ++ s.packets.drop n)
      (w : Beams.Surf (Pk R)) (rest : List (Beams.Surf (Pk R))) (hw : s1.surfaces = w :: rest)
      (enough : ¬ min w.bursts.length env.nLooks < env.nLooks / 2)
      (pks : List (Pk R × Bool)) (suffix : pks <:+ s1.packets) :
      SurfRel env s { s1 with surfaces := rest, packets := pks
                              trace := s1.trace ++ (.l1b w.counter (stackIds w)) ::
                                (if env.skipL1bs then [] else [.l1bs w.counter]) }

/-- The states in which the surface phase may raise. -/
inductive SurfErr (env : Env R) (s : St R) : PyErr → St R → Prop
  | empty (h : s.surfaceProcessing = true ∨ minSurfs ≤ s.surfaces.length ∨ s.gapProcessing = true)
      (hs : s.surfaces = []) : SurfErr env s .indexError s.begun
  | loop (e : PyErr) (he : Raises env e) (s1 : St R) (new : List (Pk R)) (n : Nat) (loop : LoopSpec s.packets s.begun s1 new n) :
      SurfErr env s e s1
  | writing (e : PyErr) (s1 : St R) (new : List (Pk R)) (n : Nat)
      (loop : LoopSpec s.packets s.begun s1 new n)
      (w : Beams.Surf (Pk R)) (rest : List (Beams.Surf (Pk R))) (hw : s1.surfaces = w :: rest)
      (enough : ¬ min w.bursts.length env.nLooks < env.nLooks / 2)
      (he : Raises env e ∨ (e = .indexError ∧ w.bursts = []))
      (t : List Event) (ht : t = [.l1b w.counter (stackIds w)] ∨
        (env.skipL1bs = false ∧ t = [.l1b w.counter (stackIds w), .l1bs w.counter])) :
      SurfErr env s e { s1 with trace := s1.trace ++ t }

theorem surfacePhase_rel (env : Env R) (s : St R) :
    Post (surfacePhase env s) (SurfRel env s) (SurfErr env s) := by
  unfold surfacePhase
  by_cases hc : s.surfaceProcessing = true ∨ minSurfs ≤ s.surfaces.length ∨ s.gapProcessing = true
  swap
  · rw [if_neg hc]; exact SurfRel.idle hc
  rw [if_pos hc]
  simp only
  cases hs : s.surfaces with
  | nil =>
    simp only
    have := SurfErr.empty (env := env) hc hs
    unfold St.begun at this
    rw [hs] at this
    exact this
  | cons w0 r0 =>
    simp only
    have hb : ({ s with surfaceProcessing := true } : St R) = s.begun := rfl
    have hl := packetLoop_spec env s.packets [] s.begun rfl
    revert hl
    rw [← hs]
    show Post (packetLoop env [] s.packets s.begun) _ _ → _
    have hgoal : ∀ (r : Res R (St R)), Post r (fun s' => ∃ new n, LoopSpec s.packets s.begun s' new n ∧
          s'.packets = [] ++ ((s.packets.take n).map (fun x => (x.1, true)) ++ s.packets.drop n))
        (fun e s' => Raises env e ∧ ∃ new n, LoopSpec s.packets s.begun s' new n ∧ s'.packets.map (·.1) = s.begun.packets.map (·.1)) →
        Post (match r with | .error x => Except.error x | .ok s => finishSurface env s) (SurfRel env s) (SurfErr env s) := by
      intro r hr
      cases r with
      | error x =>
        obtain ⟨hx, new, n, hl, _⟩ := hr
        exact SurfErr.loop x.1 hx x.2 new n hl
      | ok s1 =>
        obtain ⟨new, n, hl, hpk⟩ := hr
        simp only
        unfold finishSurface
        cases hgf : env.gatherFails s1 with
        | some e => exact SurfErr.loop e (Or.inr (Or.inr (Or.inr (Or.inl ⟨_, hgf⟩)))) s1 new n hl
        | none =>
          simp only [call]
          cases hs1 : s1.surfaces with
          | nil =>
            exfalso
            have := hl.surfaces.length_eq
            rw [hs1] at this
            have h2 : s.begun.surfaces = s.surfaces := rfl
            rw [h2, hs] at this
            simp at this
          | cons w rest =>
            simp only
            by_cases hfew : min w.bursts.length env.nLooks < env.nLooks / 2
            · rw [if_pos hfew]
              exact SurfRel.dropped hc s1 new n hl (by simpa using hpk) w rest hs1 hfew
            · rw [if_neg hfew]
              unfold writeSurface
              cases haf : env.algorithmFails s1 with
              | some e =>
                exact SurfErr.loop e (Or.inr (Or.inr (Or.inr (Or.inr (Or.inl ⟨_, haf⟩))))) s1 new n hl
              | none =>
                simp only [call]
                cases hlf1 : env.l1bFails s1 with
                | some e =>
                  exact SurfErr.loop e (Or.inr (Or.inr (Or.inr (Or.inr (Or.inr (Or.inl ⟨_, hlf1⟩)))))) s1 new n hl
                | none =>
                  simp only
                  unfold writeL1bs
                  by_cases hsk : env.skipL1bs = true
                  · rw [if_pos hsk]
                    simp only
                    unfold clearOld
                    split
                    · rename_i hp0
                      have hp0' : s1.packets = [] := hp0
                      have := SurfRel.written (env := env) hc s1 new n hl (by simpa using hpk) w rest hs1 hfew
                        s1.packets (List.suffix_refl _)
                      simp only [hsk, if_true] at this
                      simpa [Post, St.log, hs1] using this
                    · rename_i hbn
                      exact SurfErr.writing _ s1 new n hl w rest hs1 hfew (Or.inr ⟨rfl, hbn⟩) _ (Or.inl rfl)
                    · rename_i x xs b bs hx hbn
                      have := SurfRel.written (env := env) hc s1 new n hl (by simpa using hpk) w rest hs1 hfew
                        (s1.packets.dropWhile (fun x => x.1.counter != b.counter)) (List.dropWhile_suffix _)
                      simp only [hsk, if_true] at this
                      simpa [Post, St.log, hs1] using this
                  · rw [if_neg hsk]
                    cases hlf : env.l1bsFails (s1.log (.l1b w.counter (stackIds w))) with
                    | some e =>
                      simp only [call]
                      exact SurfErr.writing _ s1 new n hl w rest hs1 hfew
                        (Or.inl (Or.inr (Or.inr (Or.inr (Or.inr (Or.inr (Or.inr ⟨_, hlf⟩))))))) _ (Or.inl rfl)
                    | none =>
                      simp only [call]
                      unfold clearOld
                      split
                      · have := SurfRel.written (env := env) hc s1 new n hl (by simpa using hpk) w rest hs1 hfew
                          s1.packets (List.suffix_refl _)
                        simp only [hsk] at this
                        simpa [Post, St.log, hs1] using this
                      · rename_i hbn
                        have := SurfErr.writing (env := env) PyErr.indexError s1 new n hl w rest hs1 hfew
                          (Or.inr ⟨rfl, hbn⟩) _ (Or.inr ⟨by simpa using hsk, rfl⟩)
                        simpa [Post, St.log] using this
                      · rename_i x xs b bs hx hbn
                        have := SurfRel.written (env := env) hc s1 new n hl (by simpa using hpk) w rest hs1 hfew
                          (s1.packets.dropWhile (fun x => x.1.counter != b.counter)) (List.dropWhile_suffix _)
                        simp only [hsk] at this
                        simpa [Post, St.log, hs1] using this
    exact hgoal _

/-- What the state is after reading. -/
inductive ReadRel (s : St R) : St R → Prop
  | resumed (h : s.gapResume = true) : ReadRel s s
  | atEnd (h : s.gapResume = false) (hr : s.rest = []) (hp : s.surfaceProcessing = true) :
      ReadRel s ({ s with input := none }.log .endOfInput)
  | invalid (h : s.gapResume = false) (rest : List (Item R)) (hr : s.rest = .invalid :: rest) :
      ReadRel s { s with rest := rest, input := none, trace := s.trace ++ [.read none, .progress] }
  | record (h : s.gapResume = false) (p : Pk R) (rest : List (Item R)) (hr : s.rest = .record p :: rest) :
      ReadRel s { s with rest := rest, input := some p
                         trace := s.trace ++ [.read (some p.counter), .progress] }

/-- States in which reading raises. -/
inductive ReadErr (s : St R) : PyErr → St R → Prop
  | insufficient (h : s.gapResume = false) (hr : s.rest = []) (hp : s.surfaceProcessing = false) :
      ReadErr s (.other "insufficient input records") ({ s with input := none }.log .endOfInput)
  | failure (h : s.gapResume = false) (e : PyErr) (rest : List (Item R)) (hr : s.rest = .failure e :: rest) :
      ReadErr s e { s with rest := rest }

/-- Effect of the treatment of a packet. -/
inductive PacketRel (env : Env R) (s : St R) (p : Pk R) : Bool → St R → Prop
  | nothing (h : inTime env s p = true) (hs : s.surfaces ≠ []) (hr : s.gapResume = false) :
      PacketRel env s p true { s with prevTime := some p.time, packets := s.packets ++ [(p, false)]
                                      trace := s.trace ++ [.calibrated p.counter, .accepted p.counter] }
  | created (h : inTime env s p = true) :
      PacketRel env s p false
        { s with prevTime := some p.time, packets := s.packets ++ [(p, false)], gapResume := false
                 surfaces := s.surfaces ++ [⟨s.count, [], [], []⟩], count := s.count + 1
                 trace := s.trace ++ [.calibrated p.counter, .accepted p.counter, .created s.count] }
  | gap (t : R) (h : s.prevTime = some t) (ht : ¬ p.time - t < env.threshold) :
      PacketRel env s p false
        { s with gapProcessing := true, prevTime := none, hasSub := true
                 trace := s.trace ++ [.calibrated p.counter, .gapStart p.counter s.surfaces.length] }

/-- States in which it raises. -/
inductive PacketErr (env : Env R) (s : St R) (p : Pk R) : PyErr → St R → Prop
  | cal (e : PyErr) (h : env.calFails s p = some e) : PacketErr env s p e s
  | location (e : PyErr) (he : Raises env e) (hs : s.surfaces ≠ []) (hr : s.gapResume = false) (h : inTime env s p = true) :
      PacketErr env s p e { s with prevTime := some p.time, packets := s.packets ++ [(p, false)]
                                   trace := s.trace ++ [.calibrated p.counter, .accepted p.counter] }

theorem handlePacket_rel (env : Env R) (s : St R) (p : Pk R) :
    Post (handlePacket env s p) (fun x => PacketRel env s p x.1 x.2) (PacketErr env s p) := by
  unfold handlePacket
  cases hcal : env.calFails s p with
  | some e => exact PacketErr.cal e hcal
  | none =>
    simp only [call]
    have hit : inTime env (s.log (.calibrated p.counter)) p = inTime env s p := rfl
    rw [hit]
    by_cases h : inTime env s p = true
    · rw [if_pos h]
      unfold surfaceLocations
      simp only
      set s1 : St R := ({ s.log (.calibrated p.counter) with
        prevTime := some p.time, packets := s.packets ++ [(p, false)] } : St R).log (.accepted p.counter) with hs1
      show Post (match (match locate env s1 s.gapResume with
          | .error e => (Except.error (e, s1) : Res R (Bool × St R))
          | .ok false => .ok (false, s1)
          | .ok true => .ok (true, _)) with | .error x => _ | .ok (new, s) => _) _ _
      have hloc : locate env s1 s.gapResume = .ok true ∨ (s.surfaces ≠ [] ∧ s.gapResume = false) := by
        unfold locate
        by_cases hf : (s1.surfaces.isEmpty || s.gapResume) = true
        · left; rw [if_pos hf]
        · right
          have : s1.surfaces = s.surfaces := rfl
          rw [this] at hf
          simp at hf
          exact hf
      cases hl : locate env s1 s.gapResume with
      | error e =>
        rw [hl] at hloc
        rcases hloc with h' | ⟨h1, h2⟩
        · cases h'
        · have := PacketErr.location (env := env) (s := s) (p := p) e
            (Or.inr (Or.inl ⟨s1, by
              unfold locate at hl
              split at hl
              · cases hl
              · exact hl⟩)) h1 h2 h
          simpa [Post, hs1, St.log] using this
      | ok b =>
        cases b with
        | false =>
          rw [hl] at hloc
          rcases hloc with h' | ⟨h1, h2⟩
          · cases h'
          · have := PacketRel.nothing (env := env) (s := s) (p := p) h h1 h2
            simpa [Post, hs1, St.log, h2] using this
        | true =>
          have := PacketRel.created (env := env) (s := s) (p := p) h
          simpa [Post, hs1, St.log] using this
    · rw [if_neg h]
      unfold inTime at h
      split at h
      · simp at h
      · rename_i t ht
        have := PacketRel.gap (env := env) (s := s) (p := p) t ht (by simpa using h)
        simpa [Post, St.log] using this

/-- Effect of the input phase. -/
inductive InputRel (env : Env R) (s : St R) : Bool → St R → Prop
  | gap (h : s.gapProcessing = true) (hs : s.hasSub = true) : InputRel env s false (s.log .gapProgress)
  | gapNoSub (h : s.gapProcessing = true) (hs : s.hasSub = false) : InputRel env s false s
  | noPacket (h : s.gapProcessing = false) (s1 : St R) (hr : ReadRel s s1) (hi : s1.input = none) :
      InputRel env s false s1
  | packet (h : s.gapProcessing = false) (s1 : St R) (hr : ReadRel s s1) (p : Pk R)
      (hi : s1.input = some p) (b : Bool) (s2 : St R) (hp : PacketRel env s1 p b s2) :
      InputRel env s b s2

/-- States in which it raises. -/
inductive InputErr (env : Env R) (s : St R) : PyErr → St R → Prop
  | read (h : s.gapProcessing = false) (e : PyErr) (s1 : St R) (hr : ReadErr s e s1) : InputErr env s e s1
  | packet (h : s.gapProcessing = false) (s1 : St R) (hr : ReadRel s s1) (p : Pk R)
      (hi : s1.input = some p) (e : PyErr) (s2 : St R) (hp : PacketErr env s1 p e s2) :
      InputErr env s e s2

theorem readNext_rel (s : St R) (h : s.gapResume = false) :
    Post (readNext s) (ReadRel s) (ReadErr s) := by
  unfold readNext
  split
  · rename_i hr
    simp only
    by_cases hp : s.surfaceProcessing = true
    · rw [if_pos hp]; exact ReadRel.atEnd h hr hp
    · rw [if_neg hp]; exact ReadErr.insufficient h hr (by simpa using hp)
  · rename_i e rest hr; exact ReadErr.failure h e rest hr
  · rename_i rest hr
    have := ReadRel.invalid h rest hr
    simpa [Post, St.log] using this
  · rename_i p rest hr
    have := ReadRel.record h p rest hr
    simpa [Post, St.log] using this

theorem inputPhase_rel (env : Env R) (s : St R) :
    Post (inputPhase env s) (fun x => InputRel env s x.1 x.2) (InputErr env s) := by
  unfold inputPhase
  by_cases hg : s.gapProcessing = true
  · rw [if_pos hg]
    by_cases hs : s.hasSub = true
    · rw [if_pos hs]; exact InputRel.gap hg hs
    · rw [if_neg hs]; exact InputRel.gapNoSub hg (by simpa using hs)
  · rw [if_neg hg]
    have hg' : s.gapProcessing = false := by simpa using hg
    have hread : Post (if s.gapResume = true then (Except.ok s : Res R (St R)) else readNext s)
        (ReadRel s) (ReadErr s) := by
      by_cases hr : s.gapResume = true
      · rw [if_pos hr]; exact ReadRel.resumed hr
      · rw [if_neg hr]; exact readNext_rel s (by simpa using hr)
    revert hread
    generalize (if s.gapResume = true then (Except.ok s : Res R (St R)) else readNext s) = r
    intro hread
    cases r with
    | error x => exact InputErr.read hg' x.1 x.2 hread
    | ok s1 =>
      simp only
      cases hi : s1.input with
      | none => exact InputRel.noPacket hg' s1 hread hi
      | some p =>
        simp only
        have := handlePacket_rel env s1 p
        revert this
        generalize handlePacket env s1 p = r2
        intro h2
        cases r2 with
        | error x => exact InputErr.packet hg' s1 hread p hi x.1 x.2 h2
        | ok x => exact InputRel.packet hg' s1 hread p hi x.1 x.2 h2

/-- Effect of the last phase. -/
inductive EndRel (s : St R) : St R → Prop
  | gapEnd (h : s.surfaces = []) (hg : s.gapProcessing = true) (hs : s.hasSub = true) :
      EndRel s { s with gapProcessing := false, gapResume := true, surfaceProcessing := false
                        trace := s.trace ++ [.gapDone] }
  | stop (h : s.surfaces = []) (hg : s.gapProcessing = false) :
      EndRel s { s with running := false, status := none }
  | go (h : s.surfaces ≠ []) : EndRel s s

theorem endPhase_rel (s : St R) :
    Post (endPhase s) (EndRel s) (fun _ s' => s.gapProcessing = true ∧ s.hasSub = false ∧
      s' = { s with gapProcessing := false, gapResume := true, surfaceProcessing := false }) := by
  unfold endPhase
  by_cases h : s.surfaces = []
  · rw [if_pos h]
    by_cases hg : s.gapProcessing = true
    · rw [if_pos hg]
      simp only
      by_cases hs : s.hasSub = true
      · rw [if_pos hs]; exact EndRel.gapEnd h hg hs
      · rw [if_neg hs]; exact ⟨hg, by simpa using hs, rfl⟩
    · rw [if_neg hg]; exact EndRel.stop h (by simpa using hg)
  · rw [if_neg h]; exact EndRel.go h

/-- Effect of one iteration. -/
inductive StepRel (env : Env R) (s : St R) : St R → Prop
  | cont (s1 : St R) (h : InputRel env (beginIteration env s) true s1) : StepRel env s s1
  | full (s1 s2 s3 : St R) (h1 : InputRel env (beginIteration env s) false s1)
      (h2 : SurfRel env s1 s2) (h3 : EndRel s2 s3) : StepRel env s s3

/-- States in which an iteration raises. -/
inductive StepErr (env : Env R) (s : St R) : PyErr → St R → Prop
  | input (e : PyErr) (s1 : St R) (h : InputErr env (beginIteration env s) e s1) : StepErr env s e s1
  | surf (e : PyErr) (s1 s2 : St R) (h1 : InputRel env (beginIteration env s) false s1)
      (h2 : SurfErr env s1 e s2) : StepErr env s e s2
  | noSub (e : PyErr) (s1 s2 : St R) (h1 : InputRel env (beginIteration env s) false s1)
      (h2 : SurfRel env s1 s2) (hg : s2.gapProcessing = true) (hs : s2.hasSub = false) :
      StepErr env s e { s2 with gapProcessing := false, gapResume := true, surfaceProcessing := false }

theorem step_rel (env : Env R) (s : St R) : Post (step env s) (StepRel env s) (StepErr env s) := by
  unfold step
  have h := inputPhase_rel env (beginIteration env s)
  revert h
  generalize inputPhase env (beginIteration env s) = r
  intro h
  cases r with
  | error x => exact StepErr.input x.1 x.2 h
  | ok x =>
    obtain ⟨b, s1⟩ := x
    cases b with
    | true => exact StepRel.cont s1 h
    | false =>
      simp only
      have h2 := surfacePhase_rel env s1
      revert h2
      generalize surfacePhase env s1 = r2
      intro h2
      cases r2 with
      | error x => exact StepErr.surf x.1 s1 x.2 h h2
      | ok s2 =>
        simp only
        have h3 := endPhase_rel s2
        revert h3
        generalize endPhase s2 = r3
        intro h3
        cases r3 with
        | error x =>
          obtain ⟨e, s3⟩ := x
          obtain ⟨hg, hs, rfl⟩ := h3
          exact StepErr.noSub e s1 s2 h h2 hg hs
        | ok s3 => exact StepRel.full s1 s2 s3 h h2 h3

/-! ## Runs -/

/-- An invariant of the iterations holds at the end, however the run ends. -/
theorem run_induct (env : Env R) (P : St R → Prop) (E : PyErr → St R → Prop)
    (hstep : ∀ s s', P s → s.running = true → StepRel env s s' → P s')
    (herr : ∀ s e s', P s → s.running = true → StepErr env s e s' → E e s') :
    ∀ (fuel : Nat) (s : St R), P s →
      match run env fuel s with
      | .finished s' => ∃ s'', P s'' ∧ s''.running = false ∧ env.finishFails s'' = none ∧ s' = s''.log .closed
      | .failed e s' => E e s' ∨ (P s' ∧ s'.running = false ∧ env.finishFails s' = some e)
      | .timeout s' => P s' := by
  intro fuel
  induction fuel with
  | zero => intro s h; exact h
  | succ fuel ih =>
    intro s h
    rw [run]
    by_cases hr : s.running = true
    · rw [if_pos hr]
      have hrel := step_rel env s
      revert hrel
      generalize step env s = r
      intro hrel
      cases r with
      | error x => exact Or.inl (herr s x.1 x.2 h hr hrel)
      | ok s1 => exact ih s1 (hstep s s1 h hr hrel)
    · rw [if_neg hr]
      have hr' : s.running = false := by simpa using hr
      cases hf : env.finishFails s with
      | some e => exact Or.inr ⟨h, hr', hf⟩
      | none => exact ⟨s, h, hr', hf, rfl⟩

end Dedop.Process
