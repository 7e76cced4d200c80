import Verif.Whole.Made

/-!
# Where the records of a product come from (lemmas)
-/
namespace Dedop.Whole

open Real Process

/-- The record is what the algorithms give for the first surface of the queue (`processor.py:245-262`). -/
def Makes (c : Conf) (o : World) (file : ℕ → Raw) (s : State) (rec : Record) : Prop :=
  ∃ w rest f fs r g, s.ctl.surfaces = w :: rest ∧ s.surfs = f :: fs ∧
    Chain.surfaceAw c.weighting c.pattern o.argsort o.round o.junk c.chain s.mem (place f) s.closest (looksOf w) = .ok (some r) ∧
    sigma0 c file s.mem f r = some g ∧ rec = ⟨w.counter, f.loc, r, g⟩

/-- The bursts of the stacks are in the order of the file; they were read, and calibrated once or twice. -/
def Known (ids : List ℕ) (s : State) : Prop :=
  ∀ w ∈ s.ctl.surfaces, (stackIds w).Sublist ids ∧ ∀ id ∈ stackIds w, id ∈ readOf s.ctl.trace ∧
    1 ≤ (calibratedOf s.ctl.trace).count id ∧ (calibratedOf s.ctl.trace).count id ≤ 2

/-- A state in which a record was made. -/
structure Origin (c : Conf) (o : World) (file : ℕ → Raw) (ids : List ℕ) (s : State) (rec : Record) : Prop where
  made : Made c file s
  inv : Inv s
  known : Known ids s
  makes : Makes c o file s rec

/-- The state with which a piece of the program ended early. -/
def Stop.state : Stop → State
  | .raised _ s => s
  | .nan s => s

/-- The products agree with the trace. -/
def Traced (s : State) : Prop :=
  s.l1b.map Record.counter = l1bOf s.ctl.trace ∧ s.l1bs.map Record.counter = l1bsOf s.ctl.trace

/-- What a piece of the program appended to the products. -/
inductive Adds (c : Conf) (o : World) (file : ℕ → Raw) (ids : List ℕ) (s s' : State) : Prop
  | none (h1 : s'.l1b = s.l1b) (h2 : s'.l1bs = s.l1bs)
  | first (s2 : State) (rec : Record) (h : Origin c o file ids s2 rec) (h1 : s'.l1b = s.l1b ++ [rec]) (h2 : s'.l1bs = s.l1bs)
  | both (s2 : State) (rec : Record) (h : Origin c o file ids s2 rec) (h1 : s'.l1b = s.l1b ++ [rec])
      (h2 : s'.l1bs = s.l1bs ++ [rec])

theorem l1bsOf_append' (a b : List Event) : l1bsOf (a ++ b) = l1bsOf a ++ l1bsOf b := List.filterMap_append

/-! ## Pieces which write nothing -/

theorem read_writes (c : Conf) (file : ℕ → Raw) (s : State) :
    match readNext c file s with
    | .ok s' => s'.l1b = s.l1b ∧ s'.l1bs = s.l1bs ∧ (Traced s → Traced s')
    | .error x => x.state.l1b = s.l1b ∧ x.state.l1bs = s.l1bs ∧ (Traced s → Traced x.state) := by
  unfold readNext Process.readNext
  cases hr : s.ctl.rest with
  | nil =>
    dsimp only
    cases s.ctl.surfaceProcessing <;>
    · refine ⟨rfl, rfl, fun h => ?_⟩
      obtain ⟨h1, h2⟩ := h
      constructor
      · simpa [l1bOf, St.log, Stop.state] using h1
      · simpa [l1bsOf, St.log, Stop.state] using h2
  | cons x rest =>
    cases x with
    | failure e => exact ⟨rfl, rfl, id⟩
    | invalid =>
      refine ⟨rfl, rfl, fun h => ?_⟩
      obtain ⟨h1, h2⟩ := h
      constructor
      · simpa [l1bOf, St.log] using h1
      · simpa [l1bsOf, St.log] using h2
    | record p =>
      refine ⟨rfl, rfl, fun h => ?_⟩
      obtain ⟨h1, h2⟩ := h
      constructor
      · simpa [l1bOf, St.log] using h1
      · simpa [l1bsOf, St.log] using h2

theorem locations_writes (c : Conf) (file : ℕ → Raw) (s : State) (p : Pk ℝ) (force : Bool) :
    match surfaceLocations c file s p force with
    | .ok s' => s'.2.l1b = s.l1b ∧ s'.2.l1bs = s.l1bs ∧ (Traced s → Traced s'.2)
    | .error x => x.state.l1b = s.l1b ∧ x.state.l1bs = s.l1bs ∧ (Traced s → Traced x.state) := by
  unfold surfaceLocations
  dsimp only
  have key : ∀ (h : Traced s) t, (∃ new : List Event, t = s.ctl.trace ++ new ∧ l1bOf new = [] ∧ l1bsOf new = []) →
      s.l1b.map Record.counter = l1bOf t ∧ s.l1bs.map Record.counter = l1bsOf t := by
    rintro ⟨h1, h2⟩ t ⟨new, rfl, h3, h4⟩
    rw [l1bOf_append, l1bsOf_append', h3, h4]
    simp [h1, h2]
  cases Surface.step c.surface s.alg s.surfs (s.ctl.packets.map (fun x => burst c (file x.1.counter)))
      (burst c (file p.counter)) force with
  | err e => exact ⟨rfl, rfl, fun h => key h _ ⟨[.accepted p.counter], rfl, rfl, rfl⟩⟩
  | nan => exact ⟨rfl, rfl, fun h => key h _ ⟨[.accepted p.counter], rfl, rfl, rfl⟩⟩
  | ok a l new =>
    cases new with
    | false => exact ⟨rfl, rfl, fun h => key h _ ⟨[.accepted p.counter], rfl, rfl, rfl⟩⟩
    | true =>
      exact ⟨rfl, rfl, fun h => key h _ ⟨[.accepted p.counter, .created s.ctl.count], by simp [St.log], rfl, rfl⟩⟩

theorem handle_writes (c : Conf) (file : ℕ → Raw) (s : State) (p : Pk ℝ) :
    match handlePacket c file s p with
    | .ok s' => s'.2.l1b = s.l1b ∧ s'.2.l1bs = s.l1bs ∧ (Traced s → Traced s'.2)
    | .error x => x.state.l1b = s.l1b ∧ x.state.l1bs = s.l1bs ∧ (Traced s → Traced x.state) := by
  unfold handlePacket
  dsimp only
  have key : ∀ (h : Traced s) t, (∃ new : List Event, t = s.ctl.trace ++ new ∧ l1bOf new = [] ∧ l1bsOf new = []) →
      s.l1b.map Record.counter = l1bOf t ∧ s.l1bs.map Record.counter = l1bsOf t := by
    rintro ⟨h1, h2⟩ t ⟨new, rfl, h3, h4⟩
    rw [l1bOf_append, l1bsOf_append', h3, h4]
    simp [h1, h2]
  by_cases hin : inTime c (s.ctl.log (.calibrated p.counter)) p = true
  · rw [if_pos hin]
    set s1 : State := { s with
      ctl := { s.ctl.log (.calibrated p.counter) with prevTime := some p.time }
      mem := Function.update s.mem p.counter (calibrated c (file p.counter) (s.mem p.counter)) } with hs1
    have q := locations_writes c file s1 p s.ctl.gapResume
    have ht : Traced s → Traced s1 := fun h => key h _ ⟨[.calibrated p.counter], rfl, rfl, rfl⟩
    change match (match surfaceLocations c file s1 p s.ctl.gapResume with
      | .error x => (.error x : Out (Bool × State))
      | .ok (new, s) => .ok (!new, { s with ctl := { s.ctl with gapResume := false } })) with
      | .ok s' => _ | .error x => _
    revert q
    cases surfaceLocations c file s1 p s.ctl.gapResume with
    | error x => exact fun q => ⟨q.1, q.2.1, fun h => q.2.2 (ht h)⟩
    | ok x => exact fun q => ⟨q.1, q.2.1, fun h => q.2.2 (ht h)⟩
  · rw [if_neg hin]
    refine ⟨rfl, rfl, fun h => key h _ ⟨[.calibrated p.counter, .gapStart p.counter s.ctl.surfaces.length], ?_, rfl, rfl⟩⟩
    simp [St.log]

theorem input_writes (c : Conf) (file : ℕ → Raw) (s : State) :
    match inputPhase c file s with
    | .ok s' => s'.2.l1b = s.l1b ∧ s'.2.l1bs = s.l1bs ∧ (Traced s → Traced s'.2)
    | .error x => x.state.l1b = s.l1b ∧ x.state.l1bs = s.l1bs ∧ (Traced s → Traced x.state) := by
  unfold inputPhase
  by_cases hg : s.ctl.gapProcessing = true
  · rw [if_pos hg]
    by_cases hsub : s.ctl.hasSub = true
    · rw [if_pos hsub]
      refine ⟨rfl, rfl, fun h => ?_⟩
      obtain ⟨h1, h2⟩ := h
      constructor
      · simpa [l1bOf, St.log] using h1
      · simpa [l1bsOf, St.log] using h2
    · rw [if_neg hsub]
      exact ⟨rfl, rfl, id⟩
  · rw [if_neg hg]
    have q : match (if s.ctl.gapResume then .ok s else readNext c file s) with
        | .ok s' => s'.l1b = s.l1b ∧ s'.l1bs = s.l1bs ∧ (Traced s → Traced s')
        | .error x => x.state.l1b = s.l1b ∧ x.state.l1bs = s.l1bs ∧ (Traced s → Traced x.state) := by
      by_cases hr : s.ctl.gapResume = true
      · rw [if_pos hr]; exact ⟨rfl, rfl, id⟩
      · rw [if_neg hr]; exact read_writes c file s
    revert q
    cases (if s.ctl.gapResume = true then (.ok s : Out State) else readNext c file s) with
    | error x => exact id
    | ok s1 =>
      intro q
      dsimp only at q ⊢
      cases hp : s1.ctl.input with
      | none => exact q
      | some p =>
        dsimp only
        have q2 := handle_writes c file s1 p
        revert q2
        cases handlePacket c file s1 p with
        | error x => exact fun q2 => ⟨q2.1.trans q.1, q2.2.1.trans q.2.1, fun h => q2.2.2 (q.2.2 h)⟩
        | ok x => exact fun q2 => ⟨q2.1.trans q.1, q2.2.1.trans q.2.1, fun h => q2.2.2 (q.2.2 h)⟩

theorem loop_writes (c : Conf) (file : ℕ → Raw) (todo : List (Pk ℝ × Bool)) :
    ∀ (done : List (Pk ℝ × Bool)) (s : State),
    match packetLoop c file done todo s with
    | .ok s' => s'.l1b = s.l1b ∧ s'.l1bs = s.l1bs ∧ (Traced s → Traced s')
    | .error x => x.state.l1b = s.l1b ∧ x.state.l1bs = s.l1bs ∧ (Traced s → Traced x.state) := by
  induction todo with
  | nil => intro done s; exact ⟨rfl, rfl, id⟩
  | cons x todo ih =>
    intro done s
    obtain ⟨p, f⟩ := x
    cases f with
    | true => rw [packetLoop]; exact ih _ s
    | false =>
      rw [packetLoop]
      have key : ∀ (h : Traced s), s.l1b.map Record.counter = l1bOf (s.ctl.trace ++ [.beams p.counter]) ∧
          s.l1bs.map Record.counter = l1bsOf (s.ctl.trace ++ [.beams p.counter]) := by
        rintro ⟨h1, h2⟩
        rw [l1bOf_append, l1bsOf_append']
        simp [h1, h2, l1bOf, l1bsOf]
      have hb : match burstBeams c file s p with
          | .ok s' => s'.2.l1b = s.l1b ∧ s'.2.l1bs = s.l1bs ∧ s'.2.ctl.trace = s.ctl.trace
          | .error x => x.state.l1b = s.l1b ∧ x.state.l1bs = s.l1bs ∧ (Traced s → Traced x.state) := by
        unfold burstBeams
        cases qMin c ‖(file p.counter).vel‖ with
        | error e => exact ⟨rfl, rfl, key⟩
        | ok q => exact ⟨rfl, rfl, rfl⟩
      revert hb
      cases burstBeams c file s p with
      | error x => exact id
      | ok x =>
        obtain ⟨seen, s1⟩ := x
        rintro ⟨b1, b2, b3⟩
        dsimp only at b1 b2 b3 ⊢
        have key1 : ∀ (h : Traced s), s1.l1b.map Record.counter = l1bOf (s1.ctl.trace ++ [.beams p.counter]) ∧
            s1.l1bs.map Record.counter = l1bsOf (s1.ctl.trace ++ [.beams p.counter]) := by
          rw [b1, b2, b3]; exact key
        cases Chain.azimuth c.chain (s1.mem p.counter) with
        | error e => exact ⟨b1, b2, key1⟩
        | ok beams =>
          dsimp only
          cases seen with
          | false => exact ⟨b1, b2, key1⟩
          | true =>
            have q := ih (done ++ [(p, true)])
              { s1 with ctl := { s1.ctl.log (.beams p.counter) with packets := done ++ (p, true) :: todo } }
            revert q
            simp only [if_true]
            generalize packetLoop c file (done ++ [(p, true)]) todo _ = r
            cases r with
            | error x => exact fun q => ⟨q.1.trans b1, q.2.1.trans b2, fun h => q.2.2 (key1 h)⟩
            | ok x => exact fun q => ⟨q.1.trans b1, q.2.1.trans b2, fun h => q.2.2 (key1 h)⟩

/-! ## The first surface -/

/-- What follows the loop over the packets keeps or shortens the lists and appends to the products. -/
structure Ends (c : Conf) (o : World) (file : ℕ → Raw) (ids : List ℕ) (s s' : State) : Prop where
  adds : Adds c o file ids s s'
  traced : Traced s → Traced s'

theorem clear_ends (w : Beams.Surf (Pk ℝ)) (s : State) :
    match clearOld w s with
    | .ok s' => s'.l1b = s.l1b ∧ s'.l1bs = s.l1bs ∧ s'.ctl.trace = s.ctl.trace ∧ s'.mem = s.mem ∧ s'.ctl.sizePrev = s.ctl.sizePrev ∧
        s'.ctl.trendPrev = s.ctl.trendPrev ∧ s'.ctl.surfaces = s.ctl.surfaces.tail
    | .error x => x.state.l1b = s.l1b ∧ x.state.l1bs = s.l1bs ∧ x.state.ctl.trace = s.ctl.trace := by
  unfold clearOld
  cases h : Process.clearOld w s.ctl with
  | error x =>
    refine ⟨rfl, rfl, ?_⟩
    unfold Process.clearOld at h
    split at h
    · cases h
    · cases h; rfl
    · cases h
  | ok t =>
    unfold Process.clearOld at h
    split at h
    · cases h; exact ⟨rfl, rfl, rfl, rfl, rfl, rfl, rfl⟩
    · cases h
    · cases h; exact ⟨rfl, rfl, rfl, rfl, rfl, rfl, rfl⟩

theorem finish_ends (c : Conf) (o : World) (file : ℕ → Raw) (ids : List ℕ) (s : State) (hm : Made c file s) (hi : Inv s)
    (hk : Known ids s) :
    match finishSurface c o file s with
    | .ok s' => Ends c o file ids s s' ∧ Made c file s' ∧ (o.skipL1bs = false → s.l1bs = s.l1b → s'.l1bs = s'.l1b) ∧
        (o.skipL1bs = true → s'.l1bs = s.l1bs)
    | .error x => Ends c o file ids s x.state ∧ (o.skipL1bs = true → x.state.l1bs = s.l1bs) := by
  unfold finishSurface
  cases hw : s.ctl.surfaces with
  | nil => exact ⟨⟨.none rfl rfl, id⟩, fun _ => rfl⟩
  | cons w rest =>
    cases hf : s.surfs with
    | nil => exact ⟨⟨.none rfl rfl, id⟩, fun _ => rfl⟩
    | cons f fs =>
      dsimp only
      cases hc : Chain.surfaceAw c.weighting c.pattern o.argsort o.round o.junk c.chain s.mem (place f) s.closest (looksOf w) with
      | error e => exact ⟨⟨.none rfl rfl, id⟩, fun _ => rfl⟩
      | ok r =>
        cases r with
        | none =>
          refine ⟨⟨.none rfl rfl, ?_⟩, ?_, fun _ h => h, fun _ => rfl⟩
          · rintro ⟨h1, h2⟩
            constructor
            · simpa [l1bOf, St.log] using h1
            · simpa [l1bsOf, St.log] using h2
          · refine hm.of ?_ rfl rfl rfl ?_ ?_
            · intro w' hw'
              left
              rw [hw]
              exact List.mem_cons_of_mem _ hw'
            · simp [St.log, readOf]
            · simp [St.log, calibratedOf]
        | some r =>
          dsimp only
          cases hg : sigma0 c file s.mem f r with
          | none => exact ⟨⟨.none rfl rfl, id⟩, fun _ => rfl⟩
          | some g =>
            dsimp only
            have horig : Origin c o file ids s ⟨w.counter, f.loc, r, g⟩ :=
              ⟨hm, hi, hk, w, rest, f, fs, r, g, hw, hf, hc, hg, rfl⟩
            unfold writeSurface
            cases o.l1bFails ⟨w.counter, f.loc, r, g⟩ with
            | some e => exact ⟨⟨.none rfl rfl, id⟩, fun _ => rfl⟩
            | none =>
              dsimp only
              unfold writeL1bs
              have htr1 : Traced s → (s.l1b ++ [(⟨w.counter, f.loc, r, g⟩ : Record)]).map Record.counter =
                    l1bOf (s.ctl.trace ++ [.l1b w.counter (stackIds w)]) ∧ s.l1bs.map Record.counter =
                    l1bsOf (s.ctl.trace ++ [.l1b w.counter (stackIds w)]) := by
                rintro ⟨h1, h2⟩
                constructor
                · rw [l1bOf_append, ← h1]; simp [l1bOf]
                · rw [l1bsOf_append', ← h2]; simp [l1bsOf]
              have htr2 : Traced s → (s.l1b ++ [(⟨w.counter, f.loc, r, g⟩ : Record)]).map Record.counter =
                    l1bOf (s.ctl.trace ++ [.l1b w.counter (stackIds w)] ++ [.l1bs w.counter]) ∧
                    (s.l1bs ++ [(⟨w.counter, f.loc, r, g⟩ : Record)]).map Record.counter =
                    l1bsOf (s.ctl.trace ++ [.l1b w.counter (stackIds w)] ++ [.l1bs w.counter]) := by
                rintro ⟨h1, h2⟩
                constructor
                · rw [l1bOf_append, l1bOf_append, ← h1]; simp [l1bOf]
                · rw [l1bsOf_append', l1bsOf_append', ← h2]; simp [l1bsOf]
              cases hskip : o.skipL1bs with
              | true =>
                simp only [if_true]
                have q := clear_ends w (⟨s.ctl.log (.l1b w.counter (stackIds w)), f :: fs, s.mem, s.alg,
                  nextClosest c o s (looksOf w), s.l1b ++ [⟨w.counter, f.loc, r, g⟩], s.l1bs⟩ : State)
                revert q
                generalize clearOld w _ = res
                cases res with
                | error x =>
                  rintro ⟨q1, q2, q3⟩
                  refine ⟨⟨.first s _ horig q1 q2, fun h => ?_⟩, fun _ => q2⟩
                  unfold Traced
                  rw [q1, q2, q3]
                  exact htr1 h
                | ok s' =>
                  rintro ⟨q1, q2, q3, q4, q5, q6, q7⟩
                  refine ⟨⟨.first s _ horig q1 q2, fun h => ?_⟩, ?_, by simp, fun _ => q2⟩
                  · unfold Traced
                    rw [q1, q2, q3]
                    exact htr1 h
                  · refine hm.of ?_ q4 q5 q6 ?_ ?_
                    · intro w' hw'
                      left
                      rw [q7] at hw'
                      exact List.mem_of_mem_tail hw'
                    · rw [q3]; simp [St.log, readOf]
                    · rw [q3]; simp [St.log, calibratedOf]
              | false =>
                simp only [Bool.false_eq_true, if_false]
                cases o.l1bsFails ⟨w.counter, f.loc, r, g⟩ with
                | some e => exact ⟨⟨.first s _ horig rfl rfl, htr1⟩, by simp⟩
                | none =>
                  dsimp only
                  have q := clear_ends w (⟨(s.ctl.log (.l1b w.counter (stackIds w))).log (.l1bs w.counter), f :: fs, s.mem,
                    s.alg, nextClosest c o s (looksOf w), s.l1b ++ [⟨w.counter, f.loc, r, g⟩],
                    s.l1bs ++ [⟨w.counter, f.loc, r, g⟩]⟩ : State)
                  revert q
                  generalize clearOld w _ = res
                  cases res with
                  | error x =>
                    rintro ⟨q1, q2, q3⟩
                    refine ⟨⟨.both s _ horig q1 q2, fun h => ?_⟩, by simp⟩
                    unfold Traced
                    rw [q1, q2, q3]
                    exact htr2 h
                  | ok s' =>
                    rintro ⟨q1, q2, q3, q4, q5, q6, q7⟩
                    refine ⟨⟨.both s _ horig q1 q2, fun h => ?_⟩, ?_, fun _ h => ?_, by simp⟩
                    · unfold Traced
                      rw [q1, q2, q3]
                      exact htr2 h
                    · refine hm.of ?_ q4 q5 q6 ?_ ?_
                      · intro w' hw'
                        left
                        rw [q7] at hw'
                        exact List.mem_of_mem_tail hw'
                      · rw [q3]; simp [St.log, readOf]
                      · rw [q3]; simp [St.log, calibratedOf]
                    · rw [q1, q2, h]

end Dedop.Whole
