import Verif.Whole.Demo
import Verif.Whole.Nadir
import Verif.Whole.Props

/-!
# Nothing is left from one surface to the next (C160)
-/
namespace Dedop.Whole

open Real Process

/-! ## Specification -/

/-- The processor with another content of the one attribute of an algorithm that outlives a surface. -/
def State.spoilt (k : ℕ) (s : State) : State := { s with closest := k }

/-- The loop in which that attribute is overwritten at the start of each iteration, with anything. -/
noncomputable def runSpoilt (spoil : ℕ → ℕ) (c : Conf) (o : World) (file : ℕ → Raw) : ℕ → State → Outcome
  | 0, s => .timeout s
  | fuel + 1, s =>
    if s.ctl.running then
      match step c o file (s.spoilt (spoil fuel)) with
      | .error (.raised e s) => .failed e s
      | .error (.nan s) => .nan s
      | .ok s => runSpoilt spoil c o file fuel s
    else
      match o.finishFails with
      | some e => .failed e s
      | none => .finished { s with ctl := s.ctl.log .closed }

/-- `process` with that loop. -/
noncomputable def processSpoilt (spoil : ℕ → ℕ) (c : Conf) (o : World) (alg : Surface.Alg) (file : ℕ → Raw) (n : ℕ) : Outcome :=
  match Reader.openDataset c.bounds (positions file n) with
  | .error e => .failed e (start alg [])
  | .ok d => runSpoilt spoil c o file (3 * (items file n d).length + 2) (start alg (items file n d))

/-- The same but for that attribute. -/
def SameBut (s t : State) : Prop := t = { s with closest := t.closest }

/-- Both runs end in the same way, with the same content of everything but that attribute. -/
def SameOutcome : Outcome → Outcome → Prop
  | .finished s, .finished t => SameBut s t
  | .failed e s, .failed e' t => e = e' ∧ SameBut s t
  | .nan s, .nan t => SameBut s t
  | .timeout s, .timeout t => SameBut s t
  | _, _ => False

/-! ## Gathering does not use it -/

theorem gather_prev (argsort : List ℝ → List ℕ) (n : ℕ) (x : ℝ) (a b : ℕ) (es : List (Stack.Entry ℝ (ℕ → ℂ))) (hes : es ≠ []) :
    Stack.gather argsort n x a es = Stack.gather argsort n x b es := by
  unfold Stack.gather
  cases h : Stack.window argsort n x es with
  | error e => rfl
  | ok y =>
    obtain ⟨size, off⟩ := y
    dsimp only
    cases size with
    | zero =>
      exfalso
      unfold Stack.window at h
      split at h
      · have h' := congrArg Prod.fst (Except.ok.inj h)
        exact hes (List.length_eq_zero_iff.1 h')
      · rename_i hlen
        split at h
        · cases h
        · split at h
          · cases h
          · rename_i off' hoff
            cases h
            simp at hoff
    | succ m =>
      rw [Stack.gatherLoop, Stack.gatherLoop]
      cases es[0 + off]? with
      | none => rfl
      | some e =>
        dsimp only
        cases Stack.gatherRow x e with
        | error => rfl
        | ok row => simp [Stack.closer]

theorem fit_empty (c : Chain.Conf) : Chain.fitCount c [] ≤ 0 := by
  have key : ∀ i : ℕ, (Multilook.fitWindow i (0 : ℕ)).2.2 ≤ 0 := by
    intro i
    unfold Multilook.fitWindow
    dsimp only
    omega
  unfold Chain.fitCount
  dsimp only
  rw [List.length_nil, ← Nat.cast_min, Nat.min_zero]
  exact key _

theorem surface_prev (argsort : List ℝ → List ℕ) (round : ℝ → ℤ) (junk : ℕ → ℂ) (c : Chain.Conf)
    (bursts : ℕ → Chain.L1A) (s : Chain.Surf) (a b : ℕ) (looks : Chain.Looks) :
    Chain.surface argsort round junk c bursts s a looks = Chain.surface argsort round junk c bursts s b looks := by
  unfold Chain.surface
  cases h : Chain.entries junk c bursts looks with
  | error e => rfl
  | ok es =>
    dsimp only
    by_cases hes : es = []
    · subst hes
      by_cases h0 : c.looks = 0
      · rw [h0]; rfl
      · have e : ∀ k, Stack.gather argsort c.looks (π / 2) k ([] : List (Stack.Entry ℝ (ℕ → ℂ))) = .ok ⟨0, [], k, false⟩ := by
          intro k
          unfold Stack.gather Stack.window
          rw [if_pos (by simp; omega)]
          rfl
        rw [e, e]
        dsimp only
        by_cases h1 : 0 < c.looks / 2
        · rw [if_pos h1, if_pos h1]
        · rw [if_neg h1, if_neg h1]
          cases Stack.masking round (Chain.maskConf c) (Chain.maskInput c bursts s []) with
          | error e => rfl
          | ok m =>
            dsimp only
            have hf := fit_empty c
            by_cases h2 : Chain.fitCount c [] = 0
            · rw [if_pos h2, if_pos h2]
            · have h3 : Chain.fitCount c [] < 0 := by omega
              rw [if_neg h2, if_neg h2, if_pos h3, if_pos h3]
    · rw [gather_prev argsort c.looks (π / 2) a b es hes]

theorem surfaceAw_prev (on : Bool) (p : Chain.Pattern) (argsort : List ℝ → List ℕ) (round : ℝ → ℤ) (junk : ℕ → ℂ) (c : Chain.Conf)
    (bursts : ℕ → Chain.L1A) (s : Chain.Surf) (a b : ℕ) (looks : Chain.Looks) :
    Chain.surfaceAw on p argsort round junk c bursts s a looks = Chain.surfaceAw on p argsort round junk c bursts s b looks := by
  unfold Chain.surfaceAw
  rw [surface_prev argsort round junk c bursts s a b looks]

/-! ## The pieces of an iteration -/

/-- Proof helper: the same stop with the overwritten attribute in its state. -/
def Stop.spoilt (k : ℕ) : Stop → Stop
  | .raised e s => .raised e (s.spoilt k)
  | .nan s => .nan (s.spoilt k)

/-- Proof helper: the same result of a step with the attribute overwritten in its state. -/
def outS (k : ℕ) : Out State → Out State
  | .ok s => .ok (s.spoilt k)
  | .error x => .error (x.spoilt k)

/-- Proof helper: the same result, with a further value, and the attribute overwritten in its state. -/
def outB (k : ℕ) : Out (Bool × State) → Out (Bool × State)
  | .ok (b, s) => .ok (b, s.spoilt k)
  | .error x => .error (x.spoilt k)

variable (c : Conf) (o : World) (file : ℕ → Raw)

theorem read_spoilt (k : ℕ) (s : State) : readNext c file (s.spoilt k) = outS k (readNext c file s) := by
  unfold readNext State.spoilt
  dsimp only
  cases Process.readNext s.ctl with
  | error x => rfl
  | ok t =>
    dsimp only
    cases s.ctl.rest with
    | nil => rfl
    | cons x l => cases x <;> rfl

theorem locations_spoilt (k : ℕ) (s : State) (p : Pk ℝ) (force : Bool) :
    surfaceLocations c file (s.spoilt k) p force = outB k (surfaceLocations c file s p force) := by
  unfold surfaceLocations State.spoilt
  dsimp only
  cases Surface.step c.surface s.alg s.surfs (s.ctl.packets.map (fun x => burst c (file x.1.counter))) (burst c (file p.counter)) force with
  | err e => rfl
  | nan => rfl
  | ok alg surfs new => cases new <;> rfl

theorem handle_spoilt (k : ℕ) (s : State) (p : Pk ℝ) : handlePacket c file (s.spoilt k) p = outB k (handlePacket c file s p) := by
  unfold handlePacket
  dsimp only
  have e : ({ s.spoilt k with
      ctl := { (s.spoilt k).ctl.log (.calibrated p.counter) with prevTime := some p.time }
      mem := Function.update (s.spoilt k).mem p.counter (calibrated c (file p.counter) ((s.spoilt k).mem p.counter)) } : State) =
    State.spoilt k { s with
      ctl := { s.ctl.log (.calibrated p.counter) with prevTime := some p.time }
      mem := Function.update s.mem p.counter (calibrated c (file p.counter) (s.mem p.counter)) } := rfl
  have e2 : inTime c ((s.spoilt k).ctl.log (.calibrated p.counter)) p = inTime c (s.ctl.log (.calibrated p.counter)) p := rfl
  rw [e2]
  by_cases h : inTime c (s.ctl.log (.calibrated p.counter)) p = true
  · rw [if_pos h, if_pos h]
    have q := locations_spoilt c file k { s with
      ctl := { s.ctl.log (.calibrated p.counter) with prevTime := some p.time }
      mem := Function.update s.mem p.counter (calibrated c (file p.counter) (s.mem p.counter)) } p s.ctl.gapResume
    have q' := (congrArg (fun z => surfaceLocations c file z p s.ctl.gapResume) e).trans q
    dsimp only at q'
    show (match surfaceLocations c file { s.spoilt k with
        ctl := { (s.spoilt k).ctl.log (.calibrated p.counter) with prevTime := some p.time }
        mem := Function.update (s.spoilt k).mem p.counter (calibrated c (file p.counter) ((s.spoilt k).mem p.counter)) } p s.ctl.gapResume with
      | .error x => .error x
      | .ok (new, s) => .ok (!new, { s with ctl := { s.ctl with gapResume := false } }) : Out (Bool × State)) = outB k
      (match surfaceLocations c file { s with
        ctl := { s.ctl.log (.calibrated p.counter) with prevTime := some p.time }
        mem := Function.update s.mem p.counter (calibrated c (file p.counter) (s.mem p.counter)) } p s.ctl.gapResume with
      | .error x => .error x
      | .ok (new, s) => .ok (!new, { s with ctl := { s.ctl with gapResume := false } }))
    rw [q']
    cases surfaceLocations c file { s with
        ctl := { s.ctl.log (.calibrated p.counter) with prevTime := some p.time }
        mem := Function.update s.mem p.counter (calibrated c (file p.counter) (s.mem p.counter)) } p s.ctl.gapResume with
    | error x => rfl
    | ok y => rfl
  · rw [if_neg h, if_neg h]
    rfl

theorem input_spoilt (k : ℕ) (s : State) : inputPhase c file (s.spoilt k) = outB k (inputPhase c file s) := by
  unfold inputPhase
  have e1 : (s.spoilt k).ctl = s.ctl := rfl
  rw [e1]
  by_cases hg : s.ctl.gapProcessing = true
  · rw [if_pos hg, if_pos hg]
    by_cases hsub : s.ctl.hasSub = true
    · rw [if_pos hsub, if_pos hsub]; rfl
    · rw [if_neg hsub, if_neg hsub]; rfl
  · rw [if_neg hg, if_neg hg]
    have q : (if s.ctl.gapResume = true then .ok (s.spoilt k) else readNext c file (s.spoilt k) : Out State) =
        outS k (if s.ctl.gapResume = true then .ok s else readNext c file s) := by
      by_cases hr : s.ctl.gapResume = true
      · rw [if_pos hr, if_pos hr]; rfl
      · rw [if_neg hr, if_neg hr]; exact read_spoilt c file k s
    rw [q]
    cases (if s.ctl.gapResume = true then .ok s else readNext c file s : Out State) with
    | error x => rfl
    | ok s1 =>
      show (match s1.ctl.input with
        | none => .ok (false, s1.spoilt k)
        | some p => handlePacket c file (s1.spoilt k) p : Out (Bool × State)) = outB k (match s1.ctl.input with
        | none => .ok (false, s1)
        | some p => handlePacket c file s1 p)
      cases s1.ctl.input with
      | none => rfl
      | some p => exact handle_spoilt c file k s1 p

theorem burst_spoilt (k : ℕ) (s : State) (p : Pk ℝ) : burstBeams c file (s.spoilt k) p = outB k (burstBeams c file s p) := by
  unfold burstBeams
  cases qMin c ‖(file p.counter).vel‖ <;> rfl

theorem loop_spoilt (k : ℕ) (todo : List (Pk ℝ × Bool)) : ∀ (done : List (Pk ℝ × Bool)) (s : State),
    packetLoop c file done todo (s.spoilt k) = outS k (packetLoop c file done todo s) := by
  induction todo with
  | nil => intro done s; rfl
  | cons x todo ih =>
    intro done s
    obtain ⟨p, f⟩ := x
    cases f with
    | true => rw [packetLoop, packetLoop]; exact ih _ s
    | false =>
      rw [packetLoop, packetLoop, burst_spoilt]
      cases burstBeams c file s p with
      | error x => rfl
      | ok x =>
        obtain ⟨seen, s1⟩ := x
        show (match Chain.azimuth c.chain (s1.mem p.counter) with
          | .error e => .error (.raised e (State.spoilt k { s1 with ctl := s1.ctl.log (.beams p.counter) }))
          | .ok _ =>
            if seen then packetLoop c file (done ++ [(p, true)]) todo (State.spoilt k
              { s1 with ctl := { s1.ctl.log (.beams p.counter) with packets := done ++ (p, true) :: todo } })
            else .ok (State.spoilt k { s1 with ctl := { s1.ctl.log (.beams p.counter) with packets := done ++ (p, true) :: todo } }) :
          Out State) = _
        dsimp only
        cases Chain.azimuth c.chain (s1.mem p.counter) with
        | error e => rfl
        | ok _ =>
          dsimp only
          cases seen with
          | false => rfl
          | true => exact ih _ _

theorem clear_spoilt (k : ℕ) (w : Beams.Surf (Pk ℝ)) (s : State) : clearOld w (s.spoilt k) = outS k (clearOld w s) := by
  unfold clearOld State.spoilt
  dsimp only
  cases Process.clearOld w s.ctl <;> rfl

theorem write_spoilt (k : ℕ) (w : Beams.Surf (Pk ℝ)) (rec : Record) (s : State) :
    writeSurface o w rec (s.spoilt k) = outS k (writeSurface o w rec s) := by
  unfold writeSurface
  cases o.l1bFails rec with
  | some e => rfl
  | none =>
    dsimp only
    unfold writeL1bs
    cases o.skipL1bs with
    | true => exact clear_spoilt k w { s with ctl := s.ctl.log (.l1b w.counter (stackIds w)), l1b := s.l1b ++ [rec] }
    | false =>
      cases o.l1bsFails rec with
      | some e => rfl
      | none => exact clear_spoilt k w { s with
          ctl := (s.ctl.log (.l1b w.counter (stackIds w))).log (.l1bs rec.counter), l1b := s.l1b ++ [rec], l1bs := s.l1bs ++ [rec] }

/-- Results that are the same but for the attribute. -/
def SameOut : Out State → Out State → Prop
  | .ok s, .ok t => SameBut s t
  | .error (.raised e s), .error (.raised e' t) => e = e' ∧ SameBut s t
  | .error (.nan s), .error (.nan t) => SameBut s t
  | _, _ => False

theorem outS_same (k m : ℕ) (r : Out State) : SameOut (outS k r) (outS m r) := by
  cases r with
  | ok s => exact rfl
  | error x =>
    cases x with
    | raised e s => exact ⟨rfl, rfl⟩
    | nan s => exact rfl

theorem outS_self (k : ℕ) (r : Out State) : SameOut r (outS k r) := by
  cases r with
  | ok s => exact rfl
  | error x =>
    cases x with
    | raised e s => exact ⟨rfl, rfl⟩
    | nan s => exact rfl

theorem finish_spoilt (k : ℕ) (s : State) : SameOut (finishSurface c o file s) (finishSurface c o file (s.spoilt k)) := by
  unfold finishSurface
  have e1 : (s.spoilt k).ctl = s.ctl := rfl
  have e2 : (s.spoilt k).surfs = s.surfs := rfl
  have e3 : (s.spoilt k).mem = s.mem := rfl
  rw [e1, e2, e3]
  cases s.ctl.surfaces with
  | nil => exact ⟨rfl, rfl⟩
  | cons w rest =>
    cases s.surfs with
    | nil => exact ⟨rfl, rfl⟩
    | cons f fs =>
      dsimp only
      rw [surfaceAw_prev c.weighting c.pattern o.argsort o.round o.junk c.chain s.mem (place f) (s.spoilt k).closest s.closest (looksOf w)]
      cases Chain.surfaceAw c.weighting c.pattern o.argsort o.round o.junk c.chain s.mem (place f) s.closest (looksOf w) with
      | error e => exact ⟨rfl, rfl⟩
      | ok r =>
        cases r with
        | none => exact rfl
        | some r =>
          dsimp only
          cases sigma0 c file s.mem f r with
          | none => exact ⟨rfl, rfl⟩
          | some g =>
            dsimp only
            have q1 := write_spoilt o (nextClosest c o s (looksOf w)) w ⟨w.counter, f.loc, r, g⟩ { s with surfs := f :: fs }
            have q2 := write_spoilt o (nextClosest c o (s.spoilt k) (looksOf w)) w ⟨w.counter, f.loc, r, g⟩ { s with surfs := f :: fs }
            have q3 := outS_same (nextClosest c o s (looksOf w)) (nextClosest c o (s.spoilt k) (looksOf w))
              (writeSurface o w ⟨w.counter, f.loc, r, g⟩ { s with surfs := f :: fs })
            rw [← q1, ← q2] at q3
            exact q3

theorem phase_spoilt (k : ℕ) (s : State) : SameOut (surfacePhase c o file s) (surfacePhase c o file (s.spoilt k)) := by
  unfold surfacePhase
  have e1 : (s.spoilt k).ctl = s.ctl := rfl
  rw [e1]
  by_cases h : s.ctl.surfaceProcessing = true ∨ minSurfs ≤ s.ctl.surfaces.length ∨ s.ctl.gapProcessing = true
  · rw [if_pos h, if_pos h]
    cases s.ctl.surfaces with
    | nil => exact ⟨rfl, rfl⟩
    | cons w rest =>
      dsimp only
      have q := loop_spoilt c file k s.ctl.packets [] s.begun
      have q : packetLoop c file [] s.ctl.packets (s.spoilt k).begun = outS k (packetLoop c file [] s.ctl.packets s.begun) := q
      rw [q]
      cases packetLoop c file [] s.ctl.packets s.begun with
      | error x => exact outS_self k (.error x)
      | ok s2 => exact finish_spoilt c o file k s2
  · rw [if_neg h, if_neg h]
    exact rfl

theorem end_spoilt (k : ℕ) (s : State) : endPhase (s.spoilt k) = outS k (endPhase s) := by
  unfold endPhase State.spoilt
  dsimp only
  cases Process.endPhase s.ctl <;> rfl

theorem begin_spoilt (k : ℕ) (s : State) : beginIteration o (s.spoilt k) = (beginIteration o s).spoilt k := rfl

theorem step_spoilt (k : ℕ) (s : State) : SameOut (step c o file s) (step c o file (s.spoilt k)) := by
  unfold step
  rw [begin_spoilt, input_spoilt]
  cases inputPhase c file (beginIteration o s) with
  | error x => exact outS_self k (.error x)
  | ok y =>
    obtain ⟨b, s1⟩ := y
    cases b with
    | true => exact rfl
    | false =>
      show SameOut (match surfacePhase c o file s1 with
        | .error x => .error x
        | .ok s => endPhase s) (match surfacePhase c o file (s1.spoilt k) with
        | .error x => .error x
        | .ok s => endPhase s)
      have q := phase_spoilt c o file k s1
      revert q
      cases surfacePhase c o file s1 with
      | error x =>
        cases surfacePhase c o file (s1.spoilt k) with
        | error y => exact id
        | ok t => cases x <;> exact fun h => h.elim
      | ok s2 =>
        cases surfacePhase c o file (s1.spoilt k) with
        | error y => exact fun h => h.elim
        | ok t =>
          intro h
          have h : t = s2.spoilt t.closest := h
          dsimp only
          rw [h, end_spoilt]
          exact outS_self _ _

theorem run_spoilt (spoil : ℕ → ℕ) (fuel : ℕ) : ∀ s t : State, SameBut s t →
    SameOutcome (run c o file fuel s) (runSpoilt spoil c o file fuel t) := by
  induction fuel with
  | zero => intro s t h; exact h
  | succ fuel ih =>
    intro s t h
    rw [run, runSpoilt]
    have hctl : t.ctl = s.ctl := by rw [h]
    rw [hctl]
    by_cases hr : s.ctl.running = true
    · rw [if_pos hr, if_pos hr]
      have e : t.spoilt (spoil fuel) = s.spoilt (spoil fuel) := by rw [h]; rfl
      rw [e]
      have q := step_spoilt c o file (spoil fuel) s
      revert q
      cases step c o file s with
      | error x =>
        cases step c o file (s.spoilt (spoil fuel)) with
        | ok t => cases x <;> exact fun h => h.elim
        | error y =>
          cases x with
          | raised e s => cases y with
            | raised e' t => exact id
            | nan t => exact fun h => h.elim
          | nan s => cases y with
            | raised e' t => exact fun h => h.elim
            | nan t => exact id
      | ok s2 =>
        cases step c o file (s.spoilt (spoil fuel)) with
        | error y => exact fun h => h.elim
        | ok t2 => exact fun h => ih s2 t2 h
    · rw [if_neg hr, if_neg hr]
      cases o.finishFails with
      | some e => exact ⟨rfl, h⟩
      | none =>
        show SameBut _ _
        rw [h]
        exact rfl

/-! ## C160 -/

/-- **C160.**  The only attribute of an algorithm which a call for one surface may leave to the next (the index of the closest burst) has no
influence: if it is overwritten with anything at the start of each iteration, the call ends in the same way, with the same events and the same
records. -/
theorem nothing_left (spoil : ℕ → ℕ) (alg : Surface.Alg) (n : ℕ) :
    SameOutcome (process c o alg file n) (processSpoilt spoil c o alg file n) := by
  unfold process processSpoilt
  cases Reader.openDataset c.bounds (positions file n) with
  | error e => exact ⟨rfl, rfl⟩
  | ok d => exact run_spoilt c o file spoil _ _ _ rfl

/-- **C160, the products.** -/
theorem products_as_before (spoil : ℕ → ℕ) (alg : Surface.Alg) (n : ℕ) :
    (processSpoilt spoil c o alg file n).state.l1b = (process c o alg file n).state.l1b ∧
    (processSpoilt spoil c o alg file n).state.l1bs = (process c o alg file n).state.l1bs ∧
    (processSpoilt spoil c o alg file n).state.ctl = (process c o alg file n).state.ctl := by
  have h := nothing_left c o file spoil alg n
  have key : ∀ s t : State, SameBut s t → t.l1b = s.l1b ∧ t.l1bs = s.l1bs ∧ t.ctl = s.ctl := by
    intro s t h
    rw [h]
    exact ⟨rfl, rfl, rfl⟩
  revert h
  generalize process c o alg file n = p
  generalize processSpoilt spoil c o alg file n = q
  cases p <;> cases q <;> first | exact fun h => key _ _ h | exact fun h => key _ _ h.2 | exact fun h => h.elim

/-- The run of `Whole/Demo`, which writes one record, still writes it when the index is overwritten. -/
example (alg : Surface.Alg) : ∃ rec, (processSpoilt (fun k => 1000 + k) demoConf (demoWorld realArg) alg demoFile 2).state.l1b = [rec] ∧
    rec.bursts = [0] := by
  obtain ⟨s, rec, h1, h2, _, _, _, h6, _⟩ := demo_run realArg realArg_isArgsort alg
  refine ⟨rec, ?_, h6⟩
  rw [(products_as_before demoConf (demoWorld realArg) demoFile _ alg 2).1, h1]
  exact h2

end Dedop.Whole
