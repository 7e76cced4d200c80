import Verif.Whole.Props
import Verif.Whole.Grow

/-!
# Two runs side by side (lemmas)

If the parts of the state of two runs are related, and every algorithm keeps the relations, then both runs end in the same
way, with the same events, and their products are related record by record.
-/
namespace Dedop.Whole

open Real Process

/-! ## The relations -/

/-- Relations between surfaces, location algorithms, burst objects and records of two runs, a condition on the surfaces
of the first, and one on the bursts with which a gap may begin.  For statements about two runs of `processor.py:106-349`. -/
structure Twin where
  surf : Surface.Surf → Surface.Surf → Prop
  alg : Surface.Alg → Surface.Alg → Prop
  mem : ℕ → Chain.L1A → Chain.L1A → Prop
  record : Record → Record → Prop
  ok : Surface.Surf → Prop
  gap : ℕ → Prop

/-- The burst objects of a stack in both runs hold the values read, calibrated equally often: once, or twice after a gap. -/
def Alongside (gap : ℕ → Prop) (c1 c2 : Conf) (file1 file2 : ℕ → Raw) (mem1 mem2 : ℕ → Chain.L1A) (looks : Chain.Looks) : Prop :=
  ∀ l ∈ looks, ∃ k, 1 ≤ k ∧ (k = 1 ∨ gap l.2.2) ∧ body (mem1 l.2.2) = base c1 file1 k l.2.2 ∧ body (mem2 l.2.2) = base c2 file2 k l.2.2

/-- Related states: the variables of the loop are the same. -/
structure Rel (R : Twin) (s t : State) : Prop where
  ctl : t.ctl = s.ctl
  surfs : List.Forall₂ R.surf s.surfs t.surfs
  alg : R.alg s.alg t.alg
  mem : ∀ id, R.mem id (s.mem id) (t.mem id)
  l1b : List.Forall₂ R.record s.l1b t.l1b
  l1bs : List.Forall₂ R.record s.l1bs t.l1bs

/-- Both pieces of the program end in the same way, with related results. -/
inductive Both {A : Type} (Q : State → State → Prop) (P : A → A → Prop) : Out A → Out A → Prop
  | ok {a b : A} (h : P a b) : Both Q P (.ok a) (.ok b)
  | raised {e : PyErr} {s t : State} (h : Q s t) : Both Q P (.error (.raised e s)) (.error (.raised e t))
  | nan {s t : State} (h : Q s t) : Both Q P (.error (.nan s)) (.error (.nan t))

/-- Both runs end in the same way. -/
inductive SameKind (Q : State → State → Prop) : Outcome → Outcome → Prop
  | finished {s t : State} (h : Q s t) : SameKind Q (.finished s) (.finished t)
  | failed {e : PyErr} {s t : State} (h : Q s t) : SameKind Q (.failed e s) (.failed e t)
  | nan {s t : State} (h : Q s t) : SameKind Q (.nan s) (.nan t)
  | timeout {s t : State} (h : Q s t) : SameKind Q (.timeout s) (.timeout t)

theorem SameKind.state {Q : State → State → Prop} {a b : Outcome} (h : SameKind Q a b) : Q a.state b.state := by
  cases h <;> assumption

/-- Every algorithm keeps the relations. -/
structure Alike (R : Twin) (c1 c2 : Conf) (o1 o2 : World) (file1 file2 : ℕ → Raw) : Prop where
  pulses : c2.pulses = c1.pulses
  bri : c2.bri = c1.bri
  pos : 0 < c1.pulses
  step : ∀ a1 a2 ss1 ss2 (old : List ℕ) (id : ℕ) (force : Bool), R.alg a1 a2 → List.Forall₂ R.surf ss1 ss2 →
    match Surface.step c1.surface a1 ss1 (old.map (fun i => burst c1 (file1 i))) (burst c1 (file1 id)) force with
    | .err e => Surface.step c2.surface a2 ss2 (old.map (fun i => burst c2 (file2 i))) (burst c2 (file2 id)) force = .err e
    | .nan => Surface.step c2.surface a2 ss2 (old.map (fun i => burst c2 (file2 i))) (burst c2 (file2 id)) force = .nan
    | .ok x xs new => (∀ f ∈ xs, R.ok f) → ∃ x' xs',
        Surface.step c2.surface a2 ss2 (old.map (fun i => burst c2 (file2 i))) (burst c2 (file2 id)) force = .ok x' xs' new ∧
        R.alg x x' ∧ List.Forall₂ R.surf xs xs'
  fresh : ∀ id, R.mem id (fresh c1 id (file1 id)) (fresh c2 id (file2 id))
  calibrated : ∀ id b1 b2, R.mem id b1 b2 → R.mem id (calibrated c1 (file1 id) b1) (calibrated c2 (file2 id) b2)
  beams : ∀ id b1 b2 angles trend, R.mem id b1 b2 →
    R.mem id { b1 with angles := angles, trend := trend } { b2 with angles := angles, trend := trend }
  blank : ∀ id : ℕ, R.mem id { blank with seqCount := id } { blank with seqCount := id }
  qMin : ∀ id, qMin c2 ‖(file2 id).vel‖ = qMin c1 ‖(file1 id).vel‖
  doppler : ∀ id, doppler c2 (file2 id) = doppler c1 (file1 id)
  angle : ∀ id f1 f2, R.surf f1 f2 →
    Surface.beamAngle f2.loc.surf (burst c2 (file2 id)).sat (burst c2 (file2 id)).vel =
      Surface.beamAngle f1.loc.surf (burst c1 (file1 id)).sat (burst c1 (file1 id)).vel
  azimuth : ∀ id b1 b2, R.mem id b1 b2 →
    match Chain.azimuth c1.chain b1 with
    | .error e => Chain.azimuth c2.chain b2 = .error e
    | .ok _ => ∃ x, Chain.azimuth c2.chain b2 = .ok x
  surface : ∀ f1 f2 mem1 mem2 (p1 p2 : ℕ) looks, R.surf f1 f2 → (∀ id, R.mem id (mem1 id) (mem2 id)) →
    Chain.WellMade c1.chain mem1 looks → Alongside R.gap c1 c2 file1 file2 mem1 mem2 looks →
    match Chain.surfaceAw c1.weighting c1.pattern o1.argsort o1.round o1.junk c1.chain mem1 (place f1) p1 looks with
    | .error e => Chain.surfaceAw c2.weighting c2.pattern o2.argsort o2.round o2.junk c2.chain mem2 (place f2) p2 looks = .error e
    | .ok none => Chain.surfaceAw c2.weighting c2.pattern o2.argsort o2.round o2.junk c2.chain mem2 (place f2) p2 looks = .ok none
    | .ok (some r) => ∃ r', Chain.surfaceAw c2.weighting c2.pattern o2.argsort o2.round o2.junk c2.chain mem2 (place f2) p2 looks = .ok (some r') ∧
      match sigma0 c1 file1 mem1 f1 r with
      | none => sigma0 c2 file2 mem2 f2 r' = none
      | some g => ∃ g', sigma0 c2 file2 mem2 f2 r' = some g' ∧ ∀ n, R.record ⟨n, f1.loc, r, g⟩ ⟨n, f2.loc, r', g'⟩
  cancelled : o2.cancelled = o1.cancelled
  l1bFails : ∀ r1 r2, R.record r1 r2 → o2.l1bFails r2 = o1.l1bFails r1
  l1bsFails : ∀ r1 r2, R.record r1 r2 → o2.l1bsFails r2 = o1.l1bsFails r1
  counter : ∀ r1 r2, R.record r1 r2 → r2.counter = r1.counter
  finishFails : o2.finishFails = o1.finishFails
  skipL1bs : o2.skipL1bs = o1.skipL1bs

/-! ## Pieces of an iteration -/

variable {R : Twin} {c1 c2 : Conf} {o1 o2 : World} {file1 file2 : ℕ → Raw}

theorem Rel.upd {s t : State} (h : Rel R s t) (id : ℕ) {b1 b2 : Chain.L1A} (hb : R.mem id b1 b2) (id' : ℕ) :
    R.mem id' (Function.update s.mem id b1 id') (Function.update t.mem id b2 id') := by
  by_cases he : id' = id
  · subst he; rw [Function.update_self, Function.update_self]; exact hb
  · rw [Function.update_of_ne he, Function.update_of_ne he]; exact h.mem id'

theorem begin_twin (hA : Alike R c1 c2 o1 o2 file1 file2) {s t : State} (h : Rel R s t) :
    Rel R (beginIteration o1 s) (beginIteration o2 t) := by
  unfold beginIteration
  refine ⟨?_, h.surfs, h.alg, h.mem, h.l1b, h.l1bs⟩
  dsimp only
  rw [h.ctl, hA.cancelled]

theorem read_twin (hA : Alike R c1 c2 o1 o2 file1 file2) {s t : State} (h : Rel R s t) :
    Both (Rel R) (Rel R) (readNext c1 file1 s) (readNext c2 file2 t) := by
  unfold readNext
  rw [h.ctl]
  cases Process.readNext s.ctl with
  | error x =>
    obtain ⟨e, u⟩ := x
    exact .raised ⟨rfl, h.surfs, h.alg, h.mem, h.l1b, h.l1bs⟩
  | ok u =>
    dsimp only
    cases s.ctl.rest with
    | nil => exact .ok ⟨rfl, h.surfs, h.alg, h.mem, h.l1b, h.l1bs⟩
    | cons x rest =>
      cases x with
      | record p => exact .ok ⟨rfl, h.surfs, h.alg, h.upd p.counter (hA.fresh _), h.l1b, h.l1bs⟩
      | failure e => exact .ok ⟨rfl, h.surfs, h.alg, h.mem, h.l1b, h.l1bs⟩
      | invalid => exact .ok ⟨rfl, h.surfs, h.alg, h.mem, h.l1b, h.l1bs⟩

/-- Related results with the same answer. -/
def Pair (Q : State → State → Prop) (x y : Bool × State) : Prop := y.1 = x.1 ∧ Q x.2 y.2

theorem locations_twin (hA : Alike R c1 c2 o1 o2 file1 file2) {s t : State} (h : Rel R s t) (p : Pk ℝ) (force : Bool)
    (hok : ∀ b s', surfaceLocations c1 file1 s p force = .ok (b, s') → ∀ f ∈ s'.surfs, R.ok f) :
    Both (Rel R) (Pair (Rel R)) (surfaceLocations c1 file1 s p force) (surfaceLocations c2 file2 t p force) := by
  have q := hA.step s.alg t.alg s.surfs t.surfs (s.ctl.packets.map (fun x => x.1.counter)) p.counter force h.alg h.surfs
  rw [List.map_map, List.map_map] at q
  revert hok
  unfold surfaceLocations
  dsimp only
  rw [h.ctl]
  change match Surface.step c1.surface s.alg s.surfs (s.ctl.packets.map (fun x => burst c1 (file1 x.1.counter)))
      (burst c1 (file1 p.counter)) force with
    | .err e => Surface.step c2.surface t.alg t.surfs (s.ctl.packets.map (fun x => burst c2 (file2 x.1.counter)))
        (burst c2 (file2 p.counter)) force = .err e
    | .nan => Surface.step c2.surface t.alg t.surfs (s.ctl.packets.map (fun x => burst c2 (file2 x.1.counter)))
        (burst c2 (file2 p.counter)) force = .nan
    | .ok x xs new => (∀ f ∈ xs, R.ok f) → ∃ x' xs',
        Surface.step c2.surface t.alg t.surfs (s.ctl.packets.map (fun x => burst c2 (file2 x.1.counter)))
          (burst c2 (file2 p.counter)) force = .ok x' xs' new ∧
        R.alg x x' ∧ List.Forall₂ R.surf xs xs' at q
  revert q
  cases Surface.step c1.surface s.alg s.surfs (s.ctl.packets.map (fun x => burst c1 (file1 x.1.counter)))
      (burst c1 (file1 p.counter)) force with
  | err e =>
    intro q _
    dsimp only at q
    rw [q]
    exact .raised ⟨rfl, h.surfs, h.alg, h.mem, h.l1b, h.l1bs⟩
  | nan =>
    intro q _
    dsimp only at q
    rw [q]
    exact .nan ⟨rfl, h.surfs, h.alg, h.mem, h.l1b, h.l1bs⟩
  | ok x xs new =>
    intro q hok
    cases new with
    | false =>
      obtain ⟨x', xs', e, ha, hs⟩ := q (hok false _ rfl)
      rw [e]
      exact .ok ⟨rfl, rfl, hs, ha, h.mem, h.l1b, h.l1bs⟩
    | true =>
      obtain ⟨x', xs', e, ha, hs⟩ := q (hok true _ rfl)
      rw [e]
      exact .ok ⟨rfl, rfl, hs, ha, h.mem, h.l1b, h.l1bs⟩

/-- The state with a burst calibrated (`processor.py:205-206`). -/
noncomputable def State.calibrate (c : Conf) (file : ℕ → Raw) (s : State) (p : Pk ℝ) : State :=
  { s with
    ctl := s.ctl.log (.calibrated p.counter)
    mem := Function.update s.mem p.counter (calibrated c (file p.counter) (s.mem p.counter)) }

/-- The state with the time of the last burst set (`processor.py:211`). -/
def State.timed (s : State) (p : Pk ℝ) : State := { s with ctl := { s.ctl with prevTime := some p.time } }

/-- The state after a burst was accepted (`processor.py:216`). -/
def State.resumed (s : State) : State := { s with ctl := { s.ctl with gapResume := false } }

theorem handle_eq (c : Conf) (file : ℕ → Raw) (s : State) (p : Pk ℝ) : handlePacket c file s p =
    if inTime c (s.calibrate c file p).ctl p then
      match surfaceLocations c file ((s.calibrate c file p).timed p) p s.ctl.gapResume with
      | .error x => .error x
      | .ok (new, s) => .ok (!new, s.resumed)
    else
      .ok (false, { s.calibrate c file p with
        ctl := ({ (s.calibrate c file p).ctl with gapProcessing := true, prevTime := none, hasSub := true } : St ℝ).log
          (.gapStart p.counter s.ctl.surfaces.length) }) := rfl

theorem handle_twin (hA : Alike R c1 c2 o1 o2 file1 file2) {s t : State} (h : Rel R s t) (p : Pk ℝ)
    (hok : ∀ b s', handlePacket c1 file1 s p = .ok (b, s') → ∀ f ∈ s'.surfs, R.ok f) :
    Both (Rel R) (Pair (Rel R)) (handlePacket c1 file1 s p) (handlePacket c2 file2 t p) := by
  rw [handle_eq] at hok
  rw [handle_eq, handle_eq]
  have h1 : Rel R (s.calibrate c1 file1 p) (t.calibrate c2 file2 p) :=
    ⟨by show t.ctl.log _ = s.ctl.log _; rw [h.ctl], h.surfs, h.alg, h.upd p.counter (hA.calibrated _ _ _ (h.mem _)), h.l1b, h.l1bs⟩
  have hin : inTime c2 (t.calibrate c2 file2 p).ctl p = inTime c1 (s.calibrate c1 file1 p).ctl p := by
    rw [h1.ctl]
    unfold inTime
    rw [hA.bri]
  rw [hin]
  by_cases hi : inTime c1 (s.calibrate c1 file1 p).ctl p = true
  · rw [if_pos hi] at hok
    rw [if_pos hi, if_pos hi]
    have h2 : Rel R ((s.calibrate c1 file1 p).timed p) ((t.calibrate c2 file2 p).timed p) :=
      ⟨by unfold State.timed; rw [h1.ctl], h1.surfs, h1.alg, h1.mem, h1.l1b, h1.l1bs⟩
    have q := locations_twin hA h2 p s.ctl.gapResume
    rw [h.ctl]
    revert q hok
    generalize surfaceLocations c1 file1 ((s.calibrate c1 file1 p).timed p) p s.ctl.gapResume = x
    generalize surfaceLocations c2 file2 ((t.calibrate c2 file2 p).timed p) p s.ctl.gapResume = y
    intro hok q
    have q := q (by
      rintro b s' rfl
      exact hok (!b) s'.resumed rfl)
    cases q with
    | raised h => exact .raised h
    | nan h => exact .nan h
    | @ok a b hp =>
      obtain ⟨a1, a2⟩ := a
      obtain ⟨b1, b2⟩ := b
      obtain ⟨e, hp⟩ := hp
      dsimp only at e hp
      subst e
      exact .ok ⟨rfl, by unfold State.resumed; dsimp only; rw [hp.ctl], hp.surfs, hp.alg, hp.mem, hp.l1b, hp.l1bs⟩
  · rw [if_neg hi, if_neg hi]
    refine .ok ⟨rfl, ?_, h1.surfs, h1.alg, h1.mem, h1.l1b, h1.l1bs⟩
    dsimp only
    rw [h1.ctl, h.ctl]

theorem input_twin (hA : Alike R c1 c2 o1 o2 file1 file2) {s t : State} (h : Rel R s t)
    (hok : ∀ b s', inputPhase c1 file1 s = .ok (b, s') → ∀ f ∈ s'.surfs, R.ok f) :
    Both (Rel R) (Pair (Rel R)) (inputPhase c1 file1 s) (inputPhase c2 file2 t) := by
  unfold inputPhase at hok ⊢
  rw [h.ctl]
  by_cases hg : s.ctl.gapProcessing = true
  · rw [if_pos hg, if_pos hg]
    by_cases hsub : s.ctl.hasSub = true
    · rw [if_pos hsub, if_pos hsub]
      exact .ok ⟨rfl, rfl, h.surfs, h.alg, h.mem, h.l1b, h.l1bs⟩
    · rw [if_neg hsub, if_neg hsub]
      exact .ok ⟨rfl, h⟩
  · rw [if_neg hg] at hok
    rw [if_neg hg, if_neg hg]
    have q : Both (Rel R) (Rel R) (if s.ctl.gapResume then .ok s else readNext c1 file1 s)
        (if s.ctl.gapResume then .ok t else readNext c2 file2 t) := by
      by_cases hr : s.ctl.gapResume = true
      · rw [if_pos hr, if_pos hr]; exact .ok h
      · rw [if_neg hr, if_neg hr]; exact read_twin hA h
    revert q hok
    generalize (if s.ctl.gapResume then .ok s else readNext c1 file1 s) = x
    generalize (if s.ctl.gapResume then .ok t else readNext c2 file2 t) = y
    intro hok q
    cases q with
    | raised h => exact .raised h
    | nan h => exact .nan h
    | @ok a b hp =>
      dsimp only at hok ⊢
      rw [hp.ctl]
      cases hi : a.ctl.input with
      | none => exact .ok ⟨rfl, hp⟩
      | some p =>
        rw [hi] at hok
        exact handle_twin hA hp p hok

theorem angle_twin (hA : Alike R c1 c2 o1 o2 file1 file2) (id : ℕ) (v : Beams.View ℝ) {ss1 ss2 : List Surface.Surf}
    (hs : List.Forall₂ R.surf ss1 ss2) (k : ℕ) :
    angle (burst c2 (file2 id)) v ss2 k = angle (burst c1 (file1 id)) v ss1 k := by
  unfold angle
  have : ss2[k]?.bind (fun f => Surface.beamAngle f.loc.surf (burst c2 (file2 id)).sat (burst c2 (file2 id)).vel) =
      ss1[k]?.bind (fun f => Surface.beamAngle f.loc.surf (burst c1 (file1 id)).sat (burst c1 (file1 id)).vel) := by
    induction hs generalizing k with
    | nil => rfl
    | cons h _ ih =>
      cases k with
      | zero => exact hA.angle id _ _ h
      | succ k => exact ih k
  rw [this]

theorem burst_twin (hA : Alike R c1 c2 o1 o2 file1 file2) {s t : State} (h : Rel R s t) (p : Pk ℝ) :
    Both (Rel R) (Pair (Rel R)) (burstBeams c1 file1 s p) (burstBeams c2 file2 t p) := by
  unfold burstBeams
  rw [hA.qMin, h.ctl, hA.doppler, hA.pulses]
  cases qMin c1 ‖(file1 p.counter).vel‖ with
  | error e => exact .raised ⟨rfl, h.surfs, h.alg, h.mem, h.l1b, h.l1bs⟩
  | ok q =>
    dsimp only
    have hf : (fun x : Beams.Surf (Pk ℝ) × ℕ => angle (burst c2 (file2 p.counter)) (view q (doppler c1 (file1 p.counter))) t.surfs x.2) =
        fun x => angle (burst c1 (file1 p.counter)) (view q (doppler c1 (file1 p.counter))) s.surfs x.2 := by
      funext x
      exact angle_twin hA _ _ h.surfs _
    rw [hf]
    exact .ok ⟨rfl, rfl, h.surfs, h.alg, h.upd p.counter (hA.beams _ _ _ _ _ (h.mem _)), h.l1b, h.l1bs⟩

theorem loop_twin (hA : Alike R c1 c2 o1 o2 file1 file2) (todo : List (Pk ℝ × Bool)) :
    ∀ (done : List (Pk ℝ × Bool)) (s t : State), Rel R s t →
      Both (Rel R) (Rel R) (packetLoop c1 file1 done todo s) (packetLoop c2 file2 done todo t) := by
  induction todo with
  | nil => intro done s t h; exact .ok h
  | cons x todo ih =>
    intro done s t h
    obtain ⟨p, b⟩ := x
    cases b with
    | true => exact ih _ _ _ h
    | false =>
      rw [packetLoop, packetLoop]
      have q := burst_twin hA h p
      generalize burstBeams c1 file1 s p = x at q
      generalize burstBeams c2 file2 t p = y at q
      cases q with
      | raised h => exact .raised h
      | nan h => exact .nan h
      | @ok a b hp =>
        obtain ⟨a1, a2⟩ := a
        obtain ⟨b1, b2⟩ := b
        obtain ⟨e, hp⟩ := hp
        dsimp only at e hp ⊢
        subst e
        have qa := hA.azimuth p.counter _ _ (hp.mem p.counter)
        revert qa
        cases Chain.azimuth c1.chain (a2.mem p.counter) with
        | error e =>
          intro qa
          dsimp only at qa
          rw [qa]
          exact .raised ⟨by dsimp only; rw [hp.ctl], hp.surfs, hp.alg, hp.mem, hp.l1b, hp.l1bs⟩
        | ok y =>
          rintro ⟨x, qa⟩
          rw [qa]
          have hr : Rel R { a2 with ctl := { a2.ctl.log (.beams p.counter) with packets := done ++ (p, true) :: todo } }
              { b2 with ctl := { b2.ctl.log (.beams p.counter) with packets := done ++ (p, true) :: todo } } :=
            ⟨by dsimp only; rw [hp.ctl], hp.surfs, hp.alg, hp.mem, hp.l1b, hp.l1bs⟩
          dsimp only
          by_cases hb : b1 = true
          · rw [if_pos hb, if_pos hb]
            exact ih _ _ _ hr
          · rw [if_neg hb, if_neg hb]
            exact .ok hr

theorem clear_twin {s t : State} (h : Rel R s t) (w : Beams.Surf (Pk ℝ)) : Both (Rel R) (Rel R) (clearOld w s) (clearOld w t) := by
  unfold clearOld
  rw [h.ctl]
  cases Process.clearOld w s.ctl with
  | error x => exact .raised ⟨rfl, h.surfs, h.alg, h.mem, h.l1b, h.l1bs⟩
  | ok u =>
    refine .ok ⟨rfl, ?_, h.alg, h.mem, h.l1b, h.l1bs⟩
    have := h.surfs
    revert this
    generalize s.surfs = x
    generalize t.surfs = y
    intro q
    cases q with
    | nil => exact .nil
    | cons _ q => exact q

theorem write_twin (hA : Alike R c1 c2 o1 o2 file1 file2) {s t : State} (h : Rel R s t) (w : Beams.Surf (Pk ℝ)) {r1 r2 : Record}
    (hr : R.record r1 r2) : Both (Rel R) (Rel R) (writeSurface o1 w r1 s) (writeSurface o2 w r2 t) := by
  unfold writeSurface
  rw [hA.l1bFails _ _ hr]
  cases o1.l1bFails r1 with
  | some e => exact .raised h
  | none =>
    dsimp only
    set u : State := { s with ctl := s.ctl.log (.l1b w.counter (stackIds w)), l1b := s.l1b ++ [r1] } with hu
    set v : State := { t with ctl := t.ctl.log (.l1b w.counter (stackIds w)), l1b := t.l1b ++ [r2] } with hv
    have h1 : Rel R u v :=
      ⟨by rw [hu, hv]; dsimp only; rw [h.ctl], h.surfs, h.alg, h.mem, List.rel_append h.l1b (.cons hr .nil), h.l1bs⟩
    have q : Both (Rel R) (Rel R) (writeL1bs o1 r1 u) (writeL1bs o2 r2 v) := by
      unfold writeL1bs
      rw [hA.skipL1bs, hA.l1bsFails _ _ hr, hA.counter _ _ hr]
      by_cases hs : o1.skipL1bs = true
      · rw [if_pos hs, if_pos hs]; exact .ok h1
      · rw [if_neg hs, if_neg hs]
        cases o1.l1bsFails r1 with
        | some e => exact .raised h1
        | none =>
          exact .ok ⟨by dsimp only; rw [h1.ctl], h1.surfs, h1.alg, h1.mem, h1.l1b, List.rel_append h1.l1bs (.cons hr .nil)⟩
    generalize writeL1bs o1 r1 u = x at q
    generalize writeL1bs o2 r2 v = y at q
    cases q with
    | raised h => exact .raised h
    | nan h => exact .nan h
    | ok h => exact clear_twin h w

/-- The bursts of the stacks are as they should be in both runs. -/
def BothMade (gap : ℕ → Prop) (c1 c2 : Conf) (file1 file2 : ℕ → Raw) (s t : State) : Prop :=
  Made c1 file1 s ∧ ∀ w ∈ s.ctl.surfaces, Alongside gap c1 c2 file1 file2 s.mem t.mem (looksOf w)

theorem finish_twin (hA : Alike R c1 c2 o1 o2 file1 file2) {s t : State} (h : Rel R s t)
    (hm : BothMade R.gap c1 c2 file1 file2 s t) :
    Both (Rel R) (Rel R) (finishSurface c1 o1 file1 s) (finishSurface c2 o2 file2 t) := by
  unfold finishSurface
  have hs := h.surfs
  rw [h.ctl]
  cases hw : s.ctl.surfaces with
  | nil =>
    dsimp only
    exact .raised h
  | cons w rest =>
    revert hs
    generalize hx : s.surfs = x
    generalize hy : t.surfs = y
    intro hs
    cases hs with
    | nil => exact .raised h
    | @cons f1 f2 fs1 fs2 hf hs =>
      dsimp only
      have q := hA.surface f1 f2 s.mem t.mem s.closest t.closest (looksOf w) hf h.mem
        ⟨hA.pos, fun l hl => hm.1.looks w (by rw [hw]; simp) l hl⟩ (hm.2 w (by rw [hw]; simp))
      revert q
      cases Chain.surfaceAw c1.weighting c1.pattern o1.argsort o1.round o1.junk c1.chain s.mem (place f1) s.closest (looksOf w) with
      | error e =>
        intro q
        dsimp only at q
        rw [q]
        exact .raised h
      | ok r =>
        cases r with
        | none =>
          intro q
          dsimp only at q
          rw [q]
          refine .ok ⟨rfl, ?_, h.alg, h.mem, h.l1b, h.l1bs⟩
          exact hs
        | some r =>
          rintro ⟨r', e, q⟩
          rw [e]
          dsimp only
          revert q
          cases sigma0 c1 file1 s.mem f1 r with
          | none =>
            intro q
            dsimp only at q
            rw [q]
            exact .raised h
          | some g =>
            rintro ⟨g', e2, q⟩
            rw [e2]
            dsimp only
            have hr : Rel R ⟨s.ctl, f1 :: fs1, s.mem, s.alg, nextClosest c1 o1 s (looksOf w), s.l1b, s.l1bs⟩
                ⟨s.ctl, f2 :: fs2, t.mem, t.alg, nextClosest c2 o2 t (looksOf w), t.l1b, t.l1bs⟩ :=
              ⟨rfl, .cons hf hs, h.alg, h.mem, h.l1b, h.l1bs⟩
            exact write_twin hA hr w (q w.counter)

theorem surface_twin (hA : Alike R c1 c2 o1 o2 file1 file2) {s t : State} (h : Rel R s t)
    (hm : ∀ s' t', packetLoop c1 file1 [] s.ctl.packets s.begun = .ok s' → packetLoop c2 file2 [] t.ctl.packets t.begun = .ok t' →
      Rel R s' t' → BothMade R.gap c1 c2 file1 file2 s' t') :
    Both (Rel R) (Rel R) (surfacePhase c1 o1 file1 s) (surfacePhase c2 o2 file2 t) := by
  unfold surfacePhase
  rw [h.ctl] at hm ⊢
  have h1 : Rel R s.begun t.begun := ⟨by unfold State.begun; dsimp only; rw [h.ctl], h.surfs, h.alg, h.mem, h.l1b, h.l1bs⟩
  by_cases hc : s.ctl.surfaceProcessing = true ∨ minSurfs ≤ s.ctl.surfaces.length ∨ s.ctl.gapProcessing = true
  · rw [if_pos hc, if_pos hc]
    cases s.ctl.surfaces with
    | nil => exact .raised h1
    | cons w rest =>
      dsimp only
      have q := loop_twin hA s.ctl.packets [] _ _ h1
      revert hm q
      generalize packetLoop c1 file1 [] s.ctl.packets s.begun = x
      generalize packetLoop c2 file2 [] s.ctl.packets t.begun = y
      intro hm q
      cases q with
      | raised h => exact .raised h
      | nan h => exact .nan h
      | ok hp => exact finish_twin hA hp (hm _ _ rfl rfl hp)
  · rw [if_neg hc, if_neg hc]
    exact .ok h

theorem end_twin {s t : State} (h : Rel R s t) : Both (Rel R) (Rel R) (endPhase s) (endPhase t) := by
  unfold endPhase
  rw [h.ctl]
  cases Process.endPhase s.ctl with
  | error x => exact .raised ⟨rfl, h.surfs, h.alg, h.mem, h.l1b, h.l1bs⟩
  | ok u => exact .ok ⟨rfl, h.surfs, h.alg, h.mem, h.l1b, h.l1bs⟩

/-! ## Runs -/

/-- The states at the starts of the iterations of a run, and after the last (`processor.py:178`). -/
inductive Reached (c : Conf) (o : World) (file : ℕ → Raw) (s0 : State) : State → Prop
  | start : Reached c o file s0 s0
  | next {s t : State} (h : Reached c o file s0 s) (hr : s.ctl.running = true) (hs : step c o file s = .ok t) : Reached c o file s0 t

/-- The condition holds of all surfaces in the queue throughout a run: after the first part of each iteration. -/
def RunOk (ok : Surface.Surf → Prop) (c : Conf) (o : World) (file : ℕ → Raw) (s0 : State) : Prop :=
  ∀ s, Reached c o file s0 s → s.ctl.running = true →
    ∀ b s', inputPhase c file (beginIteration o s) = .ok (b, s') → ∀ f ∈ s'.surfs, ok f

variable {s0 t0 : State} {its : List (Item ℝ)}

theorem loop_gaps {c : Conf} {o : World} {file : ℕ → Raw} {s1 s2 : State} (h : Mid its s1)
    (hS : afterInput c o file (stateAt c o file s0 (s1.ctl.k - 1)) = s1)
    (hs : packetLoop c file [] s1.ctl.packets s1.begun = .ok s2) : gapOf s2.ctl.trace = gapOf s1.ctl.trace := by
  obtain ⟨q1, q2⟩ := loop_sim c o file (stateAt c o file s0) s1.ctl.packets [] s1.begun (h.inv.of rfl rfl rfl) (by
        change (afterInput c o file (stateAt c o file s0 (s1.ctl.k - 1))).surfs = s1.surfs
        rw [hS])
  rw [hs] at q1
  change Process.packetLoop (runEnv c o file s0) [] s1.ctl.packets s1.ctl.begun = .ok s2.ctl at q1
  have hrel := packetLoop_spec (runEnv c o file s0) s1.ctl.packets [] s1.ctl.begun rfl
  rw [q1] at hrel
  obtain ⟨new, n, hl, hp⟩ := hrel
  have htr : s2.ctl.trace = s1.ctl.trace ++ new.map (fun p => Event.beams p.counter) := hl.trace
  rw [htr, gapOf_append]
  have : gapOf (new.map (fun p => Event.beams p.counter)) = [] := by
    unfold gapOf
    rw [List.filterMap_map]
    simp [Function.comp_def]
  rw [this, List.append_nil]

theorem Mid.once {s : State} (hnd : (itemIds its).Nodup) (h : Mid its s) {w : Beams.Surf (Pk ℝ)} (hw : w ∈ s.ctl.surfaces) {id : ℕ}
    (hid : id ∈ stackIds w) (hgap : id ∉ gapOf s.ctl.trace) : (calibratedOf s.ctl.trace).count id = 1 := by
  obtain ⟨_, h2, h3, h4⟩ := h.held w hw id hid
  have hread : (readOf s.ctl.trace).Nodup := by
    have := h.ids.all
    rw [← this, List.nodup_append] at hnd
    exact hnd.1
  have hacc : (acceptedOf s.ctl.trace).Nodup := by
    have := h.ids.pend
    rw [this, List.nodup_append] at hread
    exact hread.1
  rw [h.ids.cal, List.Nodup.count hacc, if_pos h2, List.count_eq_zero_of_not_mem hgap]

theorem step_twin (hA : Alike R c1 c2 o1 o2 file1 file2) (hnd : (itemIds its).Nodup) (hR : RunOk R.ok c1 o1 file1 s0)
    {s t : State}
    (hs : Reached c1 o1 file1 s0 s) (h : Rel R s t) (hg : Good c1 o1 file1 s0 its s) (hr : s.ctl.running = true) (hm : Made c1 file1 s)
    (hg' : Good c2 o2 file2 t0 its t) (hm' : Made c2 file2 t)
    (hgap : ∀ b s', inputPhase c1 file1 (beginIteration o1 s) = .ok (b, s') → ∀ id ∈ gapOf s'.ctl.trace, R.gap id) :
    Both (Rel R) (Rel R) (step c1 o1 file1 s) (step c2 o2 file2 t) := by
  have hok : ∀ b s', inputPhase c1 file1 (beginIteration o1 s) = .ok (b, s') → ∀ f ∈ s'.surfs, R.ok f := hR s hs hr
  have q := input_twin hA (begin_twin hA h) hok
  have q2 := fun b s1 => hg.input (b := b) (s1 := s1) hr
  have q3 := fun b s1 => input_made c1 file1 (itemIds its) hnd (beginIteration o1 s) s1 b hg.begin.ids
    (fun w hw id hid => (hg.begin.held w hw id hid).2.2.1) hm.begin
  have hr' : t.ctl.running = true := by rw [h.ctl]; exact hr
  have q2' := fun b s1 => hg'.input (b := b) (s1 := s1) hr'
  have q3' := fun b s1 => input_made c2 file2 (itemIds its) hnd (beginIteration o2 t) s1 b hg'.begin.ids
    (fun w hw id hid => (hg'.begin.held w hw id hid).2.2.1) hm'.begin
  unfold step
  revert q q2 q3 q2' q3' hgap
  generalize inputPhase c1 file1 (beginIteration o1 s) = x
  generalize inputPhase c2 file2 (beginIteration o2 t) = y
  intro hgap q q2 q3 q2' q3'
  cases q with
  | raised h => exact .raised h
  | nan h => exact .nan h
  | @ok a b hp =>
    obtain ⟨a1, a2⟩ := a
    obtain ⟨b1, b2⟩ := b
    obtain ⟨e, hp⟩ := hp
    dsimp only at e hp
    subst e
    cases b1 with
    | true => exact .ok hp
    | false =>
      dsimp only
      obtain ⟨m1, m2, _⟩ := q2 false a2 rfl
      have hm1 := q3 false a2 rfl
      obtain ⟨n1, n2⟩ := m1.apart hnd
      obtain ⟨m1', m2', _⟩ := q2' false b2 rfl
      have hm1' := q3' false b2 rfl
      obtain ⟨n1', n2'⟩ := m1'.apart hnd
      have q4 := surface_twin hA hp (fun s2 t2 hs2 ht2 hrel => by
        have hM := (loop_made c1 o1 file1 (stateAt c1 o1 file1 s0) a2.ctl.packets [] a2.begun s2
          (m1.inv.of rfl rfl rfl) (by
            change (afterInput c1 o1 file1 (stateAt c1 o1 file1 s0 (a2.ctl.k - 1))).surfs = a2.surfs
            rw [m2]) n1 n2 (hm1.of (fun w hw => Or.inl hw) rfl rfl rfl rfl rfl) hs2).1
        have hM' := (loop_made c2 o2 file2 (stateAt c2 o2 file2 t0) b2.ctl.packets [] b2.begun t2
          (m1'.inv.of rfl rfl rfl) (by
            change (afterInput c2 o2 file2 (stateAt c2 o2 file2 t0 (b2.ctl.k - 1))).surfs = b2.surfs
            rw [m2']) n1' n2' (hm1'.of (fun w hw => Or.inl hw) rfl rfl rfl rfl rfl) ht2).1
        have hmid := mid_loop m1 m2 hs2
        have hgaps := loop_gaps m1 m2 hs2
        refine ⟨hM, fun w hw l hl => ⟨(calibratedOf s2.ctl.trace).count l.2.2, ?_, ?_, ?_, ?_⟩⟩
        · exact (((hmid.known hnd) w hw).2 _ (mem_looksOf hl)).2.1
        · by_cases hin : l.2.2 ∈ gapOf s2.ctl.trace
          · right
            rw [hgaps] at hin
            exact hgap false a2 rfl _ hin
          · left
            exact hmid.once hnd hw (mem_looksOf hl) hin
        · exact hM.bodies _ (hmid.held w hw _ (mem_looksOf hl)).2.2.1
        · have := hM'.bodies l.2.2 (by rw [hrel.ctl]; exact (hmid.held w hw _ (mem_looksOf hl)).2.2.1)
          rw [hrel.ctl] at this
          exact this)
      generalize surfacePhase c1 o1 file1 a2 = x at q4
      generalize surfacePhase c2 o2 file2 b2 = y at q4
      cases q4 with
      | raised h => exact .raised h
      | nan h => exact .nan h
      | ok hp => exact end_twin hp

theorem run_twin (hA : Alike R c1 c2 o1 o2 file1 file2) (hnd : (itemIds its).Nodup) (hR : RunOk R.ok c1 o1 file1 s0) (fuel : ℕ) :
    ∀ s t : State, Reached c1 o1 file1 s0 s → Rel R s t → Good c1 o1 file1 s0 its s → Made c1 file1 s →
      Good c2 o2 file2 t0 its t → Made c2 file2 t → (∀ id ∈ gapOf (run c1 o1 file1 fuel s).state.ctl.trace, R.gap id) →
      SameKind (Rel R) (run c1 o1 file1 fuel s) (run c2 o2 file2 fuel t) := by
  induction fuel with
  | zero => intro s t _ h _ _ _ _ _; exact .timeout h
  | succ fuel ih =>
    intro s t hs h hg hm hg' hm' hG
    have hgap : s.ctl.running = true → ∀ b s', inputPhase c1 file1 (beginIteration o1 s) = .ok (b, s') →
        ∀ id ∈ gapOf s'.ctl.trace, R.gap id :=
      fun hr b s' hs' id hid => hG id (gapOf_mono (input_recorded fuel hg hr hs') hid)
    rw [run] at hG
    rw [run, run, h.ctl]
    by_cases hr : s.ctl.running = true
    · rw [if_pos hr, if_pos hr]
      rw [if_pos hr] at hG
      have q := step_twin hA hnd hR hs h hg hr hm hg' hm' (hgap hr)
      have q0 := fun s' => hs.next (t := s') hr
      have q1 := fun s' => hg.next (s' := s') hr
      have q2 := step_ends hnd hg hr hm
      have hr' : t.ctl.running = true := by rw [h.ctl]; exact hr
      have q3 := fun t' => hg'.next (s' := t') hr'
      have q4 := step_ends hnd hg' hr' hm'
      revert hG q q0 q1 q2 q3 q4
      generalize step c1 o1 file1 s = x
      generalize step c2 o2 file2 t = y
      intro hG q q0 q1 q2 q3 q4
      cases q with
      | raised h => exact .failed h
      | nan h => exact .nan h
      | ok hp => exact ih _ _ (q0 _ rfl) hp (q1 _ rfl) q2.2.1 (q3 _ rfl) q4.2.1 hG
    · rw [if_neg hr, if_neg hr, hA.finishFails]
      cases o1.finishFails with
      | some e => exact .failed h
      | none =>
        refine .finished ⟨?_, h.surfs, h.alg, h.mem, h.l1b, h.l1bs⟩
        dsimp only

theorem rel_start (hA : Alike R c1 c2 o1 o2 file1 file2) {a1 a2 : Surface.Alg} (ha : R.alg a1 a2) (its : List (Item ℝ)) :
    Rel R (start a1 its) (start a2 its) := ⟨rfl, .nil, ha, hA.blank, .nil, .nil⟩

/-- Both runs on a file end in the same way, with the same events, and their products are related. -/
theorem process_twin (hA : Alike R c1 c2 o1 o2 file1 file2) {a1 a2 : Surface.Alg} (ha : R.alg a1 a2) (n : ℕ)
    (hopen : match Reader.openDataset c1.bounds (positions file1 n) with
      | .error e => Reader.openDataset c2.bounds (positions file2 n) = .error e
      | .ok d => ∃ d', Reader.openDataset c2.bounds (positions file2 n) = .ok d' ∧ items file2 n d' = items file1 n d)
    (hR : ∀ d, Reader.openDataset c1.bounds (positions file1 n) = .ok d → RunOk R.ok c1 o1 file1 (start a1 (items file1 n d)))
    (hG : ∀ id ∈ gapOf (process c1 o1 a1 file1 n).state.ctl.trace, R.gap id) :
    SameKind (Rel R) (process c1 o1 a1 file1 n) (process c2 o2 a2 file2 n) := by
  unfold process at hG ⊢
  cases h : Reader.openDataset c1.bounds (positions file1 n) with
  | error e =>
    rw [h] at hopen
    dsimp only at hopen
    rw [hopen]
    exact .failed (rel_start hA ha [])
  | ok d =>
    rw [h] at hopen hG
    obtain ⟨d', e, hi⟩ := hopen
    rw [e]
    dsimp only
    rw [hi]
    obtain ⟨h1, h2⟩ := items_usable file1 n d h
    have hm : ∀ c file a, Made c file (start a (items file1 n d)) := by
      intro c file a
      refine ⟨?_, Or.inl rfl, ?_⟩
      · intro w hw; simp [start, Process.start] at hw
      · intro id hid; simp [start, Process.start, readOf] at hid
    exact run_twin hA (h1.imp (fun h => Nat.ne_of_lt h)) (hR d h) _ _ _ .start (rel_start hA ha _) (good_start c1 o1 file1 a1 _)
      (hm _ _ _) (good_start c2 o2 file2 a2 _) (hm _ _ _) hG

end Dedop.Whole
