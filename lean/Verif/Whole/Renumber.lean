import Verif.Whole.Echo
import Verif.Whole.Aim
import Verif.Chain.Renumber

/-!
# Runs on a file and on a part of it (lemmas)

Two files such that record `i` of the first is record `i + a` of the second, for all records which are used: the runs take the same
course, and the products are the same but for the numbers of the bursts.
-/
namespace Dedop.Whole

open Real Process

/-! ## The renumbered objects -/

/-- A record of the input with its number larger by `a`. -/
def movePk (a : ℕ) (p : Pk ℝ) : Pk ℝ := ⟨p.counter + a, p.time⟩

/-- What the input gives, renumbered. -/
def moveItem (a : ℕ) : Item ℝ → Item ℝ
  | .record p => .record (movePk a p)
  | .invalid => .invalid
  | .failure e => .failure e

/-- The stack of a surface with its bursts renumbered. -/
def moveStack (a : ℕ) (w : Beams.Surf (Pk ℝ)) : Beams.Surf (Pk ℝ) := { w with bursts := w.bursts.map (movePk a) }

/-- An event, with bursts renumbered. -/
def moveEvent (a : ℕ) : Event → Event
  | .read id => .read (id.map (· + a))
  | .calibrated id => .calibrated (id + a)
  | .accepted id => .accepted (id + a)
  | .gapStart id t => .gapStart (id + a) t
  | .beams id => .beams (id + a)
  | .dropped n stack => .dropped n (stack.map (· + a))
  | .l1b n stack => .l1b n (stack.map (· + a))
  | e => e

/-- The variables of the loop with bursts renumbered. -/
def moveSt (a : ℕ) (s : St ℝ) : St ℝ :=
  { s with input := s.input.map (movePk a), rest := s.rest.map (moveItem a), surfaces := s.surfaces.map (moveStack a)
           packets := s.packets.map (fun x => (movePk a x.1, x.2)), trace := s.trace.map (moveEvent a) }

/-- A record of a product with bursts renumbered. -/
def moveRecord (a : ℕ) (r : Record) : Record := { r with result := Chain.moveResult a r.result }

/-- All bursts which are still to come or in use have the property. -/
structure Within (G : ℕ → Prop) (s : St ℝ) : Prop where
  input : ∀ p, s.input = some p → G p.counter
  rest : ∀ p, .record p ∈ s.rest → G p.counter
  packets : ∀ x ∈ s.packets, G x.1.counter
  held : ∀ w ∈ s.surfaces, ∀ id ∈ stackIds w, G id

/-- Related states. -/
structure Shifted (a : ℕ) (G : ℕ → Prop) (s t : State) : Prop where
  ctl : t.ctl = moveSt a s.ctl
  within : Within G s.ctl
  surfs : t.surfs = s.surfs
  alg : t.alg = s.alg
  closest : t.closest = s.closest
  mem : ∀ id, t.mem (id + a) = Chain.moveBurst a (s.mem id)
  l1b : t.l1b = s.l1b.map (moveRecord a)
  l1bs : t.l1bs = s.l1bs.map (moveRecord a)

/-! ## Lemmas -/

variable {a : ℕ} {G : ℕ → Prop} {c1 c2 : Conf} {o : World} {file1 file2 : ℕ → Raw}

theorem moveSt_log (s : St ℝ) (e : Event) : moveSt a (s.log e) = (moveSt a s).log (moveEvent a e) := by
  unfold moveSt St.log
  simp

theorem stackIds_move (w : Beams.Surf (Pk ℝ)) : stackIds (moveStack a w) = (stackIds w).map (· + a) := by
  unfold stackIds moveStack
  simp [movePk]

theorem Shifted.upd {s t : State} (h : Shifted a G s t) (id : ℕ) (b : Chain.L1A) (id' : ℕ) :
    Function.update t.mem (id + a) (Chain.moveBurst a b) (id' + a) = Chain.moveBurst a (Function.update s.mem id b id') := by
  by_cases he : id' = id
  · subst he; rw [Function.update_self, Function.update_self]
  · rw [Function.update_of_ne he, Function.update_of_ne (by omega)]; exact h.mem id'

theorem begin_shift {s t : State} (h : Shifted a G s t) : Shifted a G (beginIteration o s) (beginIteration o t) := by
  have hk : t.ctl.k = s.ctl.k := by rw [h.ctl]; rfl
  refine ⟨?_, ?_, h.surfs, h.alg, h.closest, h.mem, h.l1b, h.l1bs⟩
  · unfold beginIteration
    dsimp only
    rw [hk, h.ctl]
    cases o.cancelled s.ctl.k
    · simp [moveSt, St.log, moveEvent]
    · simp [moveSt, St.log, moveEvent]
  · unfold beginIteration
    dsimp only
    cases o.cancelled s.ctl.k <;> exact ⟨h.within.input, h.within.rest, h.within.packets, h.within.held⟩

/-- The files agree on the records used, and so do the values of the configuration. -/
structure SameFiles (a : ℕ) (G : ℕ → Prop) (c1 c2 : Conf) (file1 file2 : ℕ → Raw) : Prop where
  conf : c2 = { c1 with bounds := c2.bounds }
  raw : ∀ id, G id → file2 (id + a) = file1 id

theorem SameFiles.burst (h : SameFiles a G c1 c2 file1 file2) (id : ℕ) (hi : G id) : burst c2 (file2 (id + a)) = burst c1 (file1 id) := by
  rw [h.raw id hi, h.conf]; rfl

theorem SameFiles.fresh (h : SameFiles a G c1 c2 file1 file2) (id : ℕ) (hi : G id) :
    fresh c2 (id + a) (file2 (id + a)) = Chain.moveBurst a (fresh c1 id (file1 id)) := by
  rw [h.raw id hi, h.conf]
  unfold Whole.fresh Chain.moveBurst
  simp only [Nat.cast_add]
  rfl

theorem readNext_move (s : St ℝ) : Process.readNext (moveSt a s) =
    match Process.readNext s with
    | .error (e, u) => .error (e, moveSt a u)
    | .ok u => .ok (moveSt a u) := by
  unfold Process.readNext moveSt
  dsimp only
  cases s.rest with
  | nil =>
    dsimp only [List.map_nil]
    cases s.surfaceProcessing <;> simp [St.log, moveEvent]
  | cons x rest => cases x <;> simp [St.log, moveEvent, moveItem, movePk]

theorem readNext_within {s : St ℝ} (h : Within G s) :
    match Process.readNext s with
    | .error (_, u) => Within G u
    | .ok u => Within G u := by
  have hr := h.rest
  unfold Process.readNext
  cases hs : s.rest with
  | nil =>
    dsimp only
    have hw : Within G (({ s with input := none } : St ℝ).log .endOfInput) := ⟨fun p hp => (by cases hp), h.rest, h.packets, h.held⟩
    rw [hs] at hw
    cases hp : s.surfaceProcessing <;> rw [hp] at hw <;> exact hw
  | cons x rest =>
    rw [hs] at hr
    have hm : ∀ p, .record p ∈ rest → G p.counter := fun p hp => hr p (List.mem_cons_of_mem _ hp)
    cases x with
    | failure e => exact ⟨h.input, hm, h.packets, h.held⟩
    | invalid => exact ⟨fun p hp => (by cases hp), hm, h.packets, h.held⟩
    | record p =>
      refine ⟨fun q hq => ?_, hm, h.packets, h.held⟩
      cases hq
      exact hr p List.mem_cons_self

theorem read_shift (hA : SameFiles a G c1 c2 file1 file2) {s t : State} (h : Shifted a G s t) :
    Both (Shifted a G) (Shifted a G) (readNext c1 file1 s) (readNext c2 file2 t) := by
  have hw := readNext_within h.within
  unfold readNext
  rw [h.ctl, readNext_move]
  revert hw
  cases Process.readNext s.ctl with
  | error x =>
    obtain ⟨e, u⟩ := x
    intro hw
    exact .raised ⟨rfl, hw, h.surfs, h.alg, h.closest, h.mem, h.l1b, h.l1bs⟩
  | ok u =>
    intro hw
    dsimp only at hw ⊢
    show Both _ _ _ (match s.ctl.rest.map (moveItem a) with
      | .record p :: _ => (.ok { t with ctl := moveSt a u, mem := Function.update t.mem p.counter (fresh c2 p.counter (file2 p.counter)) } : Out State)
      | _ => .ok { t with ctl := moveSt a u })
    have hr := h.within.rest
    revert hr
    cases s.ctl.rest with
    | nil => intro _; exact .ok ⟨rfl, hw, h.surfs, h.alg, h.closest, h.mem, h.l1b, h.l1bs⟩
    | cons x rest =>
      intro hr
      cases x with
      | failure e => exact .ok ⟨rfl, hw, h.surfs, h.alg, h.closest, h.mem, h.l1b, h.l1bs⟩
      | invalid => exact .ok ⟨rfl, hw, h.surfs, h.alg, h.closest, h.mem, h.l1b, h.l1bs⟩
      | record p =>
        refine .ok ⟨rfl, hw, h.surfs, h.alg, h.closest, ?_, h.l1b, h.l1bs⟩
        intro id
        have := h.upd p.counter (fresh c1 p.counter (file1 p.counter)) id
        rw [← hA.fresh p.counter (hr p List.mem_cons_self)] at this
        exact this

theorem Within.log {s : St ℝ} (h : Within G s) (e : Event) : Within G (s.log e) := ⟨h.input, h.rest, h.packets, h.held⟩

theorem locations_shift (hA : SameFiles a G c1 c2 file1 file2) {s t : State} (h : Shifted a G s t) (p : Pk ℝ) (hp : G p.counter) (force : Bool) :
    Both (Shifted a G) (Pair (Shifted a G)) (surfaceLocations c1 file1 s p force) (surfaceLocations c2 file2 t (movePk a p) force) := by
  have hold : t.ctl.packets.map (fun x => burst c2 (file2 x.1.counter)) = s.ctl.packets.map (fun x => burst c1 (file1 x.1.counter)) := by
    rw [h.ctl]
    show (s.ctl.packets.map _).map _ = _
    rw [List.map_map]
    refine List.map_congr_left (fun x hx => ?_)
    exact hA.burst x.1.counter (h.within.packets x hx)
  have hnew : burst c2 (file2 (movePk a p).counter) = burst c1 (file1 p.counter) := hA.burst p.counter hp
  have hs : c2.surface = c1.surface := by rw [hA.conf]; rfl
  unfold surfaceLocations
  dsimp only
  rw [hold, hnew, hs, h.alg, h.surfs]
  have hc : ({ t.ctl with packets := t.ctl.packets ++ [(movePk a p, false)] } : St ℝ).log (.accepted (movePk a p).counter) =
      moveSt a (({ s.ctl with packets := s.ctl.packets ++ [(p, false)] } : St ℝ).log (.accepted p.counter)) := by
    rw [moveSt_log, h.ctl]
    simp [moveSt, moveEvent, movePk]
  have hw : Within G (({ s.ctl with packets := s.ctl.packets ++ [(p, false)] } : St ℝ).log (.accepted p.counter)) := by
    refine ⟨h.within.input, h.within.rest, ?_, h.within.held⟩
    intro x hx
    rcases List.mem_append.1 hx with hx | hx
    · exact h.within.packets x hx
    · rw [List.mem_singleton] at hx
      subst hx
      exact hp
  rw [hc]
  generalize ({ s.ctl with packets := s.ctl.packets ++ [(p, false)] } : St ℝ).log (.accepted p.counter) = u at hw ⊢
  cases Surface.step c1.surface s.alg s.surfs (s.ctl.packets.map (fun x => burst c1 (file1 x.1.counter))) (burst c1 (file1 p.counter)) force with
  | err e => exact .raised ⟨rfl, hw, rfl, rfl, h.closest, h.mem, h.l1b, h.l1bs⟩
  | nan => exact .nan ⟨rfl, hw, rfl, rfl, h.closest, h.mem, h.l1b, h.l1bs⟩
  | ok alg surfs new =>
    cases new with
    | false => exact .ok ⟨rfl, rfl, hw, rfl, rfl, h.closest, h.mem, h.l1b, h.l1bs⟩
    | true =>
      refine .ok ⟨rfl, ?_, ?_, rfl, rfl, h.closest, h.mem, h.l1b, h.l1bs⟩
      · simp [moveSt, St.log, moveEvent, moveStack]
      · refine ⟨hw.input, hw.rest, hw.packets, ?_⟩
        intro w hw'
        simp only [St.log, List.mem_append, List.mem_singleton] at hw'
        rcases hw' with hw' | rfl
        · exact hw.held w hw'
        · intro id hid
          simp [stackIds] at hid

theorem handle_shift (hA : SameFiles a G c1 c2 file1 file2) {s t : State} (h : Shifted a G s t) (p : Pk ℝ) (hp : G p.counter) :
    Both (Shifted a G) (Pair (Shifted a G)) (handlePacket c1 file1 s p) (handlePacket c2 file2 t (movePk a p)) := by
  have hcal : calibrated c2 (file2 (p.counter + a)) (t.mem (p.counter + a)) =
      Chain.moveBurst a (calibrated c1 (file1 p.counter) (s.mem p.counter)) := by
    rw [hA.raw p.counter hp, h.mem, hA.conf]; rfl
  have h1 : Shifted a G (s.calibrate c1 file1 p) (t.calibrate c2 file2 (movePk a p)) := by
    refine ⟨?_, h.within.log _, h.surfs, h.alg, h.closest, ?_, h.l1b, h.l1bs⟩
    · show t.ctl.log _ = moveSt a (s.ctl.log _)
      rw [moveSt_log, h.ctl]; rfl
    · intro id
      show Function.update t.mem (p.counter + a) (calibrated c2 (file2 (p.counter + a)) (t.mem (p.counter + a))) (id + a) = _
      rw [hcal]
      exact h.upd _ _ _
  rw [handle_eq, handle_eq]
  have hin : inTime c2 (t.calibrate c2 file2 (movePk a p)).ctl (movePk a p) = inTime c1 (s.calibrate c1 file1 p).ctl p := by
    unfold inTime
    rw [h1.ctl, hA.conf]
    rfl
  have hg : t.ctl.gapResume = s.ctl.gapResume := by rw [h.ctl]; rfl
  have hl : t.ctl.surfaces.length = s.ctl.surfaces.length := by rw [h.ctl]; simp [moveSt]
  rw [hin, hg, hl]
  by_cases hi : inTime c1 (s.calibrate c1 file1 p).ctl p = true
  · rw [if_pos hi, if_pos hi]
    have hx : Shifted a G ((s.calibrate c1 file1 p).timed p) ((t.calibrate c2 file2 (movePk a p)).timed (movePk a p)) := by
      refine ⟨?_, ⟨h1.within.input, h1.within.rest, h1.within.packets, h1.within.held⟩, h1.surfs, h1.alg, h1.closest, h1.mem,
        h1.l1b, h1.l1bs⟩
      unfold State.timed
      dsimp only
      rw [h1.ctl]; rfl
    have q := locations_shift hA hx p hp s.ctl.gapResume
    revert q
    generalize surfaceLocations c1 file1 ((s.calibrate c1 file1 p).timed p) p s.ctl.gapResume = x
    generalize surfaceLocations c2 file2 ((t.calibrate c2 file2 (movePk a p)).timed (movePk a p)) (movePk a p) s.ctl.gapResume = y
    intro q
    cases q with
    | raised h => exact .raised h
    | nan h => exact .nan h
    | @ok x y q =>
      obtain ⟨b1, u⟩ := x
      obtain ⟨b2, v⟩ := y
      obtain ⟨e, q⟩ := q
      dsimp only at e q
      subst e
      refine .ok ⟨rfl, ?_, ⟨q.within.input, q.within.rest, q.within.packets, q.within.held⟩, q.surfs, q.alg, q.closest, q.mem,
        q.l1b, q.l1bs⟩
      unfold State.resumed
      dsimp only
      rw [q.ctl]; rfl
  · rw [if_neg hi, if_neg hi]
    refine .ok ⟨rfl, ?_, ⟨h1.within.input, h1.within.rest, h1.within.packets, h1.within.held⟩, h1.surfs, h1.alg, h1.closest,
      h1.mem, h1.l1b, h1.l1bs⟩
    dsimp only
    rw [moveSt_log, h1.ctl]
    rfl

theorem input_shift (hA : SameFiles a G c1 c2 file1 file2) {s t : State} (h : Shifted a G s t) :
    Both (Shifted a G) (Pair (Shifted a G)) (inputPhase c1 file1 s) (inputPhase c2 file2 t) := by
  unfold inputPhase
  have e1 : t.ctl.gapProcessing = s.ctl.gapProcessing := by rw [h.ctl]; rfl
  have e2 : t.ctl.hasSub = s.ctl.hasSub := by rw [h.ctl]; rfl
  have e3 : t.ctl.gapResume = s.ctl.gapResume := by rw [h.ctl]; rfl
  rw [e1, e2, e3]
  by_cases hg : s.ctl.gapProcessing = true
  · rw [if_pos hg, if_pos hg]
    by_cases hs : s.ctl.hasSub = true
    · rw [if_pos hs, if_pos hs]
      refine .ok ⟨rfl, ?_, h.within.log _, h.surfs, h.alg, h.closest, h.mem, h.l1b, h.l1bs⟩
      dsimp only
      rw [moveSt_log, h.ctl]; rfl
    · rw [if_neg hs, if_neg hs]
      exact .ok ⟨rfl, h⟩
  · rw [if_neg hg, if_neg hg]
    have q : Both (Shifted a G) (Shifted a G) (if s.ctl.gapResume = true then .ok s else readNext c1 file1 s)
        (if s.ctl.gapResume = true then .ok t else readNext c2 file2 t) := by
      by_cases hs : s.ctl.gapResume = true
      · rw [if_pos hs, if_pos hs]; exact .ok h
      · rw [if_neg hs, if_neg hs]; exact read_shift hA h
    revert q
    cases (if s.ctl.gapResume = true then (.ok s : Out State) else readNext c1 file1 s) with
    | error x =>
      cases (if s.ctl.gapResume = true then (.ok t : Out State) else readNext c2 file2 t) with
      | error y => intro q; cases q with
        | raised h => exact .raised h
        | nan h => exact .nan h
      | ok y => intro q; cases q
    | ok u =>
      cases (if s.ctl.gapResume = true then (.ok t : Out State) else readNext c2 file2 t) with
      | error y => intro q; cases q
      | ok v =>
        intro q
        cases q with
        | ok q =>
          dsimp only
          have hi : v.ctl.input = u.ctl.input.map (movePk a) := by rw [q.ctl]; rfl
          rw [hi]
          cases hu : u.ctl.input with
          | none => exact .ok ⟨rfl, q⟩
          | some p => exact handle_shift hA q p (q.within.input p hu)

theorem inner_move (upd1 upd2 : Beams.Surf (Pk ℝ) → Beams.Surf (Pk ℝ)) (h : ∀ w, upd2 (moveStack a w) = moveStack a (upd1 w)) (n : ℕ)
    (l : List (Beams.Surf (Pk ℝ))) :
    Beams.inner upd2 n (l.map (moveStack a)) = ((Beams.inner upd1 n l).1.map (moveStack a), (Beams.inner upd1 n l).2) := by
  induction l with
  | nil => rfl
  | cons w l ih =>
    rw [List.map_cons, Beams.inner, Beams.inner, ih]
    show (if w.counter = n then _ else _) = _
    by_cases hc : w.counter = n
    · rw [if_pos hc, if_pos hc, h]; rfl
    · rw [if_neg hc, if_neg hc]; rfl

theorem outer_move (n : ℕ) (tr : ℤ) (size : ℕ) (p : Pk ℝ) (cs : List ℕ) (k last : ℕ) (l : List (Beams.Surf (Pk ℝ))) :
    Beams.outer n tr size (movePk a p) k last cs (l.map (moveStack a)) = (Beams.outer n tr size p k last cs l).map (moveStack a) := by
  induction cs generalizing k last l with
  | nil => rfl
  | cons x cs ih =>
    rw [Beams.outer, Beams.outer]
    rw [← List.map_drop, inner_move (Beams.addStack n tr size k p) (Beams.addStack n tr size k (movePk a p))
      (fun w => by simp [Beams.addStack, moveStack]), ← ih]
    rw [← List.map_take, ← List.map_append]

theorem anglesLoop_map {S T : Type} (g : S → T) (n : ℕ) (v : Beams.View ℝ) (f : T → ℝ) (cnt : T → ℕ) (w : T → Bool) (l : List S) :
    ∀ prev out, Beams.anglesLoop n v f cnt w prev out (l.map g) =
      Beams.anglesLoop n v (fun x => f (g x)) (fun x => cnt (g x)) (fun x => w (g x)) prev out l := by
  induction l with
  | nil => intro prev out; rfl
  | cons x l ih =>
    intro prev out
    rw [List.map_cons, Beams.anglesLoop, Beams.anglesLoop]
    dsimp only
    rw [ih, ih]

theorem beamAngles_move (n : ℕ) (v : Beams.View ℝ) (f : ℕ → ℝ) (l : List (Beams.Surf (Pk ℝ))) :
    Beams.beamAngles n v (fun x => f x.2) (fun x : Beams.Surf (Pk ℝ) × ℕ => x.1.counter) (fun x => x.2 == 0)
        (l.map (moveStack a)).zipIdx =
      Beams.beamAngles n v (fun x => f x.2) (fun x : Beams.Surf (Pk ℝ) × ℕ => x.1.counter) (fun x => x.2 == 0) l.zipIdx := by
  unfold Beams.beamAngles
  rw [List.zipIdx_map, anglesLoop_map]
  rfl

theorem burst_shift (hA : SameFiles a G c1 c2 file1 file2) {s t : State} (h : Shifted a G s t) (p : Pk ℝ) (hp : G p.counter) :
    Both (Shifted a G) (Pair (Shifted a G)) (burstBeams c1 file1 s p) (burstBeams c2 file2 t (movePk a p)) := by
  have e1 : qMin c2 ‖(file2 (movePk a p).counter).vel‖ = qMin c1 ‖(file1 p.counter).vel‖ := by
    show qMin c2 ‖(file2 (p.counter + a)).vel‖ = _
    rw [hA.raw p.counter hp, hA.conf]; rfl
  have e2 : doppler c2 (file2 (movePk a p).counter) = doppler c1 (file1 p.counter) := by
    show doppler c2 (file2 (p.counter + a)) = _
    rw [hA.raw p.counter hp, hA.conf]; rfl
  have e3 : burst c2 (file2 (movePk a p).counter) = burst c1 (file1 p.counter) := hA.burst p.counter hp
  have e4 : c2.pulses = c1.pulses := by rw [hA.conf]
  have e5 : t.ctl.surfaces = s.ctl.surfaces.map (moveStack a) := by rw [h.ctl]; rfl
  have e6 : t.ctl.sizePrev = s.ctl.sizePrev := by rw [h.ctl]; rfl
  have e7 : t.ctl.trendPrev = s.ctl.trendPrev := by rw [h.ctl]; rfl
  unfold burstBeams
  rw [e1]
  cases qMin c1 ‖(file1 p.counter).vel‖ with
  | error e =>
    refine .raised ⟨?_, h.within.log _, h.surfs, h.alg, h.closest, h.mem, h.l1b, h.l1bs⟩
    dsimp only
    rw [moveSt_log, h.ctl]; rfl
  | ok q =>
    dsimp only
    have hb : Beams.beamAngles c2.pulses (view q (doppler c2 (file2 (movePk a p).counter)))
        (fun x => angle (burst c2 (file2 (movePk a p).counter)) (view q (doppler c2 (file2 (movePk a p).counter))) t.surfs x.2)
        (fun x : Beams.Surf (Pk ℝ) × ℕ => x.1.counter) (fun x => x.2 == 0) t.ctl.surfaces.zipIdx =
        Beams.beamAngles c1.pulses (view q (doppler c1 (file1 p.counter)))
        (fun x => angle (burst c1 (file1 p.counter)) (view q (doppler c1 (file1 p.counter))) s.surfs x.2)
        (fun x : Beams.Surf (Pk ℝ) × ℕ => x.1.counter) (fun x => x.2 == 0) s.ctl.surfaces.zipIdx := by
      rw [e2, e3, e4, e5, h.surfs]
      exact beamAngles_move _ _ (fun k => angle (burst c1 (file1 p.counter)) (view q (doppler c1 (file1 p.counter))) s.surfs k) _
    rw [hb, e4, e6, e7]
    generalize Beams.beamAngles c1.pulses (view q (doppler c1 (file1 p.counter)))
        (fun x => angle (burst c1 (file1 p.counter)) (view q (doppler c1 (file1 p.counter))) s.surfs x.2)
        (fun x : Beams.Surf (Pk ℝ) × ℕ => x.1.counter) (fun x => x.2 == 0) s.ctl.surfaces.zipIdx = out
    refine .ok ⟨rfl, ?_, ?_, h.surfs, h.alg, h.closest, ?_, h.l1b, h.l1bs⟩
    · dsimp only
      rw [e5, outer_move, h.ctl]
      rfl
    · refine ⟨h.within.input, h.within.rest, h.within.packets, ?_⟩
      refine outer_mem (fun w => ∀ id ∈ stackIds w, G id) _ _ _ _ _ 0 0 _ ?_ h.within.held
      intro j _ _ w hw id hid
      simp only [stackIds, Beams.addStack, List.map_append, List.mem_append, List.map_cons, List.map_nil,
        List.mem_singleton] at hid
      rcases hid with hid | rfl
      · exact hw id hid
      · exact hp
    · intro id
      dsimp only
      show Function.update t.mem (p.counter + a) { t.mem (p.counter + a) with angles := _, trend := _ } (id + a) = _
      rw [← h.upd, h.mem]
      rfl

/-- The queue of bursts, renumbered. -/
def moveQueue (a : ℕ) (l : List (Pk ℝ × Bool)) : List (Pk ℝ × Bool) := l.map (fun x => (movePk a x.1, x.2))

theorem loop_shift (hA : SameFiles a G c1 c2 file1 file2) (todo : List (Pk ℝ × Bool)) (ht : ∀ x ∈ todo, G x.1.counter) :
    ∀ (done : List (Pk ℝ × Bool)) (_ : ∀ x ∈ done, G x.1.counter) (s t : State), Shifted a G s t →
      Both (Shifted a G) (Shifted a G) (packetLoop c1 file1 done todo s) (packetLoop c2 file2 (moveQueue a done) (moveQueue a todo) t) := by
  induction todo with
  | nil => intro done hd s t h; exact .ok h
  | cons x todo ih =>
    intro done hd s t h
    obtain ⟨p, b⟩ := x
    have hp : G p.counter := ht (p, b) List.mem_cons_self
    have ih := ih (fun x hx => ht x (List.mem_cons_of_mem _ hx))
    have hd' : ∀ x ∈ done ++ [(p, true)], G x.1.counter := by
      intro x hx
      rcases List.mem_append.1 hx with hx | hx
      · exact hd x hx
      · rw [List.mem_singleton] at hx; subst hx; exact hp
    have hq : moveQueue a (done ++ [(p, true)]) = moveQueue a done ++ [(movePk a p, true)] := by simp [moveQueue]
    cases b with
    | true =>
      have := ih _ hd' _ _ h
      rw [hq] at this
      exact this
    | false =>
      show Both _ _ _ (packetLoop c2 file2 (moveQueue a done) ((movePk a p, false) :: moveQueue a todo) t)
      rw [packetLoop, packetLoop]
      have q := burst_shift hA h p hp
      generalize burstBeams c1 file1 s p = x at q
      generalize burstBeams c2 file2 t (movePk a p) = y at q
      cases q with
      | raised h => exact .raised h
      | nan h => exact .nan h
      | @ok x y q =>
        obtain ⟨a1, a2⟩ := x
        obtain ⟨b1, b2⟩ := y
        obtain ⟨e, q⟩ := q
        dsimp only at e q ⊢
        subst e
        have qa : Chain.azimuth c2.chain (b2.mem (movePk a p).counter) = Chain.azimuth c1.chain (a2.mem p.counter) := by
          show Chain.azimuth c2.chain (b2.mem (p.counter + a)) = _
          rw [q.mem, Chain.azimuth_move, hA.conf]; rfl
        rw [qa]
        cases Chain.azimuth c1.chain (a2.mem p.counter) with
        | error e =>
          refine .raised ⟨?_, q.within.log _, q.surfs, q.alg, q.closest, q.mem, q.l1b, q.l1bs⟩
          dsimp only
          rw [moveSt_log, q.ctl]; rfl
        | ok y =>
          have hr : Shifted a G { a2 with ctl := { a2.ctl.log (.beams p.counter) with packets := done ++ (p, true) :: todo } }
              { b2 with ctl := { b2.ctl.log (.beams (movePk a p).counter) with packets := moveQueue a done ++ (movePk a p, true) :: moveQueue a todo } } := by
            refine ⟨?_, ⟨q.within.input, q.within.rest, ?_, q.within.held⟩, q.surfs, q.alg, q.closest, q.mem, q.l1b, q.l1bs⟩
            · dsimp only
              rw [q.ctl]
              simp [moveSt, St.log, moveEvent, moveQueue, movePk]
            · intro x hx
              rcases List.mem_append.1 hx with hx | hx
              · exact hd x hx
              · rcases List.mem_cons.1 hx with rfl | hx
                · exact hp
                · exact ht x (List.mem_cons_of_mem _ hx)
          dsimp only
          by_cases hb : b1 = true
          · rw [if_pos hb, if_pos hb]
            have := ih _ hd' _ _ hr
            rw [hq] at this
            exact this
          · rw [if_neg hb, if_neg hb]
            exact .ok hr

theorem looksOf_move (w : Beams.Surf (Pk ℝ)) : looksOf (moveStack a w) = Chain.moveLooks a (looksOf w) := by
  unfold looksOf moveStack Chain.moveLooks
  dsimp only
  rw [List.zip_map_right, List.zipWith_map_right, List.map_zipWith]
  rfl

theorem closest_shift (hA : SameFiles a G c1 c2 file1 file2) {s t : State} (h : Shifted a G s t) (looks : Chain.Looks) :
    nextClosest c2 o t (Chain.moveLooks a looks) = nextClosest c1 o s looks := by
  have hc : c2.chain = c1.chain := by rw [hA.conf]; rfl
  have hl : c2.looks = c1.looks := by rw [hA.conf]
  unfold nextClosest
  rw [hc, hl, h.closest, Chain.entries_move a o.junk c1.chain s.mem t.mem looks (fun l _ => h.mem _)]
  cases Chain.entries o.junk c1.chain s.mem looks with
  | error e => rfl
  | ok es =>
    show (match Stack.gather o.argsort c1.looks (π / 2) s.closest (es.map (Chain.moveEntry a)) with | .error _ => s.closest | .ok g => g.closest) =
      (match Stack.gather o.argsort c1.looks (π / 2) s.closest es with | .error _ => s.closest | .ok g => g.closest)
    rw [Chain.gather_move]
    cases Stack.gather o.argsort c1.looks (π / 2) s.closest es <;> rfl

theorem sigma0_shift (hA : SameFiles a G c1 c2 file1 file2) {s t : State} (h : Shifted a G s t) (f : Surface.Surf) (r : Chain.Result)
    (hr : ∀ row ∈ r.gathered.rows, G row.burst) :
    sigma0 c2 file2 t.mem f (Chain.moveResult a r) = sigma0 c1 file1 s.mem f r := by
  have h1 : c2.radar = c1.radar := by rw [hA.conf]; rfl
  have h2 : c2.chain = c1.chain := by rw [hA.conf]; rfl
  unfold sigma0
  rw [h1, h2]
  congr 1
  · show (((r.gathered.rows.map (Chain.moveRow a))[r.gathered.closest]?).map (fun row => (file2 row.burst).agc)).getD 0 = _
    rw [List.getElem?_map]
    cases hx : r.gathered.rows[r.gathered.closest]? with
    | none => rfl
    | some row =>
      show (file2 (row.burst + a)).agc = (file1 row.burst).agc
      rw [hA.raw _ (hr row (List.mem_of_getElem? hx))]
  · show (r.gathered.rows.map (Chain.moveRow a)).map _ = _
    rw [List.map_map]
    refine List.map_congr_left (fun row _ => ?_)
    show (⟨Signal.rangeSatSurf (Chain.geo c1.chain (place f) (t.mem (row.burst + a)) (Chain.moveRow a row)), (t.mem (row.burst + a)).velocity,
      (t.mem (row.burst + a)).pri⟩ : Calib.Look) = _
    rw [h.mem]
    rfl

theorem drop_move (b : ℕ) (l : List (Pk ℝ × Bool)) : (moveQueue a l).dropWhile (fun x => x.1.counter != b + a) =
    moveQueue a (l.dropWhile (fun x => x.1.counter != b)) := by
  induction l with
  | nil => rfl
  | cons x l ih =>
    show ((movePk a x.1, x.2) :: moveQueue a l).dropWhile _ = _
    rw [List.dropWhile_cons, List.dropWhile_cons, ih]
    have : ((movePk a x.1).counter != b + a) = (x.1.counter != b) := by
      simp [movePk, bne]
    dsimp only
    rw [this]
    by_cases hb : (x.1.counter != b) = true
    · rw [if_pos hb, if_pos hb]
    · rw [if_neg hb, if_neg hb]; rfl

theorem clearOld_move (w : Beams.Surf (Pk ℝ)) (s : St ℝ) : Process.clearOld (moveStack a w) (moveSt a s) =
    match Process.clearOld w s with
    | .error (e, u) => .error (e, moveSt a u)
    | .ok u => .ok (moveSt a u) := by
  obtain ⟨k, running, sp, st, pt, gp, gr, hs, inp, rest, surfaces, packets, count, sz, tr, trace⟩ := s
  obtain ⟨n, x, y, bursts⟩ := w
  cases packets with
  | nil => simp [Process.clearOld, moveSt, List.map_tail]
  | cons p l =>
    cases bursts with
    | nil => simp [Process.clearOld, moveSt, moveStack]
    | cons b bs =>
      have := drop_move (a := a) b.counter (p :: l)
      simp only [moveQueue, List.map_cons] at this
      simp only [Process.clearOld, moveSt, moveStack, List.map_cons, List.map_tail]
      rw [show (movePk a b).counter = b.counter + a from rfl, this]

theorem mem_dropWhile {A : Type} (p : A → Bool) (l : List A) (x : A) (h : x ∈ l.dropWhile p) : x ∈ l :=
  (List.dropWhile_sublist p).mem h

theorem clearOld_within (w : Beams.Surf (Pk ℝ)) {s : St ℝ} (h : Within G s) :
    match Process.clearOld w s with
    | .error (_, u) => Within G u
    | .ok u => Within G u := by
  have hp := h.packets
  have ht : ∀ w ∈ s.surfaces.tail, ∀ id ∈ stackIds w, G id := fun w hw => h.held w (List.mem_of_mem_tail hw)
  unfold Process.clearOld
  cases hs : s.packets with
  | nil =>
    refine ⟨h.input, h.rest, ?_, ht⟩
    intro x hx; cases hx
  | cons x l =>
    cases w.bursts with
    | nil => exact h
    | cons b bs =>
      refine ⟨h.input, h.rest, ?_, ht⟩
      intro y hy
      rw [← hs] at hy
      exact hp y (mem_dropWhile _ _ _ hy)

theorem clear_shift {s t : State} (h : Shifted a G s t) (w : Beams.Surf (Pk ℝ)) :
    Both (Shifted a G) (Shifted a G) (clearOld w s) (clearOld (moveStack a w) t) := by
  have hw := clearOld_within w h.within
  unfold clearOld
  rw [h.ctl, clearOld_move]
  revert hw
  cases Process.clearOld w s.ctl with
  | error x => intro hw; exact .raised ⟨rfl, hw, h.surfs, h.alg, h.closest, h.mem, h.l1b, h.l1bs⟩
  | ok u =>
    intro hw
    refine .ok ⟨rfl, hw, ?_, h.alg, h.closest, h.mem, h.l1b, h.l1bs⟩
    dsimp only
    rw [h.surfs]

theorem write_shift (ho : o.Steady) {s t : State} (h : Shifted a G s t) (w : Beams.Surf (Pk ℝ)) (r : Record) :
    Both (Shifted a G) (Shifted a G) (writeSurface o w r s) (writeSurface o (moveStack a w) (moveRecord a r) t) := by
  obtain ⟨f, g, hfg⟩ := ho
  have e1 : o.l1bFails (moveRecord a r) = o.l1bFails r := by rw [(hfg _).1, (hfg r).1]; rfl
  have e2 : o.l1bsFails (moveRecord a r) = o.l1bsFails r := by rw [(hfg _).2, (hfg r).2]; rfl
  unfold writeSurface
  rw [e1]
  cases o.l1bFails r with
  | some e => exact .raised h
  | none =>
    dsimp only
    set u : State := { s with ctl := s.ctl.log (.l1b w.counter (stackIds w)), l1b := s.l1b ++ [r] } with hu
    set v : State := { t with ctl := t.ctl.log (.l1b (moveStack a w).counter (stackIds (moveStack a w))), l1b := t.l1b ++ [moveRecord a r] } with hv
    have h1 : Shifted a G u v := by
      refine ⟨?_, h.within.log _, h.surfs, h.alg, h.closest, h.mem, ?_, h.l1bs⟩
      · rw [hu, hv]
        dsimp only
        rw [moveSt_log, h.ctl, stackIds_move]
        rfl
      · rw [hu, hv]
        dsimp only
        rw [h.l1b, List.map_append]
        rfl
    have q : Both (Shifted a G) (Shifted a G) (writeL1bs o r u) (writeL1bs o (moveRecord a r) v) := by
      unfold writeL1bs
      rw [e2]
      by_cases hs : o.skipL1bs = true
      · rw [if_pos hs, if_pos hs]; exact .ok h1
      · rw [if_neg hs, if_neg hs]
        cases o.l1bsFails r with
        | some e => exact .raised h1
        | none =>
          refine .ok ⟨?_, h1.within.log _, h1.surfs, h1.alg, h1.closest, h1.mem, h1.l1b, ?_⟩
          · dsimp only
            rw [moveSt_log, h1.ctl]
            rfl
          · dsimp only
            rw [h1.l1bs, List.map_append]
            rfl
    generalize writeL1bs o r u = x at q
    generalize writeL1bs o (moveRecord a r) v = y at q
    cases q with
    | raised h => exact .raised h
    | nan h => exact .nan h
    | ok h => exact clear_shift h w

theorem finish_shift (hA : SameFiles a G c1 c2 file1 file2) (ho : o.Steady) {s t : State} (h : Shifted a G s t) :
    Both (Shifted a G) (Shifted a G) (finishSurface c1 o file1 s) (finishSurface c2 o file2 t) := by
  have e5 : t.ctl.surfaces = s.ctl.surfaces.map (moveStack a) := by rw [h.ctl]; rfl
  have hcw : c2.weighting = c1.weighting := by rw [hA.conf]
  have hcp : c2.pattern = c1.pattern := by rw [hA.conf]
  have hcc : c2.chain = c1.chain := by rw [hA.conf]; rfl
  unfold finishSurface
  rw [e5, h.surfs]
  cases hw : s.ctl.surfaces with
  | nil => exact .raised h
  | cons w rest =>
    rw [List.map_cons]
    cases hf : s.surfs with
    | nil => exact .raised h
    | cons f fs =>
      dsimp only
      rw [looksOf_move, hcw, hcp, hcc, h.closest, Chain.surfaceAw_move a c1.weighting c1.pattern o.argsort o.round o.junk c1.chain s.mem
        t.mem (place f) s.closest (looksOf w) (fun l _ => h.mem _)]
      cases hr : Chain.surfaceAw c1.weighting c1.pattern o.argsort o.round o.junk c1.chain s.mem (place f) s.closest (looksOf w) with
      | error e => exact .raised h
      | ok x =>
        cases x with
        | none =>
          refine .ok ⟨?_, ?_, rfl, h.alg, closest_shift hA h _, h.mem, h.l1b, h.l1bs⟩
          · dsimp only
            rw [moveSt_log, stackIds_move, h.ctl]
            rfl
          · refine ⟨h.within.input, h.within.rest, h.within.packets, fun v hv => h.within.held v ?_⟩
            rw [hw]
            exact List.mem_cons_of_mem _ hv
        | some r =>
          dsimp only [Except.map, Option.map]
          obtain ⟨r0, hr0, hrr⟩ := Chain.surfaceAw_ok_some hr
          have hG : ∀ row ∈ r.gathered.rows, G row.burst := by
            intro row hrow
            rw [hrr] at hrow
            obtain ⟨l, hl, hid, _⟩ := rows_from_looks _ _ _ _ _ _ _ _ _ hr0 row hrow
            rw [hid]
            exact h.within.held w (by rw [hw]; exact List.mem_cons_self) _ (mem_looksOf hl)
          rw [sigma0_shift hA h f r hG]
          cases sigma0 c1 file1 s.mem f r with
          | none => exact .raised h
          | some g =>
            dsimp only
            have hx : Shifted a G ⟨s.ctl, f :: fs, s.mem, s.alg, nextClosest c1 o s (looksOf w), s.l1b, s.l1bs⟩
                ⟨t.ctl, f :: fs, t.mem, t.alg, nextClosest c2 o t (Chain.moveLooks a (looksOf w)), t.l1b, t.l1bs⟩ :=
              ⟨h.ctl, h.within, rfl, h.alg, closest_shift hA h _, h.mem, h.l1b, h.l1bs⟩
            exact write_shift ho hx w ⟨w.counter, f.loc, r, g⟩

theorem surface_shift (hA : SameFiles a G c1 c2 file1 file2) (ho : o.Steady) {s t : State} (h : Shifted a G s t) :
    Both (Shifted a G) (Shifted a G) (surfacePhase c1 o file1 s) (surfacePhase c2 o file2 t) := by
  have h1 : Shifted a G s.begun t.begun := by
    refine ⟨?_, ⟨h.within.input, h.within.rest, h.within.packets, h.within.held⟩, h.surfs, h.alg, h.closest, h.mem, h.l1b, h.l1bs⟩
    unfold State.begun
    dsimp only
    rw [h.ctl]
    rfl
  have e1 : t.ctl.surfaceProcessing = s.ctl.surfaceProcessing := by rw [h.ctl]; rfl
  have e2 : t.ctl.surfaces = s.ctl.surfaces.map (moveStack a) := by rw [h.ctl]; rfl
  have e3 : t.ctl.gapProcessing = s.ctl.gapProcessing := by rw [h.ctl]; rfl
  have e4 : t.ctl.packets = moveQueue a s.ctl.packets := by rw [h.ctl]; rfl
  unfold surfacePhase
  rw [e1, e2, e3, e4, List.length_map]
  by_cases hc : s.ctl.surfaceProcessing = true ∨ minSurfs ≤ s.ctl.surfaces.length ∨ s.ctl.gapProcessing = true
  · rw [if_pos hc, if_pos hc]
    cases s.ctl.surfaces with
    | nil => exact .raised h1
    | cons w rest =>
      dsimp only [List.map_cons]
      have q := loop_shift hA s.ctl.packets h.within.packets [] (fun x hx => by cases hx) _ _ h1
      revert q
      show Both _ _ _ (packetLoop c2 file2 [] (moveQueue a s.ctl.packets) t.begun) → _
      generalize packetLoop c1 file1 [] s.ctl.packets s.begun = x
      generalize packetLoop c2 file2 [] (moveQueue a s.ctl.packets) t.begun = y
      intro q
      cases q with
      | raised h => exact .raised h
      | nan h => exact .nan h
      | ok hp => exact finish_shift hA ho hp
  · rw [if_neg hc, if_neg hc]
    exact .ok h

theorem endPhase_move (s : St ℝ) : Process.endPhase (moveSt a s) =
    match Process.endPhase s with
    | .error (e, u) => .error (e, moveSt a u)
    | .ok u => .ok (moveSt a u) := by
  unfold Process.endPhase moveSt
  dsimp only
  cases hs : s.surfaces with
  | nil =>
    rw [List.map_nil, if_pos rfl, if_pos rfl]
    cases s.gapProcessing with
    | false => simp
    | true => cases s.hasSub <;> simp [St.log, moveEvent]
  | cons w rest => simp [hs]

theorem endPhase_within {s : St ℝ} (h : Within G s) :
    match Process.endPhase s with
    | .error (_, u) => Within G u
    | .ok u => Within G u := by
  unfold Process.endPhase
  by_cases hs : s.surfaces = []
  · rw [if_pos hs]
    by_cases hg : s.gapProcessing = true
    · rw [if_pos hg]
      by_cases hh : s.hasSub = true
      · dsimp only
        rw [if_pos hh]
        exact ⟨h.input, h.rest, h.packets, h.held⟩
      · dsimp only
        rw [if_neg hh]
        exact ⟨h.input, h.rest, h.packets, h.held⟩
    · rw [if_neg hg]
      exact ⟨h.input, h.rest, h.packets, h.held⟩
  · rw [if_neg hs]
    exact h

theorem end_shift {s t : State} (h : Shifted a G s t) : Both (Shifted a G) (Shifted a G) (endPhase s) (endPhase t) := by
  have hw := endPhase_within h.within
  unfold endPhase
  rw [h.ctl, endPhase_move]
  revert hw
  cases Process.endPhase s.ctl with
  | error x => intro hw; exact .raised ⟨rfl, hw, h.surfs, h.alg, h.closest, h.mem, h.l1b, h.l1bs⟩
  | ok u => intro hw; exact .ok ⟨rfl, hw, h.surfs, h.alg, h.closest, h.mem, h.l1b, h.l1bs⟩

theorem step_shift (hA : SameFiles a G c1 c2 file1 file2) (ho : o.Steady) {s t : State} (h : Shifted a G s t) :
    Both (Shifted a G) (Shifted a G) (step c1 o file1 s) (step c2 o file2 t) := by
  have q := input_shift hA (begin_shift (o := o) h)
  unfold step
  revert q
  generalize inputPhase c1 file1 (beginIteration o s) = x
  generalize inputPhase c2 file2 (beginIteration o t) = y
  intro q
  cases q with
  | raised h => exact .raised h
  | nan h => exact .nan h
  | @ok x y q =>
    obtain ⟨a1, a2⟩ := x
    obtain ⟨b1, b2⟩ := y
    obtain ⟨e, q⟩ := q
    dsimp only at e q
    subst e
    cases b1 with
    | true => exact .ok q
    | false =>
      have q2 := surface_shift hA ho q
      dsimp only
      generalize surfacePhase c1 o file1 a2 = x at q2
      generalize surfacePhase c2 o file2 b2 = y at q2
      cases q2 with
      | raised h => exact .raised h
      | nan h => exact .nan h
      | ok hp => exact end_shift hp

theorem run_shift (hA : SameFiles a G c1 c2 file1 file2) (ho : o.Steady) (fuel : ℕ) :
    ∀ s t : State, Shifted a G s t → SameKind (Shifted a G) (run c1 o file1 fuel s) (run c2 o file2 fuel t) := by
  induction fuel with
  | zero => intro s t h; exact .timeout h
  | succ fuel ih =>
    intro s t h
    have e1 : t.ctl.running = s.ctl.running := by rw [h.ctl]; rfl
    rw [run, run, e1]
    by_cases hr : s.ctl.running = true
    · rw [if_pos hr, if_pos hr]
      have q := step_shift hA ho h
      generalize step c1 o file1 s = x at q
      generalize step c2 o file2 t = y at q
      cases q with
      | raised h => exact .failed h
      | nan h => exact .nan h
      | ok hp => exact ih _ _ hp
    · rw [if_neg hr, if_neg hr]
      cases o.finishFails with
      | some e => exact .failed h
      | none =>
        refine .finished ⟨?_, h.within.log _, h.surfs, h.alg, h.closest, h.mem, h.l1b, h.l1bs⟩
        dsimp only
        rw [moveSt_log, h.ctl]
        rfl

theorem start_shift (alg : Surface.Alg) (its : List (Item ℝ)) (hG : ∀ p, .record p ∈ its → G p.counter) :
    Shifted a G (start alg its) (start alg (its.map (moveItem a))) := by
  refine ⟨rfl, ⟨fun p hp => (by cases hp), hG, fun x hx => (by cases hx), fun w hw => (by cases hw)⟩, rfl, rfl, rfl, ?_, rfl, rfl⟩
  intro id
  unfold start Chain.moveBurst
  dsimp only
  rw [Nat.cast_add]

end Dedop.Whole
