import Verif.Whole.Model
import Verif.Chain.Antenna
import Verif.Process.Ids
import Verif.Process.Epoch
import Verif.Surface.Focus
import Verif.Stack.GatheringProps

/-!
# The whole processor is an instance of the processing loop (lemmas)

`Process` describes the loop for algorithms which are parameters.  Here the parameters are given by the algorithms
of `Whole`, and a run of one is a run of the other: what is proved of every run of `Process` holds of the whole
processor.
-/
namespace Dedop.Whole

open Real Process

/-! ## The parameters -/

/-- Whether the surface locations find a new location, for the state `s` at the start of the iteration
(`surface_locations.py:198-230`). -/
noncomputable def foundAt (c : Conf) (file : ℕ → Raw) (s : State) (t : St ℝ) : Except PyErr Bool :=
  match t.packets.getLast? with
  | none => .ok false
  | some x =>
    match Surface.step c.surface s.alg s.surfs (t.packets.dropLast.map (fun x => burst c (file x.1.counter)))
        (burst c (file x.1.counter)) false with
    | .err e => .error e
    | .nan => .error (.other "nan")
    | .ok _ _ new => .ok new

/-- The state after the first part of an iteration (`processor.py:178-226`). -/
noncomputable def afterInput (c : Conf) (o : World) (file : ℕ → Raw) (s : State) : State :=
  match inputPhase c file (beginIteration o s) with
  | .ok (_, s') => s'
  | .error _ => s

/-- The state after the loop over the packets (`processor.py:228-243`). -/
noncomputable def afterLoop (c : Conf) (o : World) (file : ℕ → Raw) (s : State) : State :=
  let s1 := afterInput c o file s
  match packetLoop c file [] s1.ctl.packets s1.begun with
  | .ok s' => s'
  | .error _ => s

/-- What a burst sees (`beam_angles.py:29-33`). -/
noncomputable def viewAt (c : Conf) (file : ℕ → Raw) (p : Pk ℝ) : Beams.View ℝ :=
  match qMin c ‖(file p.counter).vel‖ with
  | .ok q => view q (doppler c (file p.counter))
  | .error _ => ⟨1, 0, 0⟩

/-- The exception raised by the beam angles or the azimuth processing of a burst
(`beam_angles.py:31-32`, `azimuth_processing.py:195-226`): it depends on number of beams and trend. -/
noncomputable def azimuthAt (c : Conf) (file : ℕ → Raw) (t : St ℝ) (p : Pk ℝ) : Option PyErr :=
  match qMin c ‖(file p.counter).vel‖ with
  | .error e => some e
  | .ok _ =>
    match Chain.azimuth c.chain { blank with angles := List.replicate t.sizePrev.toNat 0, trend := t.trendPrev } with
    | .error e => some e
    | .ok _ => none

/-- The result of the algorithms for the first surface (`processor.py:245-256`). -/
noncomputable def resultAt (c : Conf) (o : World) (s : State) : Except PyErr (Option Chain.Result) :=
  match s.ctl.surfaces, s.surfs with
  | w :: _, f :: _ => Chain.surfaceAw c.weighting c.pattern o.argsort o.round o.junk c.chain s.mem (place f) s.closest (looksOf w)
  | _, _ => .error .indexError

/-- The record of the first surface, if the algorithms give one (`processor.py:245-262`). -/
noncomputable def recordAt (c : Conf) (o : World) (file : ℕ → Raw) (s : State) : Option Record :=
  match s.ctl.surfaces, s.surfs, resultAt c o s with
  | w :: _, f :: _, .ok (some r) => (sigma0 c file s.mem f r).map (fun g => ⟨w.counter, f.loc, r, g⟩)
  | _, _, _ => none

/-- The parameters of `Process`, for the sequence of the states at the starts of the iterations
(`processor.py:177-349`). -/
noncomputable def envOf (c : Conf) (o : World) (file : ℕ → Raw) (sAt : ℕ → State) : Env ℝ where
  threshold := c.bri * 1.5
  nPulses := c.pulses
  nLooks := c.looks
  skipL1bs := o.skipL1bs
  cancelled := o.cancelled
  calFails := fun _ _ => none
  found := fun t => foundAt c file (sAt (t.k - 1)) t
  view := fun _ p => viewAt c file p
  angle := fun t p x => angle (burst c (file p.counter)) (viewAt c file p) (afterInput c o file (sAt (t.k - 1))).surfs
    (t.surfaces.findIdx (fun y => y.counter == x.counter))
  azimuthFails := azimuthAt c file
  gatherFails := fun t =>
    match resultAt c o (afterLoop c o file (sAt (t.k - 1))) with
    | .error e => some e
    | .ok _ => none
  algorithmFails := fun t =>
    match recordAt c o file (afterLoop c o file (sAt (t.k - 1))) with
    | none => some .valueError
    | some _ => none
  l1bFails := fun t => (recordAt c o file (afterLoop c o file (sAt (t.k - 1)))).bind o.l1bFails
  l1bsFails := fun t => (recordAt c o file (afterLoop c o file (sAt (t.k - 1)))).bind o.l1bsFails
  finishFails := fun _ => o.finishFails

/-! ## Lemmas -/

theorem step_first (k : Surface.Conf) (alg : Surface.Alg) (bs : List Surface.Burst) (b : Surface.Burst) (force : Bool) :
    ∃ a l, Surface.step k alg [] bs b force = .ok a l true ∧ l.length = 1 := by
  have hl : Surface.locate k alg [] (bs ++ [b]) force = .ok (.val (some (Surface.storeFirst k alg.loc b))) := by
    unfold Surface.locate
    simp
  have hf : ∀ a : Surface.Alg, Surface.focusStep k a [] = .val (a.focusFound, []) := by
    intro a
    unfold Surface.focusStep
    split <;> simp
  unfold Surface.step Surface.call
  rw [hl]
  dsimp only
  rw [hf]
  exact ⟨_, _, rfl, rfl⟩

theorem focusStep_length (k : Surface.Conf) (alg : Surface.Alg) (ss : List Surface.Surf) (f : Bool) (ss' : List Surface.Surf)
    (h : Surface.focusStep k alg ss = .val (f, ss')) : ss'.length = ss.length := by
  unfold Surface.focusStep at h
  split at h
  · cases h; rfl
  · dsimp only at h
    split at h
    · rename_i s p rest hr
      have hlen : (List.map (Surface.fillDist k) ss).reverse.length = (s :: p :: rest).length := by rw [hr]
      split at h
      · cases h
      · split at h
        · split at h
          · cases h
          · cases h
            simp at hlen ⊢
            omega
        · cases h; simp
    · cases h; simp

theorem step_length (k : Surface.Conf) (alg : Surface.Alg) (ss : List Surface.Surf) (bs : List Surface.Burst)
    (b : Surface.Burst) (force : Bool) (a : Surface.Alg) (ss' : List Surface.Surf) (new : Bool)
    (h : Surface.step k alg ss bs b force = .ok a ss' new) : ss'.length = ss.length + new.toNat := by
  unfold Surface.step Surface.call at h
  cases hl : Surface.locate k alg ss (bs ++ [b]) force with
  | error e => rw [hl] at h; cases h
  | ok r =>
    rw [hl] at h
    cases r with
    | nan => cases h
    | val o =>
      cases o with
      | none => cases h; rfl
      | some l =>
        dsimp only at h
        cases hf : Surface.focusStep k { alg with loc := l } ss with
        | nan => rw [hf] at h; cases h
        | val x =>
          obtain ⟨f, ss2⟩ := x
          rw [hf] at h
          cases h
          have := focusStep_length k _ ss f ss2 hf
          simp [this]

/-- The error of the azimuth processing depends on the number of beams and the trend only. -/
theorem azimuth_error (c : Chain.Conf) (b1 b2 : Chain.L1A) (h1 : b1.angles.length = b2.angles.length)
    (h2 : b1.trend = b2.trend) (e : PyErr) : Chain.azimuth c b1 = .error e ↔ Chain.azimuth c b2 = .error e := by
  unfold Chain.azimuth
  dsimp only
  split
  · simp
  · unfold Azimuth.approximate Azimuth.nadirAngle
    simp only [Chain.azBurst, h1, h2]
    cases hi : Azimuth.nadirIndex c.pulses b2.trend b2.angles.length with
    | error x => simp
    | ok i =>
      have key : ∀ (b : Chain.L1A), b.angles.length = b2.angles.length →
          (∃ a, Azimuth.pyIndex b.angles i = .ok a) ∨ Azimuth.pyIndex b.angles i = .error .indexError := by
        intro b _
        unfold Azimuth.pyIndex
        dsimp only
        generalize (if i < 0 then i + (b.angles.length : ℤ) else i) = j
        split
        · exact .inr rfl
        · split
          · exact .inr rfl
          · exact .inl ⟨_, rfl⟩
      have same : Azimuth.pyIndex b1.angles i = .error .indexError ↔ Azimuth.pyIndex b2.angles i = .error .indexError := by
        unfold Azimuth.pyIndex
        dsimp only
        rw [h1]
        generalize (if i < 0 then i + (b2.angles.length : ℤ) else i) = j
        split
        · simp
        · have : ∀ n : ℕ, b1.angles[n]? = none ↔ b2.angles[n]? = none := by
            intro n
            simp [h1]
          have h3 := this j.toNat
          cases ha : b1.angles[j.toNat]? with
          | none => rw [h3.1 ha]
          | some a =>
            cases hb : b2.angles[j.toNat]? with
            | none => rw [h3.2 hb] at ha; cases ha
            | some b => simp
      rcases key b1 h1 with ⟨a, ha⟩ | ha
      · rcases key b2 rfl with ⟨a2, hb⟩ | hb
        · simp [ha, hb]
        · rw [same.2 hb] at ha; cases ha
      · simp [ha, same.1 ha]

theorem entries_length (junk : ℕ → ℂ) (c : Chain.Conf) (mem : ℕ → Chain.L1A) (looks : Chain.Looks) (es)
    (h : Chain.entries junk c mem looks = .ok es) : es.length = looks.length := by
  induction looks generalizing es with
  | nil => cases h; rfl
  | cons l rest ih =>
    obtain ⟨i, a, id⟩ := l
    rw [Chain.entries] at h
    cases ha : Chain.azimuth c (mem id) with
    | error => rw [ha] at h; cases h
    | ok b =>
      cases hr : Chain.entries junk c mem rest with
      | error => rw [ha, hr] at h; cases h
      | ok es2 =>
        rw [ha, hr] at h
        cases h
        simp [ih es2 hr]

theorem gatherLoop_size (x : ℝ) (es : List (Stack.Entry ℝ (ℕ → ℂ))) (off m : ℕ) :
    ∀ (k : ℕ) (best : Option ℝ) (g g' : Stack.Gathered ℝ (ℕ → ℂ)), Stack.gatherLoop x es off m k best g = .ok g' →
      g'.size = g.size := by
  induction m with
  | zero => intro k best g g' h; cases h; rfl
  | succ m ih =>
    intro k best g g' h
    rw [Stack.gatherLoop] at h
    split at h
    · cases h
    · split at h
      · cases h
      · have := ih _ _ _ _ h
        rw [this]

theorem gather_size (argsort : List ℝ → List ℕ) (n : ℕ) (x : ℝ) (prev : ℕ) (es : List (Stack.Entry ℝ (ℕ → ℂ))) (g)
    (h : Stack.gather argsort n x prev es = .ok g) : g.size = min es.length n := by
  unfold Stack.gather at h
  cases hw : Stack.window argsort n x es with
  | error e => rw [hw] at h; cases h
  | ok p =>
    obtain ⟨size, off⟩ := p
    rw [hw] at h
    have h1 := gatherLoop_size _ _ _ _ _ _ _ _ h
    rw [h1]
    unfold Stack.window at hw
    split at hw
    · cases hw
      dsimp only
      omega
    · split at hw
      · cases hw
      · split at hw
        · cases hw
        · cases hw
          dsimp only
          omega

/-- Whether a surface is written depends on the number of its looks. -/
theorem surface_none (argsort : List ℝ → List ℕ) (round : ℝ → ℤ) (junk : ℕ → ℂ) (c : Chain.Conf) (mem : ℕ → Chain.L1A)
    (f : Chain.Surf) (prev : ℕ) (looks : Chain.Looks) (r : Option Chain.Result)
    (h : Chain.surface argsort round junk c mem f prev looks = .ok r) :
    r = none ↔ min looks.length c.looks < c.looks / 2 := by
  unfold Chain.surface at h
  cases he : Chain.entries junk c mem looks with
  | error => rw [he] at h; cases h
  | ok es =>
    rw [he] at h
    dsimp only at h
    have h1 := entries_length _ _ _ _ _ he
    cases hg : Stack.gather argsort c.looks (π / 2) prev es with
    | error => rw [hg] at h; cases h
    | ok g =>
      rw [hg] at h
      dsimp only at h
      have h2 := gather_size _ _ _ _ _ _ hg
      rw [h1] at h2
      rw [← h2]
      split at h
      · cases h
        simpa
      · rename_i hn
        split at h
        · cases h
        · split at h
          · cases h
          · split at h
            · cases h
            · cases h
              simpa using hn

/-- Whether a surface is written does not depend on the weighting. -/
theorem surfaceAw_none (on : Bool) (p : Chain.Pattern) (argsort : List ℝ → List ℕ) (round : ℝ → ℤ) (junk : ℕ → ℂ) (c : Chain.Conf)
    (mem : ℕ → Chain.L1A) (f : Chain.Surf) (prev : ℕ) (looks : Chain.Looks) (r : Option Chain.Result)
    (h : Chain.surfaceAw on p argsort round junk c mem f prev looks = .ok r) :
    r = none ↔ min looks.length c.looks < c.looks / 2 := by
  cases r with
  | none => exact surface_none argsort round junk c mem f prev looks none (Chain.surfaceAw_ok_none h)
  | some r =>
    obtain ⟨r0, h0, _⟩ := Chain.surfaceAw_ok_some h
    have := surface_none argsort round junk c mem f prev looks (some r0) h0
    simpa using this

/-! ## Invariant -/

/-- What holds of the state at the start of an iteration besides `Process.Ctl`: the two lists of surfaces belong
together, the counters are distinct, the lists of a stack have one length. -/
structure Inv (s : State) : Prop where
  len : s.surfs.length = s.ctl.surfaces.length
  nodup : (s.ctl.surfaces.map (·.counter)).Nodup
  below : ∀ w ∈ s.ctl.surfaces, w.counter < s.ctl.count
  lists : ∀ w ∈ s.ctl.surfaces, w.indices.length = w.bursts.length ∧ w.indicesAbs.length = w.bursts.length

/-- A result of `Whole` and the corresponding one of `Process`. -/
def Sim {A B : Type} (f : A → B) (r : Out A) (q : Res ℝ B) : Prop :=
  match r with
  | .ok a => q = .ok (f a)
  | .error (.raised e s) => ∃ t, q = .error (e, t) ∧ t.trace = s.ctl.trace
  | .error (.nan s) => ∃ t, q = .error (.other "nan", t) ∧ t.trace = s.ctl.trace

theorem sim_begin (c : Conf) (o : World) (file : ℕ → Raw) (sAt : ℕ → State) (s : State) :
    Process.beginIteration (envOf c o file sAt) s.ctl = (beginIteration o s).ctl := rfl

theorem begin_facts (o : World) (s : State) : (beginIteration o s).surfs = s.surfs ∧ (beginIteration o s).alg = s.alg ∧
    (beginIteration o s).mem = s.mem ∧ (beginIteration o s).ctl.k = s.ctl.k + 1 ∧
    (beginIteration o s).ctl.surfaces = s.ctl.surfaces ∧ (beginIteration o s).ctl.count = s.ctl.count ∧
    (beginIteration o s).ctl.gapResume = s.ctl.gapResume ∧ (beginIteration o s).ctl.packets = s.ctl.packets := by
  unfold beginIteration
  dsimp only
  cases o.cancelled s.ctl.k <;> exact ⟨rfl, rfl, rfl, rfl, rfl, rfl, rfl, rfl⟩

/-- What the input phase keeps. -/
structure Kept (s s' : State) : Prop where
  k : s'.ctl.k = s.ctl.k
  inv : Inv s'

theorem Inv.of {s s' : State} (h : Inv s) (h1 : s'.surfs = s.surfs) (h2 : s'.ctl.surfaces = s.ctl.surfaces)
    (h3 : s'.ctl.count = s.ctl.count) : Inv s' := by
  obtain ⟨a, b, c, d⟩ := h
  refine ⟨by rw [h1, h2, a], by rw [h2]; exact b, ?_, by rw [h2]; exact d⟩
  rw [h2, h3]; exact c

theorem Inv.add {s s' : State} (h : Inv s) (h1 : s'.surfs.length = s.surfs.length + 1)
    (h2 : s'.ctl.surfaces = s.ctl.surfaces ++ [(⟨s.ctl.count, [], [], []⟩ : Beams.Surf (Pk ℝ))])
    (h3 : s'.ctl.count = s.ctl.count + 1) : Inv s' := by
  obtain ⟨a, b, c, d⟩ := h
  refine ⟨by rw [h1, h2, a]; simp, ?_, ?_, ?_⟩
  · rw [h2, List.map_append, List.nodup_append]
    refine ⟨b, by simp, ?_⟩
    intro x hx y hy
    obtain ⟨w, hw, rfl⟩ := List.mem_map.1 hx
    simp at hy
    have := c w hw
    omega
  · rw [h2, h3]
    intro w hw
    rcases List.mem_append.1 hw with hw | hw
    · have := c w hw; omega
    · simp at hw; subst hw; simp
  · rw [h2]
    intro w hw
    rcases List.mem_append.1 hw with hw | hw
    · exact d w hw
    · simp at hw; subst hw; simp

theorem locations_sim (c : Conf) (o : World) (file : ℕ → Raw) (sAt : ℕ → State) (s : State) (p : Pk ℝ) (force : Bool)
    (hforce : force = true → s.ctl.surfaces = []) (h : Inv s)
    (halg : (sAt (s.ctl.k - 1)).alg = s.alg) (hsurfs : (sAt (s.ctl.k - 1)).surfs = s.surfs) :
    Sim (fun x => (x.1, x.2.ctl)) (surfaceLocations c file s p force)
      (Process.surfaceLocations (envOf c o file sAt) s.ctl p force) ∧
    ∀ b s', surfaceLocations c file s p force = .ok (b, s') → Kept s s' := by
  unfold surfaceLocations Process.surfaceLocations Process.locate
  dsimp only
  by_cases hem : s.ctl.surfaces = []
  · have hs0 : s.surfs = [] := List.length_eq_zero_iff.1 (by rw [h.len, hem]; rfl)
    obtain ⟨a, l, h1, h2⟩ := step_first c.surface s.alg (s.ctl.packets.map (fun x => burst c (file x.1.counter)))
      (burst c (file p.counter)) force
    rw [hs0, h1]
    simp only [St.log, hem, List.isEmpty_nil, Bool.true_or, if_true]
    refine ⟨rfl, ?_⟩
    intro b s' hb
    cases hb
    refine ⟨rfl, h.add (by rw [h2, hs0]; rfl) (by rw [hem]) rfl⟩
  · have hf : force = false := by
      cases force with
      | false => rfl
      | true => exact absurd (hforce rfl) hem
    subst hf
    have hne : (s.ctl.surfaces.isEmpty || false) = false := by simpa using hem
    simp only [St.log, hne]
    have hfound : (envOf c o file sAt).found { s.ctl with
          packets := s.ctl.packets ++ [(p, false)], trace := s.ctl.trace ++ [.accepted p.counter] } =
        match Surface.step c.surface s.alg s.surfs (s.ctl.packets.map (fun x => burst c (file x.1.counter)))
          (burst c (file p.counter)) false with
        | .err e => .error e
        | .nan => .error (.other "nan")
        | .ok _ _ new => .ok new := by
      simp only [envOf, foundAt, halg, hsurfs, List.getLast?_append, List.getLast?_singleton, Option.some_or,
        List.dropLast_concat]
    simp only [Bool.false_eq_true, if_false]
    rw [hfound]
    cases hst : Surface.step c.surface s.alg s.surfs (s.ctl.packets.map (fun x => burst c (file x.1.counter)))
      (burst c (file p.counter)) false with
    | err e => exact ⟨⟨_, rfl, rfl⟩, by simp⟩
    | nan => exact ⟨⟨_, rfl, rfl⟩, by simp⟩
    | ok a l new =>
      have hl := step_length _ _ _ _ _ _ _ _ _ hst
      cases new with
      | false =>
        refine ⟨rfl, ?_⟩
        intro b s' hb
        cases hb
        obtain ⟨i1, i2, i3, i4⟩ := h
        exact ⟨rfl, ⟨by dsimp only; rw [hl, ← i1]; rfl, i2, i3, i4⟩⟩
      | true =>
        refine ⟨rfl, ?_⟩
        intro b s' hb
        cases hb
        exact ⟨rfl, h.add (by rw [hl]; rfl) rfl rfl⟩

theorem read_sim (c : Conf) (file : ℕ → Raw) (s : State) :
    Sim State.ctl (readNext c file s) (Process.readNext s.ctl) ∧
    ∀ s', readNext c file s = .ok s' → s'.ctl.k = s.ctl.k ∧ s'.surfs = s.surfs ∧ s'.alg = s.alg ∧
      s'.ctl.surfaces = s.ctl.surfaces ∧ s'.ctl.count = s.ctl.count ∧ s'.ctl.gapResume = s.ctl.gapResume := by
  unfold readNext Process.readNext
  cases hr : s.ctl.rest with
  | nil =>
    dsimp only
    cases s.ctl.surfaceProcessing with
    | false => exact ⟨⟨_, rfl, rfl⟩, by simp⟩
    | true => refine ⟨rfl, ?_⟩; intro s' hs'; cases hs'; exact ⟨rfl, rfl, rfl, rfl, rfl, rfl⟩
  | cons x rest =>
    cases x with
    | failure e => exact ⟨⟨_, rfl, rfl⟩, by simp⟩
    | invalid => refine ⟨rfl, ?_⟩; intro s' hs'; cases hs'; exact ⟨rfl, rfl, rfl, rfl, rfl, rfl⟩
    | record p => refine ⟨rfl, ?_⟩; intro s' hs'; cases hs'; exact ⟨rfl, rfl, rfl, rfl, rfl, rfl⟩

theorem handle_sim (c : Conf) (o : World) (file : ℕ → Raw) (sAt : ℕ → State) (s : State) (p : Pk ℝ)
    (hforce : s.ctl.gapResume = true → s.ctl.surfaces = []) (h : Inv s)
    (halg : (sAt (s.ctl.k - 1)).alg = s.alg) (hsurfs : (sAt (s.ctl.k - 1)).surfs = s.surfs) :
    Sim (fun x => (x.1, x.2.ctl)) (handlePacket c file s p) (Process.handlePacket (envOf c o file sAt) s.ctl p) ∧
    ∀ b s', handlePacket c file s p = .ok (b, s') → Kept s s' := by
  unfold handlePacket Process.handlePacket
  have hc : call ((envOf c o file sAt).calFails s.ctl p) s.ctl = .ok s.ctl := rfl
  rw [hc]
  dsimp only
  have ht : Process.inTime (envOf c o file sAt) (s.ctl.log (.calibrated p.counter)) p =
      inTime c (s.ctl.log (.calibrated p.counter)) p := by
    unfold Process.inTime inTime
    cases (s.ctl.log (.calibrated p.counter)).prevTime with
    | none => rfl
    | some t => exact decide_eq_decide.2 Iff.rfl
  rw [ht]
  split
  · set s1 : State := { s with
      ctl := { s.ctl.log (.calibrated p.counter) with prevTime := some p.time }
      mem := Function.update s.mem p.counter (calibrated c (file p.counter) (s.mem p.counter)) } with hs1
    obtain ⟨q1, q2⟩ := locations_sim c o file sAt s1 p s.ctl.gapResume hforce (h.of rfl rfl rfl) halg hsurfs
    have e1 : surfaceLocations c file ⟨{ s.ctl.log (.calibrated p.counter) with prevTime := some p.time }, s.surfs,
        Function.update s.mem p.counter (calibrated c (file p.counter) (s.mem p.counter)), s.alg, s.closest, s.l1b,
        s.l1bs⟩ p (s.ctl.log (.calibrated p.counter)).gapResume = surfaceLocations c file s1 p s.ctl.gapResume := rfl
    have e2 : Process.surfaceLocations (envOf c o file sAt) { s.ctl.log (.calibrated p.counter) with prevTime := some p.time } p
        (s.ctl.log (.calibrated p.counter)).gapResume =
        Process.surfaceLocations (envOf c o file sAt) s1.ctl p s.ctl.gapResume := rfl
    rw [e1, e2]
    clear e1 e2
    revert q1 q2
    cases surfaceLocations c file s1 p s.ctl.gapResume with
    | error x =>
      intro q1 _
      refine ⟨?_, by simp⟩
      cases x with
      | raised e s' =>
        obtain ⟨t, h1, h2⟩ := q1
        rw [h1]
        exact ⟨t, rfl, h2⟩
      | nan s' =>
        obtain ⟨t, h1, h2⟩ := q1
        rw [h1]
        exact ⟨t, rfl, h2⟩
    | ok x =>
      obtain ⟨b, s'⟩ := x
      intro q1 q2
      have q1 : Process.surfaceLocations (envOf c o file sAt) s1.ctl p s.ctl.gapResume = .ok (b, s'.ctl) := q1
      rw [q1]
      refine ⟨rfl, ?_⟩
      intro b2 s2 hb
      cases hb
      obtain ⟨k1, k2⟩ := q2 b s' rfl
      exact ⟨k1, k2.of rfl rfl rfl⟩
  · refine ⟨rfl, ?_⟩
    intro b s' hb
    cases hb
    exact ⟨rfl, h.of rfl rfl rfl⟩

theorem input_sim (c : Conf) (o : World) (file : ℕ → Raw) (sAt : ℕ → State) (s : State)
    (hforce : s.ctl.gapResume = true → s.ctl.surfaces = []) (h : Inv s)
    (halg : (sAt (s.ctl.k - 1)).alg = s.alg) (hsurfs : (sAt (s.ctl.k - 1)).surfs = s.surfs) :
    Sim (fun x => (x.1, x.2.ctl)) (inputPhase c file s) (Process.inputPhase (envOf c o file sAt) s.ctl) ∧
    ∀ b s', inputPhase c file s = .ok (b, s') → Kept s s' := by
  unfold inputPhase Process.inputPhase
  split
  · split
    · refine ⟨rfl, ?_⟩
      intro b s' hb
      cases hb
      exact ⟨rfl, h.of rfl rfl rfl⟩
    · refine ⟨rfl, ?_⟩
      intro b s' hb
      cases hb
      exact ⟨rfl, h⟩
  · have fin : ∀ s1 : State, s1.ctl.k = s.ctl.k → s1.surfs = s.surfs → s1.alg = s.alg →
        s1.ctl.surfaces = s.ctl.surfaces → s1.ctl.count = s.ctl.count → s1.ctl.gapResume = s.ctl.gapResume →
        Sim (fun x => (x.1, x.2.ctl)) (match s1.ctl.input with | none => .ok (false, s1) | some p => handlePacket c file s1 p)
          (match s1.ctl.input with | none => .ok (false, s1.ctl) | some p => Process.handlePacket (envOf c o file sAt) s1.ctl p) ∧
        ∀ b s', (match s1.ctl.input with | none => (.ok (false, s1) : Out (Bool × State)) | some p => handlePacket c file s1 p) = .ok (b, s') → Kept s s' := by
      intro s1 e1 e2 e3 e4 e5 e6
      have hi : Inv s1 := h.of e2 e4 e5
      cases s1.ctl.input with
      | none =>
        refine ⟨rfl, ?_⟩
        intro b s' hb
        cases hb
        exact ⟨e1, hi⟩
      | some p =>
        obtain ⟨q1, q2⟩ := handle_sim c o file sAt s1 p (by rw [e6, e4]; exact hforce) hi (by rw [e1, e3]; exact halg)
          (by rw [e1, e2]; exact hsurfs)
        refine ⟨q1, ?_⟩
        intro b s' hb
        obtain ⟨k1, k2⟩ := q2 b s' hb
        exact ⟨k1.trans e1, k2⟩
    by_cases hg : s.ctl.gapResume = true
    · rw [if_pos hg, if_pos hg]
      have f := fin s rfl rfl rfl rfl rfl rfl
      dsimp only
      revert f
      cases s.ctl.input <;> exact id
    · rw [if_neg hg, if_neg hg]
      obtain ⟨q1, q2⟩ := read_sim c file s
      revert q1 q2
      cases readNext c file s with
      | error x =>
        intro q1 _
        refine ⟨?_, by simp⟩
        cases x with
        | raised e s' =>
          obtain ⟨t, h1, h2⟩ := q1
          rw [h1]
          exact ⟨t, rfl, h2⟩
        | nan s' =>
          obtain ⟨t, h1, h2⟩ := q1
          rw [h1]
          exact ⟨t, rfl, h2⟩
      | ok s1 =>
        intro q1 q2
        have q1 : Process.readNext s.ctl = .ok s1.ctl := q1
        rw [q1]
        obtain ⟨e1, e2, e3, e4, e5, e6⟩ := q2 s1 rfl
        have f := fin s1 e1 e2 e3 e4 e5 e6
        dsimp only
        revert f
        cases s1.ctl.input <;> exact id

/-! ## Beams -/

theorem anglesLoop_congr {S : Type} (n : ℕ) (v : Beams.View ℝ) (f g : S → ℝ) (counter : S → ℕ) (isWork : S → Bool)
    (l : List S) (h : ∀ x ∈ l, f x = g x) :
    ∀ prev out, Beams.anglesLoop n v f counter isWork prev out l = Beams.anglesLoop n v g counter isWork prev out l := by
  induction l with
  | nil => intro prev out; rfl
  | cons x l ih =>
    intro prev out
    have ih := ih (fun y hy => h y (by simp [hy]))
    unfold Beams.anglesLoop
    rw [h x (by simp)]
    simp only [ih]

theorem findIdx_zip {S : Type} (f : S → ℕ) (l : List S) (hn : (l.map f).Nodup) (x : S × ℕ) (hx : x ∈ l.zipIdx) :
    l.findIdx (fun y => f y == f x.1) = x.2 := by
  obtain ⟨a, i⟩ := x
  have h := List.mem_zipIdx_iff_getElem?.1 hx
  simp only at h ⊢
  obtain ⟨hi, ha⟩ := List.getElem?_eq_some_iff.1 h
  rw [List.findIdx_eq hi]
  refine ⟨by simp [ha], ?_⟩
  intro j hj
  have hne : f l[j] ≠ f l[i] := by
    intro he
    have := (List.Nodup.getElem_inj_iff hn (i := j) (j := i) (hi := by rw [List.length_map]; omega) (hj := by simpa using hi)).1 (by simpa using he)
    omega
  simpa [ha] using hne

theorem outer_pres {B : Type} (P : Beams.Surf B → Prop) (n : ℕ) (tr : ℤ) (size : ℕ) (p : B)
    (hP : ∀ k w, P w → P (Beams.addStack n tr size k p w)) (cs : List ℕ) :
    ∀ (k last : ℕ) (l : List (Beams.Surf B)), (∀ w ∈ l, P w) → ∀ w ∈ Beams.outer n tr size p k last cs l, P w := by
  have hin : ∀ k c (l : List (Beams.Surf B)), (∀ w ∈ l, P w) →
      ∀ w ∈ (Beams.inner (Beams.addStack n tr size k p) c l).1, P w := by
    intro k c l
    induction l with
    | nil => intro h w hw; simp [Beams.inner] at hw
    | cons x l ih =>
      intro h w hw
      unfold Beams.inner at hw
      split at hw
      · rcases List.mem_cons.1 hw with rfl | hw
        · exact hP _ _ (h _ (by simp))
        · exact h _ (by simp [hw])
      · rcases List.mem_cons.1 hw with rfl | hw
        · exact h _ (by simp)
        · exact ih (fun w hw => h w (by simp [hw])) w hw
  induction cs with
  | nil => intro k last l h; exact h
  | cons c rest ih =>
    intro k last l h
    unfold Beams.outer
    dsimp only
    apply ih
    intro w hw
    rcases List.mem_append.1 hw with hw | hw
    · exact h w (List.mem_of_mem_take hw)
    · exact hin _ _ _ (fun w hw => h w (List.mem_of_mem_drop hw)) w hw

theorem burst_sim (c : Conf) (o : World) (file : ℕ → Raw) (sAt : ℕ → State) (s : State) (p : Pk ℝ) (h : Inv s)
    (hS : (afterInput c o file (sAt (s.ctl.k - 1))).surfs = s.surfs) :
    (∀ e s', burstBeams c file s p = .error (.raised e s') → s'.ctl = s.ctl.log (.beams p.counter) ∧
      qMin c ‖(file p.counter).vel‖ = .error e) ∧
    (∀ s', burstBeams c file s p ≠ .error (.nan s')) ∧
    (∀ b s', burstBeams c file s p = .ok (b, s') →
      (∃ q, qMin c ‖(file p.counter).vel‖ = .ok q) ∧
      Process.burstBeams (envOf c o file sAt) s.ctl p = (b, s'.ctl) ∧ Inv s' ∧ s'.surfs = s.surfs ∧ s'.ctl.k = s.ctl.k ∧
      (s'.mem p.counter).angles.length = s'.ctl.sizePrev.toNat ∧ (s'.mem p.counter).trend = s'.ctl.trendPrev) := by
  unfold burstBeams
  cases hq : qMin c ‖(file p.counter).vel‖ with
  | error e =>
    refine ⟨?_, by simp, by simp⟩
    intro e' s' he
    cases he
    exact ⟨rfl, rfl⟩
  | ok q =>
    refine ⟨by simp, by simp, ?_⟩
    intro b s' hb
    cases hb
    have hv : viewAt c file p = view q (doppler c (file p.counter)) := by
      unfold viewAt
      rw [hq]
    have hout : Beams.beamAngles (envOf c o file sAt).nPulses ((envOf c o file sAt).view s.ctl p)
        (fun x => (envOf c o file sAt).angle s.ctl p x.1) (fun x => x.1.counter) (fun x => x.2 == 0) s.ctl.surfaces.zipIdx =
        Beams.beamAngles c.pulses (view q (doppler c (file p.counter)))
          (fun x => angle (burst c (file p.counter)) (view q (doppler c (file p.counter))) s.surfs x.2)
          (fun x : Beams.Surf (Pk ℝ) × ℕ => x.1.counter) (fun x => x.2 == 0) s.ctl.surfaces.zipIdx := by
      rw [← hv]
      refine anglesLoop_congr _ _ _ _ _ _ _ ?_ _ _
      intro x hx
      simp only [envOf, hS]
      rw [findIdx_zip (fun y : Beams.Surf (Pk ℝ) => y.counter) _ h.nodup x hx]
    refine ⟨⟨q, rfl⟩, ?_, ?_, rfl, rfl, ?_, ?_⟩
    · unfold Process.burstBeams
      rw [hout]
      rfl
    · set out := Beams.beamAngles c.pulses (view q (doppler c (file p.counter)))
          (fun x => angle (burst c (file p.counter)) (view q (doppler c (file p.counter))) s.surfs x.2)
          (fun x : Beams.Surf (Pk ℝ) × ℕ => x.1.counter) (fun x => x.2 == 0) s.ctl.surfaces.zipIdx
      have hg := outer_gains p c.pulses (Beams.trend c.pulses s.ctl.sizePrev s.ctl.trendPrev out.angles.length)
        out.angles.length out.counters 0 0 s.ctl.surfaces s.ctl.surfaces (List.forall₂_same.2 (fun x _ => Gains.refl p x)) rfl
      have hcnt : (Beams.outer c.pulses (Beams.trend c.pulses s.ctl.sizePrev s.ctl.trendPrev out.angles.length)
          out.angles.length p 0 0 out.counters s.ctl.surfaces).map (·.counter) = s.ctl.surfaces.map (·.counter) := by
        have : List.Forall₂ (· = ·) (s.ctl.surfaces.map (·.counter))
            ((Beams.outer c.pulses (Beams.trend c.pulses s.ctl.sizePrev s.ctl.trendPrev out.angles.length)
              out.angles.length p 0 0 out.counters s.ctl.surfaces).map (·.counter)) := by
          rw [List.forall₂_map_left_iff, List.forall₂_map_right_iff]
          exact hg.imp (fun a b h => h.1.symm)
        rw [List.forall₂_eq_eq_eq] at this
        exact this.symm
      refine ⟨?_, ?_, ?_, ?_⟩
      · exact h.len.trans hg.length_eq
      · rw [hcnt]; exact h.nodup
      · intro w hw
        have : w.counter ∈ s.ctl.surfaces.map (·.counter) := by rw [← hcnt]; exact List.mem_map_of_mem hw
        obtain ⟨w0, h0, h1⟩ := List.mem_map.1 this
        rw [← h1]
        exact h.below w0 h0
      · refine outer_pres _ _ _ _ _ ?_ _ _ _ _ h.lists
        intro k w hw
        simp [Beams.addStack, hw.1, hw.2]
    · simp
    · simp

theorem azimuthAt_eq (c : Conf) (file : ℕ → Raw) (t : St ℝ) (p : Pk ℝ) (b : Chain.L1A) (q : ℝ)
    (hq : qMin c ‖(file p.counter).vel‖ = .ok q) (h1 : b.angles.length = t.sizePrev.toNat) (h2 : b.trend = t.trendPrev) :
    azimuthAt c file t p = match Chain.azimuth c.chain b with | .error e => some e | .ok _ => none := by
  unfold azimuthAt
  rw [hq]
  dsimp only
  have := azimuth_error c.chain b { blank with angles := List.replicate t.sizePrev.toNat 0, trend := t.trendPrev }
    (by simpa using h1) h2
  cases ha : Chain.azimuth c.chain b with
  | error e => rw [(this e).1 ha]
  | ok x =>
    cases hb : Chain.azimuth c.chain { blank with angles := List.replicate t.sizePrev.toNat 0, trend := t.trendPrev } with
    | error e => rw [(this e).2 hb] at ha; cases ha
    | ok y => rfl

theorem Inv.ctl {s : State} (h : Inv s) (t : St ℝ) (h2 : t.surfaces = s.ctl.surfaces) (h3 : t.count = s.ctl.count) :
    Inv { s with ctl := t } := h.of rfl h2 h3

theorem loop_sim (c : Conf) (o : World) (file : ℕ → Raw) (sAt : ℕ → State) (todo : List (Pk ℝ × Bool)) :
    ∀ (done : List (Pk ℝ × Bool)) (s : State), Inv s → (afterInput c o file (sAt (s.ctl.k - 1))).surfs = s.surfs →
      Sim State.ctl (packetLoop c file done todo s) (Process.packetLoop (envOf c o file sAt) done todo s.ctl) ∧
      ∀ s', packetLoop c file done todo s = .ok s' → Kept s s' ∧ s'.surfs = s.surfs := by
  induction todo with
  | nil =>
    intro done s h hS
    refine ⟨rfl, ?_⟩
    intro s' hs
    cases hs
    exact ⟨⟨rfl, h⟩, rfl⟩
  | cons x todo ih =>
    intro done s h hS
    obtain ⟨p, f⟩ := x
    cases f with
    | true =>
      rw [packetLoop, Process.packetLoop]
      exact ih _ s h hS
    | false =>
      rw [packetLoop, Process.packetLoop]
      obtain ⟨b1, b2, b3⟩ := burst_sim c o file sAt s p h hS
      revert b1 b2 b3
      cases burstBeams c file s p with
      | error x =>
        intro b1 b2 _
        cases x with
        | nan s' => exact absurd rfl (b2 s')
        | raised e s' =>
          obtain ⟨e1, e2⟩ := b1 e s' rfl
          refine ⟨?_, by simp⟩
          dsimp only
          have hz : (envOf c o file sAt).azimuthFails
              ((Process.burstBeams (envOf c o file sAt) s.ctl p).2.log (.beams p.counter)) p = some e := by
            simp only [envOf, azimuthAt, e2]
          rw [hz]
          exact ⟨_, rfl, by rw [e1]; rfl⟩
      | ok x =>
        obtain ⟨seen, s1⟩ := x
        intro _ _ b3
        obtain ⟨⟨q, hq⟩, e1, e2, e3, e4, e5, e6⟩ := b3 seen s1 rfl
        dsimp only
        rw [e1]
        dsimp only
        have hz : (envOf c o file sAt).azimuthFails (s1.ctl.log (.beams p.counter)) p =
            match Chain.azimuth c.chain (s1.mem p.counter) with | .error e => some e | .ok _ => none :=
          azimuthAt_eq c file (s1.ctl.log (.beams p.counter)) p (s1.mem p.counter) q hq e5 e6
        rw [hz]
        cases Chain.azimuth c.chain (s1.mem p.counter) with
        | error e => exact ⟨⟨_, rfl, rfl⟩, by simp⟩
        | ok beams =>
          dsimp only [call]
          cases seen with
          | false =>
            refine ⟨rfl, ?_⟩
            intro s' hs
            cases hs
            exact ⟨⟨e4, e2.of rfl rfl rfl⟩, e3⟩
          | true =>
            have := ih (done ++ [(p, true)])
              { s1 with ctl := { s1.ctl.log (.beams p.counter) with packets := done ++ (p, true) :: todo } }
              (e2.of rfl rfl rfl) (by
                change (afterInput c o file (sAt (s1.ctl.k - 1))).surfs = s1.surfs
                rw [e3, e4]; exact hS)
            refine ⟨this.1, ?_⟩
            intro s' hs
            obtain ⟨k1, k2⟩ := this.2 s' hs
            exact ⟨⟨k1.k.trans e4, k1.inv⟩, k2.trans e3⟩

/-! ## The first surface -/

theorem looksOf_length (w : Beams.Surf (Pk ℝ)) (h : w.indices.length = w.bursts.length ∧ w.indicesAbs.length = w.bursts.length) :
    (looksOf w).length = w.bursts.length := by
  simp [looksOf, h.1, h.2]

theorem clear_sim (w : Beams.Surf (Pk ℝ)) (s : State) : Sim State.ctl (clearOld w s) (Process.clearOld w s.ctl) := by
  unfold clearOld
  cases h : Process.clearOld w s.ctl with
  | error x => exact ⟨x.2, rfl, rfl⟩
  | ok t => rfl

theorem Inv.tail {s s' : State} (h : Inv s) (h1 : s'.surfs = s.surfs.tail) (h2 : s'.ctl.surfaces = s.ctl.surfaces.tail)
    (h3 : s'.ctl.count = s.ctl.count) : Inv s' := by
  obtain ⟨a, b, c, d⟩ := h
  refine ⟨by rw [h1, h2, List.length_tail, List.length_tail, a], ?_, ?_, ?_⟩
  · rw [h2, List.map_tail]
    exact b.sublist (List.tail_sublist _)
  · rw [h2, h3]
    exact fun w hw => c w (List.mem_of_mem_tail hw)
  · rw [h2]
    exact fun w hw => d w (List.mem_of_mem_tail hw)

theorem clear_inv (w : Beams.Surf (Pk ℝ)) (s s' : State) (h : Inv s) (hs : clearOld w s = .ok s') : Kept s s' := by
  unfold clearOld at hs
  cases ht : Process.clearOld w s.ctl with
  | error x => rw [ht] at hs; cases hs
  | ok t =>
    rw [ht] at hs
    cases hs
    unfold Process.clearOld at ht
    split at ht
    · cases ht; exact ⟨rfl, h.tail rfl rfl rfl⟩
    · cases ht
    · cases ht; exact ⟨rfl, h.tail rfl rfl rfl⟩

theorem finish_sim (c : Conf) (o : World) (file : ℕ → Raw) (sAt : ℕ → State) (s : State) (h : Inv s)
    (hS : afterLoop c o file (sAt (s.ctl.k - 1)) = s) :
    Sim State.ctl (finishSurface c o file s) (Process.finishSurface (envOf c o file sAt) s.ctl) ∧
    ∀ s', finishSurface c o file s = .ok s' → Kept s s' := by
  unfold finishSurface Process.finishSurface
  have hg : (envOf c o file sAt).gatherFails s.ctl = match resultAt c o s with | .error e => some e | .ok _ => none := by
    simp only [envOf, hS]
  rw [hg]
  cases hw : s.ctl.surfaces with
  | nil =>
    have hr : resultAt c o s = .error .indexError := by unfold resultAt; rw [hw]
    rw [hr]
    exact ⟨⟨_, rfl, rfl⟩, by simp⟩
  | cons w rest =>
    cases hf : s.surfs with
    | nil =>
      have := h.len
      rw [hf, hw] at this
      cases this
    | cons f fs =>
      have hr : resultAt c o s = Chain.surfaceAw c.weighting c.pattern o.argsort o.round o.junk c.chain s.mem (place f) s.closest (looksOf w) := by
        unfold resultAt; rw [hw, hf]
      rw [hr]
      dsimp only
      have hl := looksOf_length w (h.lists w (by rw [hw]; simp))
      cases hc : Chain.surfaceAw c.weighting c.pattern o.argsort o.round o.junk c.chain s.mem (place f) s.closest (looksOf w) with
      | error e => exact ⟨⟨_, rfl, rfl⟩, by simp⟩
      | ok r =>
        have hn := surfaceAw_none _ _ _ _ _ _ _ _ _ _ _ hc
        rw [hl] at hn
        change _ ↔ min w.bursts.length c.looks < c.looks / 2 at hn
        simp only [call, hw]
        have hlk : (envOf c o file sAt).nLooks = c.looks := rfl
        rw [hlk]
        cases r with
        | none =>
          rw [if_pos (hn.1 rfl)]
          refine ⟨rfl, ?_⟩
          intro s' hs
          cases hs
          exact ⟨rfl, h.tail (by simp [hf]) (by simp [St.log, hw]) rfl⟩
        | some r =>
          rw [if_neg (fun hx => by cases hn.2 hx)]
          dsimp only
          unfold Process.writeSurface
          have hrec : recordAt c o file s = (sigma0 c file s.mem f r).map (fun g => ⟨w.counter, f.loc, r, g⟩) := by
            unfold recordAt
            rw [hr, hw, hf, hc]
          have ha : (envOf c o file sAt).algorithmFails s.ctl =
              match recordAt c o file s with | none => some .valueError | some _ => none := by
            simp only [envOf, hS]
          have h1 : (envOf c o file sAt).l1bFails s.ctl = (recordAt c o file s).bind o.l1bFails := by
            simp only [envOf, hS]
          have h2 : (envOf c o file sAt).l1bsFails (s.ctl.log (.l1b w.counter (stackIds w))) =
              (recordAt c o file s).bind o.l1bsFails := by
            simp only [envOf, St.log, hS]
          rw [ha, hrec]
          rw [hrec] at h1 h2
          cases hsig : sigma0 c file s.mem f r with
          | none => exact ⟨⟨_, rfl, rfl⟩, by simp⟩
          | some g =>
            rw [hsig] at h1 h2
            simp only [Option.map_some, Option.bind_some] at h1 h2
            simp only [call, Option.map_some]
            rw [h1]
            unfold writeSurface
            cases hb1 : o.l1bFails ⟨w.counter, f.loc, r, g⟩ with
            | some e => exact ⟨⟨_, rfl, rfl⟩, by simp⟩
            | none =>
              dsimp only
              unfold writeL1bs Process.writeL1bs
              have hsk : (envOf c o file sAt).skipL1bs = o.skipL1bs := rfl
              rw [hsk, h2]
              cases hskip : o.skipL1bs with
              | true =>
                simp only [if_true]
                refine ⟨clear_sim w _, fun s' hs => ?_⟩
                have kk := fun hi => clear_inv w _ s' hi hs
                obtain ⟨k1, k2⟩ := kk (h.of (by simp [hf]) rfl rfl)
                exact ⟨k1, k2⟩
              | false =>
                simp only [Bool.false_eq_true, if_false]
                cases hb2 : o.l1bsFails ⟨w.counter, f.loc, r, g⟩ with
                | some e => exact ⟨⟨_, rfl, rfl⟩, by simp⟩
                | none =>
                  refine ⟨clear_sim w _, fun s' hs => ?_⟩
                  dsimp only at hs
                  have kk := fun hi => clear_inv w _ s' hi hs
                  obtain ⟨k1, k2⟩ := kk (h.of (by simp [hf]) rfl rfl)
                  exact ⟨k1, k2⟩

theorem phase_eq (env : Env ℝ) (s : St ℝ) : Process.surfacePhase env s =
    if s.surfaceProcessing ∨ minSurfs ≤ s.surfaces.length ∨ s.gapProcessing then
      match s.surfaces with
      | [] => .error (.indexError, s.begun)
      | _ :: _ =>
        match Process.packetLoop env [] s.packets s.begun with
        | .error x => .error x
        | .ok s => Process.finishSurface env s
    else .ok s := by
  unfold Process.surfacePhase
  split
  · cases hs : s.surfaces with
    | nil => simp [St.begun, hs]
    | cons =>
      simp only [St.begun, hs]
      cases Process.packetLoop env [] s.packets _ <;> rfl
  · rfl

theorem surface_sim (c : Conf) (o : World) (file : ℕ → Raw) (sAt : ℕ → State) (s : State) (h : Inv s)
    (hS : afterInput c o file (sAt (s.ctl.k - 1)) = s) :
    Sim State.ctl (surfacePhase c o file s) (Process.surfacePhase (envOf c o file sAt) s.ctl) ∧
    ∀ s', surfacePhase c o file s = .ok s' → Kept s s' := by
  rw [phase_eq]
  unfold surfacePhase
  split
  · cases hw : s.ctl.surfaces with
    | nil => exact ⟨⟨_, rfl, rfl⟩, by simp⟩
    | cons w rest =>
      obtain ⟨q1, q2⟩ := loop_sim c o file sAt s.ctl.packets [] s.begun (h.of rfl rfl rfl) (by
        change (afterInput c o file (sAt (s.ctl.k - 1))).surfs = s.surfs
        rw [hS])
      have hal : ∀ s2, packetLoop c file [] s.ctl.packets s.begun = .ok s2 → afterLoop c o file (sAt (s.ctl.k - 1)) = s2 := by
        intro s2 h2
        unfold afterLoop
        rw [hS]
        dsimp only
        rw [h2]
      have e1 : s.ctl.begun = s.begun.ctl := rfl
      rw [e1]
      dsimp only
      revert q1 q2 hal
      cases packetLoop c file [] s.ctl.packets s.begun with
      | error x =>
        intro q1 _ _
        refine ⟨?_, by simp⟩
        cases x with
        | raised e s' =>
          obtain ⟨t, h1, h2⟩ := q1
          rw [h1]
          exact ⟨t, rfl, h2⟩
        | nan s' =>
          obtain ⟨t, h1, h2⟩ := q1
          rw [h1]
          exact ⟨t, rfl, h2⟩
      | ok s2 =>
        intro q1 q2 hal
        have q1 : Process.packetLoop (envOf c o file sAt) [] s.ctl.packets s.begun.ctl = .ok s2.ctl := q1
        rw [q1]
        obtain ⟨⟨k1, k2⟩, _⟩ := q2 s2 rfl
        have k1 : s2.ctl.k = s.ctl.k := k1
        obtain ⟨r1, r2⟩ := finish_sim c o file sAt s2 k2 (by rw [k1]; exact hal s2 rfl)
        refine ⟨r1, fun s' hs => ?_⟩
        obtain ⟨l1, l2⟩ := r2 s' hs
        exact ⟨l1.trans k1, l2⟩
  · refine ⟨rfl, fun s' hs => ?_⟩
    cases hs
    exact ⟨rfl, h⟩

theorem end_sim (s : State) : Sim State.ctl (endPhase s) (Process.endPhase s.ctl) := by
  unfold endPhase
  cases h : Process.endPhase s.ctl with
  | error x => exact ⟨x.2, rfl, rfl⟩
  | ok t => rfl

theorem end_inv (s s' : State) (h : Inv s) (hs : endPhase s = .ok s') : Kept s s' := by
  unfold endPhase at hs
  cases ht : Process.endPhase s.ctl with
  | error x => rw [ht] at hs; cases hs
  | ok t =>
    rw [ht] at hs
    cases hs
    unfold Process.endPhase at ht
    split at ht
    · split at ht
      · dsimp only at ht
        split at ht
        · cases ht; exact ⟨rfl, h.of rfl rfl rfl⟩
        · cases ht
      · cases ht; exact ⟨rfl, h.of rfl rfl rfl⟩
    · cases ht; exact ⟨rfl, h⟩

/-- An iteration of `Whole` is one of `Process`. -/
theorem step_sim (c : Conf) (o : World) (file : ℕ → Raw) (sAt : ℕ → State) (s : State) (hs : sAt s.ctl.k = s)
    (hforce : s.ctl.gapResume = true → s.ctl.surfaces = []) (h : Inv s) :
    Sim State.ctl (step c o file s) (Process.step (envOf c o file sAt) s.ctl) ∧
    ∀ s', step c o file s = .ok s' → s'.ctl.k = s.ctl.k + 1 ∧ Inv s' := by
  unfold step Process.step
  obtain ⟨f1, f2, f3, f4, f5, f6, f7, f8⟩ := begin_facts o s
  have hk : (beginIteration o s).ctl.k - 1 = s.ctl.k := by rw [f4]; rfl
  obtain ⟨q1, q2⟩ := input_sim c o file sAt (beginIteration o s) (by rw [f5, f7]; exact hforce) (h.of f1 f5 f6)
    (by rw [hk, hs, f2]) (by rw [hk, hs, f1])
  rw [sim_begin]
  have hai : ∀ b s1, inputPhase c file (beginIteration o s) = .ok (b, s1) → afterInput c o file s = s1 := by
    intro b s1 h1
    unfold afterInput
    rw [h1]
  revert q1 q2 hai
  cases inputPhase c file (beginIteration o s) with
  | error x =>
    intro q1 _ _
    refine ⟨?_, by simp⟩
    cases x with
    | raised e s' =>
      obtain ⟨t, h1, h2⟩ := q1
      rw [h1]
      exact ⟨t, rfl, h2⟩
    | nan s' =>
      obtain ⟨t, h1, h2⟩ := q1
      rw [h1]
      exact ⟨t, rfl, h2⟩
  | ok x =>
    obtain ⟨b, s1⟩ := x
    intro q1 q2 hai
    have q1 : Process.inputPhase (envOf c o file sAt) (beginIteration o s).ctl = .ok (b, s1.ctl) := q1
    rw [q1]
    obtain ⟨k1, k2⟩ := q2 b s1 rfl
    rw [f4] at k1
    cases b with
    | true =>
      refine ⟨rfl, fun s' hs' => ?_⟩
      cases hs'
      exact ⟨k1, k2⟩
    | false =>
      dsimp only
      obtain ⟨r1, r2⟩ := surface_sim c o file sAt s1 k2 (by
        rw [k1]
        change afterInput c o file (sAt s.ctl.k) = s1
        rw [hs]; exact hai false s1 rfl)
      revert r1 r2
      cases surfacePhase c o file s1 with
      | error x =>
        intro r1 _
        refine ⟨?_, by simp⟩
        cases x with
        | raised e s' =>
          obtain ⟨t, h1, h2⟩ := r1
          rw [h1]
          exact ⟨t, rfl, h2⟩
        | nan s' =>
          obtain ⟨t, h1, h2⟩ := r1
          rw [h1]
          exact ⟨t, rfl, h2⟩
      | ok s2 =>
        intro r1 r2
        have r1 : Process.surfacePhase (envOf c o file sAt) s1.ctl = .ok s2.ctl := r1
        rw [r1]
        obtain ⟨l1, l2⟩ := r2 s2 rfl
        refine ⟨end_sim s2, fun s' hs' => ?_⟩
        obtain ⟨m1, m2⟩ := end_inv s2 s' l2 hs'
        exact ⟨by rw [m1, l1, k1], m2⟩

end Dedop.Whole
