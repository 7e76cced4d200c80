import Verif.Whole.Twin
import Verif.Whole.Demo
import Verif.Chain.Scale

/-!
# What the echoes decide in the products, and what they do not (C144, C145)
-/
namespace Dedop.Whole

open Real Process

/-! ## Specification -/

/-- A record of the input without its echoes and the corrections of their calibration. -/
def Raw.quiet (r : Raw) : Raw :=
  { r with
    i := fun _ _ => 0
    q := fun _ _ => 0
    sig0Cal := 0
    power := fun _ => 0
    phase := fun _ => 0
    gprw := fun _ _ => 0 }

/-- A record of a product without the powers: number, location, bursts and angles of the looks, shifts, masks, number of beams,
first and last beam, sigma0 factors are left. -/
def Record.outline (r : Record) : Record :=
  { r with
    result :=
      { gathered := { r.result.gathered with rows := r.result.gathered.rows.map (fun row => { row with beam := fun _ => 0 }) }
        shifts := r.result.shifts
        masked := { r.result.masked with beams := [] }
        out := { r.result.out with waveform := [] } } }

/-- Whether writing a record fails depends on its number only, for instance on the space left on the disk. -/
def World.Steady (o : World) : Prop :=
  ∃ f g : ℕ → Option PyErr, ∀ rec, o.l1bFails rec = f rec.counter ∧ o.l1bsFails rec = g rec.counter

/-- Two runs end in the same way (finished, or the same exception) after the same events: the same records are read and used, the
same surfaces are made, dropped and written, at the same iterations. -/
def SameCourse (a b : Outcome) : Prop := SameKind (fun s t => t.ctl = s.ctl) a b

/-! ## Lemmas -/

theorem SameKind.mono {Q Q' : State → State → Prop} (h : ∀ s t, Q s t → Q' s t) {a b : Outcome} (hk : SameKind Q a b) :
    SameKind Q' a b := by
  cases hk with
  | finished q => exact .finished (h _ _ q)
  | failed q => exact .failed (h _ _ q)
  | nan q => exact .nan (h _ _ q)
  | timeout q => exact .timeout (h _ _ q)

/-- A burst object without its echoes. -/
def silent (b : Chain.L1A) : Chain.L1A := { b with wfm := fun _ _ => 0 }

/-- The result for a surface without the powers. -/
def outlineOf (r : Chain.Result) : Chain.Result :=
  { gathered := { r.gathered with rows := r.gathered.rows.map (fun row => { row with beam := fun _ => 0 }) }
    shifts := r.shifts
    masked := { r.masked with beams := [] }
    out := { r.out with waveform := [] } }

theorem outline_times (A : ℕ → ℂ) (r r' : Chain.Result) (h1 : r'.out = { r.out with waveform := r'.out.waveform }) (h2 : r'.shifts = r.shifts)
    (h3 : r'.masked.mask = r.masked.mask) (h4 : r'.masked.vector = r.masked.vector) (h5 : r'.gathered = Chain.timesGathered A r.gathered) :
    outlineOf r' = outlineOf r := by
  unfold outlineOf
  dsimp only
  rw [h5, h2, h3, h4]
  congr 1
  · unfold Chain.timesGathered
    simp only [List.map_map]
    rfl
  · rw [h1]

theorem surface_scaled (on : Bool) (p : Chain.Pattern) (argsort : List ℝ → List ℕ) (round : ℝ → ℤ) (j1 j2 : ℕ → ℂ) (c : Chain.Conf) (b1 b2 : ℕ → Chain.L1A) (s : Chain.Surf)
    (p1 p2 : ℕ) (looks : Chain.Looks) (hw : Chain.WellMade c b1 looks) (A : ℕ → ℂ) (a : ℝ) (hA : ∀ id, ‖A id‖ = a)
    (hb : ∀ id, b2 id = { b1 id with wfm := fun p i => A id * (b1 id).wfm p i }) :
    match Chain.surfaceAw on p argsort round j1 c b1 s p1 looks with
    | .error e => Chain.surfaceAw on p argsort round j2 c b2 s p2 looks = .error e
    | .ok none => Chain.surfaceAw on p argsort round j2 c b2 s p2 looks = .ok none
    | .ok (some r) => ∃ r', Chain.surfaceAw on p argsort round j2 c b2 s p2 looks = .ok (some r') ∧ outlineOf r' = outlineOf r ∧
        r'.out.waveform = Chain.times (a ^ 2) r.out.waveform ∧ r'.gathered = Chain.timesGathered A r.gathered := by
  have hb' : b2 = Chain.rescaled A b1 := by funext id; exact hb id
  have hw2 : Chain.WellMade c b2 looks := by
    refine ⟨hw.1, fun l hl => ?_⟩
    rw [hb]
    exact hw.2 l hl
  rw [Chain.record_own_stack_aw on p argsort round j2 j1 c b2 b2 s p2 p1 looks hw2 (fun _ _ => rfl), hb']
  have := Chain.waveform_scales_aw on p argsort round j1 c b1 s p1 looks hw A a hA
  revert this
  match Chain.surfaceAw on p argsort round j1 c b1 s p1 looks with
  | .error e => exact id
  | .ok none => exact id
  | .ok (some r) =>
    rintro ⟨r', e, h1, h2, h3, h4, _, h5⟩
    exact ⟨r', e, outline_times A r r' (by rw [h1]) h2 h3 h4 h5, by rw [h1], h5⟩

theorem surface_silent (on : Bool) (p : Chain.Pattern) (argsort : List ℝ → List ℕ) (round : ℝ → ℤ) (j1 j2 : ℕ → ℂ) (c : Chain.Conf) (b1 b2 : ℕ → Chain.L1A) (s : Chain.Surf)
    (p1 p2 : ℕ) (looks : Chain.Looks) (hw : Chain.WellMade c b1 looks) (hb : ∀ id, silent (b2 id) = silent (b1 id)) :
    match Chain.surfaceAw on p argsort round j1 c b1 s p1 looks with
    | .error e => Chain.surfaceAw on p argsort round j2 c b2 s p2 looks = .error e
    | .ok none => Chain.surfaceAw on p argsort round j2 c b2 s p2 looks = .ok none
    | .ok (some r) => ∃ r', Chain.surfaceAw on p argsort round j2 c b2 s p2 looks = .ok (some r') ∧ outlineOf r' = outlineOf r := by
  have hw2 : Chain.WellMade c b2 looks := by
    refine ⟨hw.1, fun l hl => ?_⟩
    have h1 : (b2 l.2.2).angles = (b1 l.2.2).angles := (congrArg Chain.L1A.angles (hb l.2.2) :)
    have h2 : Chain.azBurst c (b2 l.2.2) = Chain.azBurst c (b1 l.2.2) := (congrArg (Chain.azBurst c) (hb l.2.2) :)
    rw [h1, h2]
    exact hw.2 l hl
  have hz : ∀ b : ℕ → Chain.L1A, ∀ id, silent (b id) = { b id with wfm := fun p i => (fun _ : ℕ => (0 : ℂ)) id * (b id).wfm p i } := by
    intro b id
    unfold silent
    simp
  have q1 := surface_scaled on p argsort round j1 j1 c b1 (fun id => silent (b1 id)) s p1 p1 looks hw (fun _ => 0) 0 (by simp) (hz b1)
  have q2 := surface_scaled on p argsort round j2 j1 c b2 (fun id => silent (b1 id)) s p2 p1 looks hw2 (fun _ => 0) 0 (by simp)
    (fun id => by rw [← hz b2 id, hb])
  revert q1 q2
  match Chain.surfaceAw on p argsort round j1 c b1 s p1 looks with
  | .error e =>
    intro q1
    dsimp only at q1
    rw [q1]
    match Chain.surfaceAw on p argsort round j2 c b2 s p2 looks with
    | .error e' => intro q2; exact q2.symm
    | .ok none => intro q2; cases q2
    | .ok (some r) => rintro ⟨_, q2, _⟩; cases q2
  | .ok none =>
    intro q1
    dsimp only at q1
    rw [q1]
    match Chain.surfaceAw on p argsort round j2 c b2 s p2 looks with
    | .error e' => intro q2; cases q2
    | .ok none => intro q2; rfl
    | .ok (some r) => rintro ⟨_, q2, _⟩; cases q2
  | .ok (some r) =>
    rintro ⟨r0, q1, h1, _⟩
    rw [q1]
    match Chain.surfaceAw on p argsort round j2 c b2 s p2 looks with
    | .error e' => intro q2; cases q2
    | .ok none => intro q2; cases q2
    | .ok (some r') =>
      rintro ⟨r0', q2, h2, _⟩
      cases q2
      exact ⟨r', rfl, h2.symm.trans h1⟩

theorem sigma0_silent (c : Conf) (file1 file2 : ℕ → Raw) (hf : ∀ id, (file2 id).quiet = (file1 id).quiet) (m1 m2 : ℕ → Chain.L1A)
    (hm : ∀ id, silent (m2 id) = silent (m1 id)) (f : Surface.Surf) (r r' : Chain.Result) (hr : outlineOf r' = outlineOf r) :
    sigma0 c file2 m2 f r' = sigma0 c file1 m1 f r := by
  have key : ∀ (file : ℕ → Raw) (m : ℕ → Chain.L1A) (r : Chain.Result),
      sigma0 c file m f r = sigma0 c (fun id => (file id).quiet) (fun id => silent (m id)) f (outlineOf r) := by
    intro file m r
    unfold sigma0 outlineOf
    dsimp only
    rw [List.map_map, List.getElem?_map, Option.map_map]
    rfl
  rw [key file2, key file1, hr, funext hf, funext hm]

/-- Twins which differ in the echoes only: same surfaces, same locations. -/
def echoTwin (M : ℕ → Chain.L1A → Chain.L1A → Prop) (P : Record → Record → Prop) (gap : ℕ → Prop := fun _ => True) : Twin :=
  ⟨Eq, Eq, M, P, fun _ => True, gap⟩

theorem burst_quiet {c : Conf} {r1 r2 : Raw} (h : r2.quiet = r1.quiet) : burst c r2 = burst c r1 := by
  have : ∀ r : Raw, burst c r = burst c r.quiet := fun _ => rfl
  rw [this r2, h, ← this r1]

theorem doppler_quiet {c : Conf} {r1 r2 : Raw} (h : r2.quiet = r1.quiet) : doppler c r2 = doppler c r1 := by
  have : ∀ r : Raw, doppler c r = doppler c r.quiet := fun _ => rfl
  rw [this r2, h, ← this r1]

theorem azimuth_silent (c : Chain.Conf) (b1 b2 : Chain.L1A) (h : silent b2 = silent b1) :
    match Chain.azimuth c b1 with
    | .error e => Chain.azimuth c b2 = .error e
    | .ok _ => ∃ x, Chain.azimuth c b2 = .ok x := by
  have h1 : b2.angles = b1.angles := (congrArg Chain.L1A.angles h :)
  have h2 : b2.trend = b1.trend := (congrArg Chain.L1A.trend h :)
  have q1 := Chain.azimuth_mul c b1 0
  have q2 := Chain.azimuth_mul c b2 0
  have hs : ∀ b : Chain.L1A, ({ b with wfm := fun p i => 0 * b.wfm p i } : Chain.L1A) = silent b := by
    intro b; unfold silent; simp
  rw [hs] at q1 q2
  rw [h, q1] at q2
  revert q2
  cases Chain.azimuth c b1 with
  | error e =>
    cases Chain.azimuth c b2 with
    | error e' => intro q; cases q; rfl
    | ok x => intro q; cases q
  | ok y =>
    cases Chain.azimuth c b2 with
    | error e' => intro q; cases q
    | ok x => intro _; exact ⟨x, rfl⟩

/-- What remains to be shown of twins which differ in the echoes, the switches of the calibrations, and in the memory that was not
written. -/
theorem alike_switched (c : Conf) (on1 on2 : Bool) (gap : ℕ → Prop) (hn : 0 < c.pulses) (o : World) (ho : o.Steady) (junk : ℕ → ℂ) (file1 file2 : ℕ → Raw)
    (hf : ∀ id, (file2 id).quiet = (file1 id).quiet) (M : ℕ → Chain.L1A → Chain.L1A → Prop) (P : Record → Record → Prop)
    (hM : ∀ id b1 b2, M id b1 b2 → silent b2 = silent b1)
    (h1 : ∀ id, M id (fresh c id (file1 id)) (fresh c id (file2 id)))
    (h2 : ∀ id b1 b2, M id b1 b2 → M id (calibrated c (file1 id) b1) (calibrated { c with cal1 := on1, cal2 := on2 } (file2 id) b2))
    (h3 : ∀ id b1 b2 angles trend, M id b1 b2 →
      M id { b1 with angles := angles, trend := trend } { b2 with angles := angles, trend := trend })
    (h4 : ∀ id : ℕ, M id { blank with seqCount := id } { blank with seqCount := id })
    (h5 : ∀ f m1 m2 p1 p2 looks r r', (∀ id, M id (m1 id) (m2 id)) → Chain.WellMade c.chain m1 looks →
      Alongside gap c { c with cal1 := on1, cal2 := on2 } file1 file2 m1 m2 looks →
      Chain.surfaceAw c.weighting c.pattern o.argsort o.round o.junk c.chain m1 f p1 looks = .ok (some r) →
      Chain.surfaceAw c.weighting c.pattern o.argsort o.round junk c.chain m2 f p2 looks = .ok (some r') → outlineOf r' = outlineOf r →
      ∀ n loc g, P ⟨n, loc, r, g⟩ ⟨n, loc, r', g⟩)
    (h6 : ∀ r1 r2, P r1 r2 → r2.counter = r1.counter) :
    Alike (echoTwin M P gap) c { c with cal1 := on1, cal2 := on2 } o { o with junk := junk } file1 file2 where
  pulses := rfl
  bri := rfl
  pos := hn
  step := by
    intro a1 a2 ss1 ss2 old id force ha hs
    have hs : ss1 = ss2 := List.forall₂_eq_eq_eq ▸ hs
    have ha : a1 = a2 := ha
    subst hs ha
    have hold : old.map (fun i => burst c (file2 i)) = old.map (fun i => burst c (file1 i)) :=
      List.map_congr_left (fun i _ => burst_quiet (hf i))
    show match Surface.step c.surface a1 ss1 (old.map (fun i => burst c (file1 i))) (burst c (file1 id)) force with
      | .err e => Surface.step c.surface a1 ss1 (old.map (fun i => burst c (file2 i))) (burst c (file2 id)) force = .err e
      | .nan => Surface.step c.surface a1 ss1 (old.map (fun i => burst c (file2 i))) (burst c (file2 id)) force = .nan
      | .ok x xs new => (∀ f ∈ xs, True) → ∃ x' xs', Surface.step c.surface a1 ss1 (old.map (fun i => burst c (file2 i)))
          (burst c (file2 id)) force = .ok x' xs' new ∧ x = x' ∧ List.Forall₂ Eq xs xs'
    rw [hold, burst_quiet (hf id)]
    match Surface.step c.surface a1 ss1 (old.map (fun i => burst c (file1 i))) (burst c (file1 id)) force with
    | .err e => rfl
    | .nan => rfl
    | .ok x xs new => exact fun _ => ⟨x, xs, rfl, rfl, List.forall₂_same.2 (fun _ _ => rfl)⟩
  fresh := h1
  calibrated := h2
  beams := h3
  blank := h4
  qMin := by
    intro id
    have : (file2 id).vel = (file1 id).vel := (congrArg Raw.vel (hf id) :)
    rw [this]
    rfl
  doppler := fun id => doppler_quiet (hf id)
  angle := by
    intro id f1 f2 h
    have h : f1 = f2 := h
    have hb : burst { c with cal1 := on1, cal2 := on2 } (file2 id) = burst c (file1 id) := burst_quiet (c := c) (hf id)
    rw [h, hb]
  azimuth := fun id b1 b2 h => azimuth_silent _ _ _ (hM id b1 b2 h)
  surface := by
    intro f1 f2 m1 m2 p1 p2 looks hff hm hw hk
    have hff : f1 = f2 := hff
    subst hff
    have q := surface_silent c.weighting c.pattern o.argsort o.round o.junk junk c.chain m1 m2 (place f1) p1 p2 looks hw (fun id => hM id _ _ (hm id))
    have q5 := h5 (place f1) m1 m2 p1 p2 looks
    revert q q5
    match Chain.surfaceAw c.weighting c.pattern o.argsort o.round o.junk c.chain m1 (place f1) p1 looks with
    | .error e => exact fun q _ => q
    | .ok none => exact fun q _ => q
    | .ok (some r) =>
      rintro ⟨r', e, hr⟩ q5
      refine ⟨r', e, ?_⟩
      show match sigma0 c file1 m1 f1 r with
        | none => sigma0 c file2 m2 f1 r' = none
        | some g => ∃ g', sigma0 c file2 m2 f1 r' = some g' ∧ ∀ n, P ⟨n, f1.loc, r, g⟩ ⟨n, f1.loc, r', g'⟩
      rw [sigma0_silent c file1 file2 hf m1 m2 (fun id => hM id _ _ (hm id)) f1 r r' hr]
      cases sigma0 c file1 m1 f1 r with
      | none => rfl
      | some g => exact ⟨g, rfl, fun n => q5 r r' hm hw hk rfl e hr n f1.loc g⟩
  cancelled := rfl
  l1bFails := by
    intro r1 r2 h
    obtain ⟨f, g, hfg⟩ := ho
    show o.l1bFails r2 = o.l1bFails r1
    rw [(hfg r2).1, (hfg r1).1, h6 r1 r2 h]
  l1bsFails := by
    intro r1 r2 h
    obtain ⟨f, g, hfg⟩ := ho
    show o.l1bsFails r2 = o.l1bsFails r1
    rw [(hfg r2).2, (hfg r1).2, h6 r1 r2 h]
  counter := h6
  finishFails := rfl
  skipL1bs := rfl

/-- What remains to be shown of twins which differ in the echoes, and in the memory that was not written. -/
theorem alike_echo (c : Conf) (hn : 0 < c.pulses) (o : World) (ho : o.Steady) (junk : ℕ → ℂ) (file1 file2 : ℕ → Raw)
    (hf : ∀ id, (file2 id).quiet = (file1 id).quiet) (M : ℕ → Chain.L1A → Chain.L1A → Prop) (P : Record → Record → Prop)
    (hM : ∀ id b1 b2, M id b1 b2 → silent b2 = silent b1)
    (h1 : ∀ id, M id (fresh c id (file1 id)) (fresh c id (file2 id)))
    (h2 : ∀ id b1 b2, M id b1 b2 → M id (calibrated c (file1 id) b1) (calibrated c (file2 id) b2))
    (h3 : ∀ id b1 b2 angles trend, M id b1 b2 →
      M id { b1 with angles := angles, trend := trend } { b2 with angles := angles, trend := trend })
    (h4 : ∀ id : ℕ, M id { blank with seqCount := id } { blank with seqCount := id })
    (h5 : ∀ f m1 m2 p1 p2 looks r r', (∀ id, M id (m1 id) (m2 id)) → Chain.WellMade c.chain m1 looks →
      Chain.surfaceAw c.weighting c.pattern o.argsort o.round o.junk c.chain m1 f p1 looks = .ok (some r) →
      Chain.surfaceAw c.weighting c.pattern o.argsort o.round junk c.chain m2 f p2 looks = .ok (some r') → outlineOf r' = outlineOf r →
      ∀ n loc g, P ⟨n, loc, r, g⟩ ⟨n, loc, r', g⟩)
    (h6 : ∀ r1 r2, P r1 r2 → r2.counter = r1.counter) :
    Alike (echoTwin M P) c c o { o with junk := junk } file1 file2 :=
  alike_switched c c.cal1 c.cal2 (fun _ => True) hn o ho junk file1 file2 hf M P hM h1 h2 h3 h4
    (fun f m1 m2 p1 p2 looks r r' hm hw _ => h5 f m1 m2 p1 p2 looks r r' hm hw) h6

theorem open_quiet (c : Conf) (file1 file2 : ℕ → Raw) (hf : ∀ id, (file2 id).quiet = (file1 id).quiet) (n : ℕ) :
    match Reader.openDataset c.bounds (positions file1 n) with
    | .error e => Reader.openDataset c.bounds (positions file2 n) = .error e
    | .ok d => ∃ d', Reader.openDataset c.bounds (positions file2 n) = .ok d' ∧ items file2 n d' = items file1 n d := by
  have h1 : positions file2 n = positions file1 n := by
    have : ∀ file : ℕ → Raw, positions file n = positions (fun id => (file id).quiet) n := fun _ => rfl
    rw [this file2, this file1, funext hf]
  have h2 : ∀ d, items file2 n d = items file1 n d := by
    intro d
    have : ∀ file : ℕ → Raw, items file n d = items (fun id => (file id).quiet) n d := fun _ => rfl
    rw [this file2, this file1, funext hf]
  rw [h1]
  cases Reader.openDataset c.bounds (positions file1 n) with
  | error e => rfl
  | ok d => exact ⟨d, rfl, h2 d⟩

theorem forall2_map {A B : Type} {f : A → B} {l1 l2 : List A} (h : List.Forall₂ (fun a b => f b = f a) l1 l2) : l2.map f = l1.map f := by
  induction h with
  | nil => rfl
  | cons h _ ih => rw [List.map_cons, List.map_cons, h, ih]

/-! ## C144 -/

/-- **C144.**  Two files with the same orbit, times and instrument settings and any echoes and calibrations give products which differ in the powers only;
the memory that was allocated and not written has no influence either. -/
theorem echoes_only_power (c : Conf) (hn : 0 < c.pulses) (o : World) (ho : o.Steady) (junk : ℕ → ℂ) (alg : Surface.Alg)
    (file1 file2 : ℕ → Raw) (hf : ∀ id, (file2 id).quiet = (file1 id).quiet) (n : ℕ) :
    SameCourse (process c o alg file1 n) (process c { o with junk := junk } alg file2 n) ∧
    (process c { o with junk := junk } alg file2 n).state.l1b.map Record.outline = (process c o alg file1 n).state.l1b.map Record.outline ∧
    (process c { o with junk := junk } alg file2 n).state.l1bs.map Record.outline =
      (process c o alg file1 n).state.l1bs.map Record.outline := by
  have hA : Alike (echoTwin (fun _ b1 b2 => silent b2 = silent b1) (fun r1 r2 => r2.outline = r1.outline)) c c o { o with junk := junk }
      file1 file2 := by
    refine alike_echo c hn o ho junk file1 file2 hf _ _ (fun _ _ _ h => h) ?_ ?_ ?_ (fun _ => rfl) ?_ ?_
    · intro id
      have : ∀ r : Raw, silent (fresh c id r) = silent (fresh c id r.quiet) := fun _ => rfl
      rw [this (file2 id), hf, ← this]
    · intro id b1 b2 h
      exact h
    · intro id b1 b2 angles trend h
      show ({ silent b2 with angles := angles, trend := trend } : Chain.L1A) = { silent b1 with angles := angles, trend := trend }
      rw [h]
    · intro f m1 m2 p1 p2 looks r r' _ _ _ _ hr n loc g
      show (⟨n, loc, outlineOf r', g⟩ : Record) = ⟨n, loc, outlineOf r, g⟩
      rw [hr]
    · intro r1 r2 h
      exact (congrArg Record.counter h :)
  have q := process_twin hA (a1 := alg) (a2 := alg) rfl n (open_quiet c file1 file2 hf n) (fun d _ s _ _ b s' _ f _ => trivial)
    (fun _ _ => trivial)
  exact ⟨q.mono (fun s t h => h.ctl), forall2_map q.state.l1b, forall2_map q.state.l1bs⟩

/-- **C144.**  The memory that was allocated and not written has no influence on the products at all. -/
theorem memory_irrelevant (c : Conf) (hn : 0 < c.pulses) (o : World) (ho : o.Steady) (junk : ℕ → ℂ) (alg : Surface.Alg)
    (file : ℕ → Raw) (n : ℕ) :
    SameCourse (process c o alg file n) (process c { o with junk := junk } alg file n) ∧
    (process c { o with junk := junk } alg file n).state.l1b = (process c o alg file n).state.l1b ∧
    (process c { o with junk := junk } alg file n).state.l1bs = (process c o alg file n).state.l1bs := by
  have hA : Alike (echoTwin (fun _ b1 b2 => b2 = b1) (fun r1 r2 => r2 = r1)) c c o { o with junk := junk } file file := by
    refine alike_echo c hn o ho junk file file (fun _ => rfl) _ _ (fun _ _ _ h => by rw [h]) (fun _ => rfl) ?_ ?_ (fun _ => rfl) ?_ ?_
    · rintro id b1 b2 rfl
      rfl
    · rintro id b1 b2 angles trend rfl
      rfl
    · intro f m1 m2 p1 p2 looks r r' hm hw e1 e2 hr n loc g
      rw [funext hm, ← Chain.record_own_stack_aw c.weighting c.pattern o.argsort o.round o.junk junk c.chain m1 m1 f p1 p2 looks hw (fun _ _ => rfl), e1] at e2
      cases e2
      rfl
    · rintro r1 r2 rfl
      rfl
  have q := process_twin hA (a1 := alg) (a2 := alg) rfl n (open_quiet c file file (fun _ => rfl) n) (fun d _ s _ _ b s' _ f _ => trivial)
    (fun _ _ => trivial)
  refine ⟨q.mono (fun s t h => h.ctl), ?_, ?_⟩
  · simpa using forall2_map (f := id) q.state.l1b
  · simpa using forall2_map (f := id) q.state.l1bs

/-! ## C145 -/

theorem cal1_mul (on : Bool) (agc s0 : ℝ) (power phase : ℕ → ℝ) (A : ℂ) (w : ℕ → ℕ → ℂ) :
    Calib.cal1 on agc s0 power phase (fun p s => A * w p s) = fun p s => A * Calib.cal1 on agc s0 power phase w p s := by
  funext p s
  unfold Calib.cal1
  split
  · ring
  · rfl

theorem cal2_mul (on : Bool) (N : ℕ) (gain : ℕ → ℝ) (A : ℂ) (w : ℕ → ℕ → ℂ) :
    Calib.cal2 on N gain (fun p s => A * w p s) = fun p s => A * Calib.cal2 on N gain w p s := by
  have hfft : ∀ p, Calib.fft N (fun s => A * w p s) = fun k => A * Calib.fft N (w p) k := by
    intro p
    funext k
    unfold Calib.fft
    rw [Finset.mul_sum]
    exact Finset.sum_congr rfl (fun n _ => by ring)
  funext p s
  unfold Calib.cal2
  split
  · rw [hfft]
    unfold Calib.ifft
    rw [← mul_div_assoc, Finset.mul_sum]
    congr 1
    refine Finset.sum_congr rfl (fun n _ => ?_)
    unfold Calib.ifftshift Signal.fftshift
    ring
  · rfl

/-- **C145.**  If all echoes of a file are `a` times as strong, those of each burst with any phase of its own, then the products have the same
records with every sample of a waveform `a²` times as large, the beams of the stacks multiplied like their bursts, and nothing else changed. -/
theorem products_scale (c : Conf) (hn : 0 < c.pulses) (o : World) (ho : o.Steady) (alg : Surface.Alg) (file1 file2 : ℕ → Raw)
    (hsame : ∀ id, file2 id = { file1 id with i := (file2 id).i, q := (file2 id).q }) (A : ℕ → ℂ) (a : ℝ) (hA : ∀ id, ‖A id‖ = a)
    (hiq : ∀ id p s, ((file2 id).i p s : ℂ) + Complex.I * (file2 id).q p s = A id * ((file1 id).i p s + Complex.I * (file1 id).q p s)) (n : ℕ) :
    SameCourse (process c o alg file1 n) (process c o alg file2 n) ∧
    List.Forall₂ (fun r1 r2 : Record => r2.outline = r1.outline ∧ r2.result.out.waveform = Chain.times (a ^ 2) r1.result.out.waveform ∧
        r2.result.gathered.rows = r1.result.gathered.rows.map (fun row => { row with beam := fun i => A row.burst * row.beam i }))
      (process c o alg file1 n).state.l1b (process c o alg file2 n).state.l1b ∧
    List.Forall₂ (fun r1 r2 : Record => r2.outline = r1.outline ∧ r2.result.out.waveform = Chain.times (a ^ 2) r1.result.out.waveform ∧
        r2.result.gathered.rows = r1.result.gathered.rows.map (fun row => { row with beam := fun i => A row.burst * row.beam i }))
      (process c o alg file1 n).state.l1bs (process c o alg file2 n).state.l1bs := by
  have hf : ∀ id, (file2 id).quiet = (file1 id).quiet := fun id => by rw [hsame id]; rfl
  have hAl : Alike (echoTwin (fun id b1 b2 => b2 = { b1 with wfm := fun p i => A id * b1.wfm p i })
      (fun r1 r2 => r2.outline = r1.outline ∧ r2.result.out.waveform = Chain.times (a ^ 2) r1.result.out.waveform ∧
        r2.result.gathered.rows = r1.result.gathered.rows.map (fun row => { row with beam := fun i => A row.burst * row.beam i }))) c c o
      { o with junk := o.junk } file1 file2 := by
    refine alike_echo c hn o ho o.junk file1 file2 hf _ _ ?_ ?_ ?_ ?_ ?_ ?_ ?_
    · rintro id b1 b2 rfl
      rfl
    · intro id
      have h0 : ∀ r : Raw, silent (fresh c id r) = silent (fresh c id r.quiet) := fun _ => rfl
      have h1 : silent (fresh c id (file2 id)) = silent (fresh c id (file1 id)) := by rw [h0 (file2 id), hf, ← h0]
      have h2 : (fresh c id (file2 id)).wfm = fun p i => A id * (fresh c id (file1 id)).wfm p i := by
        funext p s
        show Calib.echo (file2 id).agc _ _ = A id * Calib.echo (file1 id).agc _ _
        have : (file2 id).agc = (file1 id).agc := (congrArg Raw.agc (hf id) :)
        unfold Calib.echo
        rw [this, hiq]
        ring
      have h3 : fresh c id (file2 id) = { silent (fresh c id (file2 id)) with wfm := (fresh c id (file2 id)).wfm } := rfl
      rw [h3, h1, h2]
      rfl
    · rintro id b1 b2 rfl
      have hr : ∀ b : Chain.L1A, calibrated c (file2 id) b = calibrated c (file1 id) b := by
        intro b
        rw [hsame id]
        rfl
      rw [hr]
      unfold calibrated Calib.calibrate
      dsimp only
      rw [cal1_mul, cal2_mul]
    · rintro id b1 b2 angles trend rfl
      rfl
    · intro id
      unfold blank
      simp
    · intro f m1 m2 p1 p2 looks r r' hm hw e1 e2 hr n loc g
      have q := surface_scaled c.weighting c.pattern o.argsort o.round o.junk o.junk c.chain m1 m2 f p1 p2 looks hw A a hA hm
      rw [e1] at q
      obtain ⟨r2, q1, _, q2, q3⟩ := q
      rw [q1] at e2
      cases e2
      refine ⟨?_, q2, congrArg Stack.Gathered.rows q3⟩
      show (⟨n, loc, outlineOf r', g⟩ : Record) = ⟨n, loc, outlineOf r, g⟩
      rw [hr]
    · intro r1 r2 h
      exact (congrArg Record.counter h.1 :)
  have q := process_twin hAl (a1 := alg) (a2 := alg) rfl n (open_quiet c file1 file2 hf n) (fun d _ s _ _ b s' _ f _ => trivial)
    (fun _ _ => trivial)
  exact ⟨q.mono (fun s t h => h.ctl), q.state.l1b, q.state.l1bs⟩

/-! ## Examples -/

/-- The file of the example with other echoes. -/
noncomputable def otherFile (k : ℕ) : Raw := { demoFile k with i := fun p s => p + 2 * s + k, q := fun p s => p * s, power := fun p => 2 ^ p }

/-- The file of the example with echoes three times as strong and turned by a quarter. -/
noncomputable def strongFile (k : ℕ) : Raw := { demoFile k with i := fun _ _ => 0, q := fun _ _ => 3 }

theorem demo_steady (argsort : List ℝ → List ℕ) : (demoWorld argsort).Steady := ⟨fun _ => none, fun _ => none, fun _ => ⟨rfl, rfl⟩⟩

/-- The hypotheses of `echoes_only_power` are met by two files with different echoes, of which a record is made: the other file
gives one record as well, with the number 0 and of the burst 0. -/
example (alg : Surface.Alg) : (otherFile 0).i 1 1 ≠ (demoFile 0).i 1 1 ∧
    ∃ rec, (process demoConf { demoWorld realArg with junk := fun _ => 7 } alg otherFile 2).state.l1b = [rec] ∧ rec.counter = 0 ∧
      rec.bursts = [0] := by
  refine ⟨by norm_num [otherFile, demoFile], ?_⟩
  obtain ⟨s, rec, e, h1, _, h2, _, h4, _⟩ := demo_run realArg realArg_isArgsort alg
  have q := (echoes_only_power demoConf (by decide) (demoWorld realArg) (demo_steady _) (fun _ => 7) alg demoFile otherFile (fun _ => rfl) 2).2.1
  rw [e] at q
  have q : _ = s.l1b.map Record.outline := q
  rw [h1] at q
  obtain ⟨r, t, e1, e2, e3⟩ := List.map_eq_cons_iff.1 q
  rw [List.map_eq_nil_iff.1 e3] at e1
  refine ⟨r, e1, ?_, ?_⟩
  · exact ((congrArg Record.counter e2 :) : r.counter = rec.counter).trans h2
  · have hb : ∀ x : Record, x.bursts = x.outline.bursts := by
      intro x
      unfold Record.bursts Record.outline
      simp
    rw [hb, e2, ← hb, h4]

/-- The hypotheses of `products_scale` are met by the file of the example, whose waveform has the sample 8: it becomes 72. -/
example (alg : Surface.Alg) :
    ∃ rec, (process demoConf (demoWorld realArg) alg strongFile 2).state.l1b = [rec] ∧ rec.result.out.waveform[8]? = some (some 72) := by
  obtain ⟨s, rec, e, h1, _, _, _, _, h5⟩ := demo_run realArg realArg_isArgsort alg
  have q := (products_scale demoConf (by decide) (demoWorld realArg) (demo_steady _) alg demoFile strongFile (fun _ => rfl)
    (fun _ => 3 * Complex.I) 3 (by simp) (by intro id p s; simp [strongFile, demoFile]; ring) 2).2.1
  rw [e] at q
  have q : List.Forall₂ _ s.l1b _ := q
  rw [h1] at q
  obtain ⟨r, t, hr, ht, e2⟩ := List.forall₂_cons_left_iff.1 q
  rw [List.forall₂_nil_left_iff.1 ht] at e2
  refine ⟨r, e2, ?_⟩
  rw [hr.2.1]
  unfold Chain.times
  rw [List.getElem?_map, h5]
  norm_num

end Dedop.Whole
