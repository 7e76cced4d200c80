import Verif.Basic.Tactics
import Verif.Basic.Dict
import Mathlib.Tactic.FieldSimp
import Mathlib.Data.Rat.Defs
import Mathlib.Algebra.Order.Ring.Rat

/-!
# Derived characterisation values

C104.  Models the properties of `CharacterisationFile` (`/repo/dedop/conf/characterization.py:108-146`): two of them
keep their result in the object, and can be given to the constructor.  The parameters themselves are read through the
descriptors, whose reads give the same result each time (C23); here they are a function.
-/
namespace Dedop.Conf.Derived

/-- What the derived values are computed from: reads of the parameters of the file and of the constants, which may
raise. -/
structure Source where
  prf : Except PyErr ℚ
  brf : Except PyErr ℚ
  bw : Except PyErr ℚ
  pulse : Except PyErr ℚ
  c : Except PyErr ℚ
  freq : Except PyErr ℚ
  uso : Except PyErr ℚ
  mult : Except PyErr ℚ

/-- The two attributes `_wv_length_ku` and `_chirp_slope_ku` (`characterization.py:138-143`). -/
structure Object where
  wv : Option ℚ
  slope : Option ℚ
  deriving DecidableEq

/-- The derived attributes. -/
inductive Attr where
  | pri
  | bri
  | slope
  | wv
  | t0
  deriving DecidableEq, Repr

/-- `a / b` on floats. -/
def div (a b : ℚ) : Except PyErr ℚ := if b = 0 then .error .zeroDivision else .ok (a / b)

/-- `__init__` (`characterization.py:134-146`): only the keyword arguments `wv_length_ku_chd` and
`chirp_slope_ku_chd` are taken. -/
def create (wv slope : Option ℚ) : Object := ⟨wv, slope⟩

/-- Access to a derived attribute (`characterization.py:108-132`); the left operand is read first. -/
def get (s : Source) (o : Object) : Attr → Except PyErr ℚ × Object
  | .pri =>
    match s.prf with
    | .error e => (.error e, o)
    | .ok x => (div 1 x, o)
  | .bri =>
    match s.brf with
    | .error e => (.error e, o)
    | .ok x => (div 1 x, o)
  | .slope =>
    match o.slope with
    | some v => (.ok v, o)
    | none =>
      match s.bw with
      | .error e => (.error e, o)
      | .ok x =>
        match s.pulse with
        | .error e => (.error e, o)
        | .ok y =>
          match div x y with
          | .error e => (.error e, o)
          | .ok v => (.ok v, { o with slope := some v })
  | .wv =>
    match o.wv with
    | some v => (.ok v, o)
    | none =>
      match s.c with
      | .error e => (.error e, o)
      | .ok x =>
        match s.freq with
        | .error e => (.error e, o)
        | .ok y =>
          match div x y with
          | .error e => (.error e, o)
          | .ok v => (.ok v, { o with wv := some v })
  | .t0 =>
    match s.uso with
    | .error e => (.error e, o)
    | .ok x =>
      match s.mult with
      | .error e => (.error e, o)
      | .ok y => (div 1 (x * y), o)

/-- A history of accesses.  Not a function of the code: any sequence of uses of `characterization.py:108-132`. -/
def run (s : Source) (o : Object) : List Attr → Object
  | [] => o
  | a :: l => run s (get s o a).2 l

/-! ## Specification -/

/-- What an attribute has to be: the equation between it and the values of the file. -/
def Equation (s : Source) : Attr → ℚ → Prop
  | .pri, v => ∃ f, s.prf = .ok f ∧ v * f = 1
  | .bri, v => ∃ f, s.brf = .ok f ∧ v * f = 1
  | .slope, v => ∃ b p, s.bw = .ok b ∧ s.pulse = .ok p ∧ p ≠ 0 ∧ v * p = b
  | .wv, v => ∃ c f, s.c = .ok c ∧ s.freq = .ok f ∧ f ≠ 0 ∧ v * f = c
  | .t0, v => ∃ u m, s.uso = .ok u ∧ s.mult = .ok m ∧ v * (u * m) = 1

/-- The value given to the constructor for an attribute. -/
def override (wv slope : Option ℚ) : Attr → Option ℚ
  | .slope => slope
  | .wv => wv
  | _ => none

/-! ## Proofs -/

theorem div_ok {a b v : ℚ} (h : div a b = .ok v) : b ≠ 0 ∧ v * b = a := by
  unfold div at h
  split at h
  · cases h
  · rename_i hb
    cases h
    exact ⟨hb, by field_simp⟩

/-- What the object holds is right. -/
def Right (s : Source) (wv slope : Option ℚ) (o : Object) : Prop :=
  (∀ v, o.wv = some v → wv = some v ∨ wv = none ∧ Equation s .wv v) ∧
  (∀ v, o.slope = some v → slope = some v ∨ slope = none ∧ Equation s .slope v) ∧
  (∀ v, wv = some v → o.wv = some v) ∧ ∀ v, slope = some v → o.slope = some v

theorem get_right (s : Source) (wv slope : Option ℚ) (o : Object) (h : Right s wv slope o) (a : Attr) :
    Right s wv slope (get s o a).2 ∧
    ∀ v, (get s o a).1 = .ok v → override wv slope a = some v ∨ override wv slope a = none ∧ Equation s a v := by
  obtain ⟨h1, h2, h3, h4⟩ := h
  cases a with
  | pri =>
    unfold get
    cases hp : s.prf with
    | error e => exact ⟨⟨h1, h2, h3, h4⟩, by intro v hv; cases hv⟩
    | ok x => exact ⟨⟨h1, h2, h3, h4⟩, fun v hv => .inr ⟨rfl, x, hp, (div_ok hv).2⟩⟩
  | bri =>
    unfold get
    cases hp : s.brf with
    | error e => exact ⟨⟨h1, h2, h3, h4⟩, by intro v hv; cases hv⟩
    | ok x => exact ⟨⟨h1, h2, h3, h4⟩, fun v hv => .inr ⟨rfl, x, hp, (div_ok hv).2⟩⟩
  | t0 =>
    unfold get
    cases hp : s.uso with
    | error e => exact ⟨⟨h1, h2, h3, h4⟩, by intro v hv; cases hv⟩
    | ok x =>
      cases hm : s.mult with
      | error e => exact ⟨⟨h1, h2, h3, h4⟩, by intro v hv; cases hv⟩
      | ok y => exact ⟨⟨h1, h2, h3, h4⟩, fun v hv => .inr ⟨rfl, x, y, hp, hm, (div_ok hv).2⟩⟩
  | slope =>
    unfold get
    cases ho : o.slope with
    | some w =>
      exact ⟨⟨h1, h2, h3, h4⟩, fun v hv => by cases hv; exact h2 w ho⟩
    | none =>
      have hn : slope = none := by
        cases hs : slope with
        | none => rfl
        | some v => rw [h4 v hs] at ho; cases ho
      dsimp only
      cases hb : s.bw with
      | error e => exact ⟨⟨h1, h2, h3, h4⟩, by intro v hv; cases hv⟩
      | ok x =>
        cases hp : s.pulse with
        | error e => exact ⟨⟨h1, h2, h3, h4⟩, by intro v hv; cases hv⟩
        | ok y =>
          dsimp only
          cases hd : div x y with
          | error e => exact ⟨⟨h1, h2, h3, h4⟩, by intro v hv; cases hv⟩
          | ok w =>
            have heq : Equation s .slope w := ⟨x, y, hb, hp, (div_ok hd).1, (div_ok hd).2⟩
            refine ⟨⟨h1, ?_, h3, ?_⟩, fun v hv => by cases hv; exact .inr ⟨hn, heq⟩⟩
            · intro v hv; cases hv; exact .inr ⟨hn, heq⟩
            · intro v hv; rw [hn] at hv; cases hv
  | wv =>
    unfold get
    cases ho : o.wv with
    | some w =>
      exact ⟨⟨h1, h2, h3, h4⟩, fun v hv => by cases hv; exact h1 w ho⟩
    | none =>
      have hn : wv = none := by
        cases hs : wv with
        | none => rfl
        | some v => rw [h3 v hs] at ho; cases ho
      dsimp only
      cases hb : s.c with
      | error e => exact ⟨⟨h1, h2, h3, h4⟩, by intro v hv; cases hv⟩
      | ok x =>
        cases hp : s.freq with
        | error e => exact ⟨⟨h1, h2, h3, h4⟩, by intro v hv; cases hv⟩
        | ok y =>
          dsimp only
          cases hd : div x y with
          | error e => exact ⟨⟨h1, h2, h3, h4⟩, by intro v hv; cases hv⟩
          | ok w =>
            have heq : Equation s .wv w := ⟨x, y, hb, hp, (div_ok hd).1, (div_ok hd).2⟩
            refine ⟨⟨?_, h2, ?_, h4⟩, fun v hv => by cases hv; exact .inr ⟨hn, heq⟩⟩
            · intro v hv; cases hv; exact .inr ⟨hn, heq⟩
            · intro v hv; rw [hn] at hv; cases hv

theorem run_right (s : Source) (wv slope : Option ℚ) (l : List Attr) (o : Object) (h : Right s wv slope o) :
    Right s wv slope (run s o l) := by
  induction l generalizing o with
  | nil => exact h
  | cons a l ih => exact ih _ (get_right s wv slope o h a).1

theorem create_right (s : Source) (wv slope : Option ℚ) : Right s wv slope (create wv slope) :=
  ⟨fun _ h => .inl h, fun _ h => .inl h, fun _ h => h, fun _ h => h⟩

/-- **C104.**  After any accesses, each derived value that is obtained is the one given to the constructor, or else
satisfies its equation with the values of the file: wavelength times frequency is the speed of light, chirp slope
times pulse length is the bandwidth, the repetition intervals are the inverses of the frequencies, and the sample
interval is the inverse of the clock frequency times its multiplier. -/
theorem derived_values (s : Source) (wv slope : Option ℚ) (before : List Attr) (a : Attr) (v : ℚ)
    (h : (get s (run s (create wv slope) before) a).1 = .ok v) :
    override wv slope a = some v ∨ override wv slope a = none ∧ Equation s a v :=
  (get_right s wv slope _ (run_right s wv slope before _ (create_right s wv slope)) a).2 v h

/-- **C104, stability.**  Two accesses to the same attribute give the same value, whatever is accessed before and in
between. -/
theorem derived_stable (s : Source) (wv slope : Option ℚ) (before between : List Attr) (a : Attr) (v w : ℚ)
    (h : (get s (run s (create wv slope) before) a).1 = .ok v)
    (h' : (get s (run s (create wv slope) (before ++ [a] ++ between)) a).1 = .ok w) : v = w := by
  have e1 := derived_values s wv slope before a v h
  have e2 := derived_values s wv slope (before ++ [a] ++ between) a w h'
  rcases e1 with e1 | ⟨n1, e1⟩ <;> rcases e2 with e2 | ⟨n2, e2⟩
  · rw [e1] at e2; cases e2; rfl
  · rw [e1] at n2; cases n2
  · rw [e2] at n1; cases n1
  · have cancel : ∀ x : ℚ, x ≠ 0 → v * x = w * x → v = w := fun x hx hxy => mul_right_cancel₀ hx hxy
    cases a with
    | pri =>
      obtain ⟨f, q1, q2⟩ := e1
      obtain ⟨f', q1', q2'⟩ := e2
      rw [q1] at q1'; cases q1'
      exact cancel f (by rintro rfl; simp at q2) (q2.trans q2'.symm)
    | bri =>
      obtain ⟨f, q1, q2⟩ := e1
      obtain ⟨f', q1', q2'⟩ := e2
      rw [q1] at q1'; cases q1'
      exact cancel f (by rintro rfl; simp at q2) (q2.trans q2'.symm)
    | slope =>
      obtain ⟨b, p, q1, q2, q3, q4⟩ := e1
      obtain ⟨b', p', q1', q2', q3', q4'⟩ := e2
      rw [q1] at q1'; cases q1'
      rw [q2] at q2'; cases q2'
      exact cancel p q3 (q4.trans q4'.symm)
    | wv =>
      obtain ⟨b, p, q1, q2, q3, q4⟩ := e1
      obtain ⟨b', p', q1', q2', q3', q4'⟩ := e2
      rw [q1] at q1'; cases q1'
      rw [q2] at q2'; cases q2'
      exact cancel p q3 (q4.trans q4'.symm)
    | t0 =>
      obtain ⟨u, m, q1, q2, q3⟩ := e1
      obtain ⟨u', m', q1', q2', q3'⟩ := e2
      rw [q1] at q1'; cases q1'
      rw [q2] at q2'; cases q2'
      exact cancel (u * m) (by intro hz; rw [hz] at q3; simp at q3) (q3.trans q3'.symm)

/-- **C104, availability.**  If the values of the file can be read and none of them is zero, each attribute can be
obtained, after any accesses. -/
theorem derived_available (s : Source) (wv slope : Option ℚ) (before : List Attr) (a : Attr)
    (h : ∀ r ∈ [s.prf, s.brf, s.bw, s.pulse, s.c, s.freq, s.uso, s.mult], ∃ x, r = .ok x ∧ x ≠ 0) :
    ∃ v, (get s (run s (create wv slope) before) a).1 = .ok v := by
  have hd : ∀ x y : ℚ, y ≠ 0 → div x y = .ok (x / y) := fun x y hy => by simp [div, hy]
  obtain ⟨p1, e1, n1⟩ := h s.prf (by simp)
  obtain ⟨p2, e2, n2⟩ := h s.brf (by simp)
  obtain ⟨p3, e3, n3⟩ := h s.bw (by simp)
  obtain ⟨p4, e4, n4⟩ := h s.pulse (by simp)
  obtain ⟨p5, e5, n5⟩ := h s.c (by simp)
  obtain ⟨p6, e6, n6⟩ := h s.freq (by simp)
  obtain ⟨p7, e7, n7⟩ := h s.uso (by simp)
  obtain ⟨p8, e8, n8⟩ := h s.mult (by simp)
  generalize run s (create wv slope) before = o
  cases a with
  | pri => exact ⟨_, by simp only [get, e1, hd 1 p1 n1]; rfl⟩
  | bri => exact ⟨_, by simp only [get, e2, hd 1 p2 n2]; rfl⟩
  | t0 => exact ⟨_, by simp only [get, e7, e8, hd 1 (p7 * p8) (mul_ne_zero n7 n8)]; rfl⟩
  | slope =>
    cases ho : o.slope with
    | some v => exact ⟨v, by simp only [get, ho]⟩
    | none => exact ⟨_, by simp only [get, ho, e3, e4, hd p3 p4 n4]; rfl⟩
  | wv =>
    cases ho : o.wv with
    | some v => exact ⟨v, by simp only [get, ho]⟩
    | none => exact ⟨_, by simp only [get, ho, e5, e6, hd p5 p6 n6]; rfl⟩

/-- The shipped values (`CHD.json`, `CST.json`). -/
def shipped : Source where
  prf := .ok (17825311 / 1000)
  brf := .ok (7853069 / 100000)
  bw := .ok 320000000
  pulse := .ok (7 / 156250)
  c := .ok 299792458
  freq := .ok 13575000000
  uso := .ok 10000000
  mult := .ok 32

example : (get shipped (run shipped (create none none) [.wv, .slope, .wv]) .slope).1 = .ok (50000000000000 / 7) := by
  decide +kernel

example : (get shipped (run shipped (create none (some 1)) [.wv]) .slope).1 = .ok 1 := by decide +kernel

end Dedop.Conf.Derived
