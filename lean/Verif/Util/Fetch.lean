import Verif.Basic.Tactics
import Verif.Basic.Dict

/-!
# Fetching the standard streams

Model of `fetch_std_streams` (`/repo/dedop/util/fetchstd.py:7-39`), a context manager that replaces
`sys.stdout` and `sys.stderr` by buffers for the duration of a block.

The block is any program over the two streams: it may write, use the manager again, raise and catch
exceptions, close a stream, or assign another stream to `sys.stdout` or `sys.stderr`.  A stream is its text
and whether it is closed (the real standard streams too; `None` for a stream is not modelled).  Programs are
deterministic and terminate.
-/

namespace Dedop.Util.Fetch

open Dedop

/-- The two names: `sys.stdout` and `sys.stderr`. -/
inductive Which | out | err
  deriving DecidableEq

/-- A stream: what was written to it so far, and whether it was closed. -/
structure Stream where
  text : List Char
  closed : Bool
  deriving DecidableEq

/-- All streams that were ever made (a stream is its position in this list), and the two names. -/
structure State where
  streams : List Stream
  out : Nat
  err : Nat
  deriving DecidableEq

/-- The stream in the variable (`fetchstd.py:10-39`). -/
def State.cur (s : State) : Which → Nat
  | .out => s.out
  | .err => s.err

/-- Assignment to the variable (`fetchstd.py:10-39`). -/
def State.assign (s : State) (w : Which) (n : Nat) : State :=
  match w with
  | .out => { s with out := n }
  | .err => { s with err := n }

/-- A block of statements. -/
inductive Prog
  | skip
  /-- `sys.stdout.write(text)` or `sys.stderr.write(text)` -/
  | write (w : Which) (text : List Char)
  /-- `sys.stdout.close()` -/
  | close (w : Which)
  /-- `sys.stdout = stream` -/
  | assign (w : Which) (n : Nat)
  | seq (a b : Prog)
  | raise (e : PyErr)
  /-- `try: a` `except Exception: b` -/
  | attempt (a b : Prog)
  /-- `with fetch_std_streams(): a` -/
  | fetch (a : Prog)

/-- `stream.flush()`: `ValueError` on a closed stream (or one that does not exist, which no program made
by Python can name). -/
def flush (s : State) (n : Nat) : Except PyErr Unit :=
  match s.streams[n]? with
  | some st => if st.closed then .error .valueError else .ok ()
  | none => .error .valueError

/-- `stream.write(text)`. -/
def writeTo (s : State) (n : Nat) (text : List Char) : Except PyErr Unit × State :=
  match s.streams[n]? with
  | some st =>
    if st.closed then (.error .valueError, s)
    else (.ok (), { s with streams := s.streams.set n { st with text := st.text ++ text } })
  | none => (.error .valueError, s)

/-- `stream.close()`. -/
def closeStream (s : State) (n : Nat) : State :=
  match s.streams[n]? with
  | some st => { s with streams := s.streams.set n { st with closed := true } }
  | none => s

/-- Lines 23-31: both streams are flushed, the two names saved and set to new buffers. -/
def enter (s : State) : Except PyErr State :=
  match flush s s.out with
  | .error e => .error e
  | .ok () =>
    match flush s s.err with
    | .error e => .error e
    | .ok () => .ok ⟨s.streams ++ [⟨[], false⟩, ⟨[], false⟩], s.streams.length, s.streams.length + 1⟩

/-- Lines 34-39, the `finally` block: the streams the names stand for *now* are flushed, and then the saved
ones are put back.  An exception while flushing replaces that of the block. -/
def leave (before : State) (outcome : Except PyErr Unit) (s : State) : Except PyErr Unit × State :=
  match flush s s.out with
  | .error e => (.error e, s)
  | .ok () =>
    match flush s s.err with
    | .error e => (.error e, s)
    | .ok () => (outcome, { s with out := before.out, err := before.err })

/-- The meaning of a block: how it ends, and the state afterwards. -/
def run : Prog → State → Except PyErr Unit × State
  | .skip, s => (.ok (), s)
  | .write w t, s => writeTo s (s.cur w) t
  | .close w, s => (.ok (), closeStream s (s.cur w))
  | .assign w n, s => (.ok (), s.assign w n)
  | .seq a b, s =>
    match run a s with
    | (.ok (), s') => run b s'
    | (.error e, s') => (.error e, s')
  | .raise e, s => (.error e, s)
  | .attempt a b, s =>
    match run a s with
    | (.ok (), s') => (.ok (), s')
    | (.error _, s') => run b s'
  | .fetch a, s =>
    match enter s with
    | .error e => (.error e, s)
    | .ok s1 => let (r, s2) := run a s1; leave s r s2

/-! ## Specification -/

/-- A block that only writes, raises and catches exceptions and fetches. -/
def Prog.Tame : Prog → Prop
  | .skip | .write _ _ | .raise _ => True
  | .close _ | .assign _ _ => False
  | .seq a b | .attempt a b => a.Tame ∧ b.Tame
  | .fetch a => a.Tame

/-- What a tame block prints on one stream if nothing is redirected inside, and how it ends: what is printed
inside of an inner `with fetch_std_streams()` is fetched there, and so not printed. -/
def prints : Prog → Except PyErr Unit × (Which → List Char)
  | .write w t => (.ok (), fun v => if v = w then t else [])
  | .seq a b =>
    match prints a with
    | (.ok (), x) => let (r, y) := prints b; (r, fun v => x v ++ y v)
    | (.error e, x) => (.error e, x)
  | .raise e => (.error e, fun _ => [])
  | .attempt a b =>
    match prints a with
    | (.ok (), x) => (.ok (), x)
    | (.error _, x) => let (r, y) := prints b; (r, fun v => x v ++ y v)
  | .fetch a => ((prints a).1, fun _ => [])
  | _ => (.ok (), fun _ => [])

/-- Both names stand for streams that can be written to, and not for the same one. -/
structure State.Usable (s : State) : Prop where
  out : ∃ t, s.streams[s.out]? = some ⟨t, false⟩
  err : ∃ t, s.streams[s.err]? = some ⟨t, false⟩
  two : s.out ≠ s.err

/-- Between the two states the texts `x` were printed, the names stand for the same streams, and no other
stream that existed before was touched (new ones may have been made). -/
structure Printed (s s' : State) (x : Which → List Char) : Prop where
  out : s'.out = s.out
  err : s'.err = s.err
  more : s.streams.length ≤ s'.streams.length
  text : ∀ w t, s.streams[s.cur w]? = some ⟨t, false⟩ → s'.streams[s.cur w]? = some ⟨t ++ x w, false⟩
  other : ∀ n < s.streams.length, n ≠ s.out → n ≠ s.err → s'.streams[n]? = s.streams[n]?

/-! ## Lemmas -/

theorem Printed.refl (s : State) : Printed s s (fun _ => []) :=
  ⟨rfl, rfl, le_refl _, fun w t h => by simpa using h, fun _ _ _ _ => rfl⟩

theorem Printed.trans {a b c : State} {x y : Which → List Char} (h : Printed a b x)
    (h' : Printed b c y) : Printed a c (fun v => x v ++ y v) := by
  have hc : ∀ w, b.cur w = a.cur w := by intro w; cases w <;> simp [State.cur, h.out, h.err]
  refine ⟨h'.out.trans h.out, h'.err.trans h.err, h.more.trans h'.more, fun w t ht => ?_,
    fun n hn h1 h2 => ?_⟩
  · have h1 := h.text w t ht
    rw [← hc] at h1 ⊢
    rw [h'.text w _ h1, List.append_assoc]
  · rw [h'.other n (lt_of_lt_of_le hn h.more) (by rw [h.out]; exact h1) (by rw [h.err]; exact h2),
      h.other n hn h1 h2]

theorem Printed.usable {s s' : State} {x : Which → List Char} (hs : s.Usable) (h : Printed s s' x) :
    s'.Usable := by
  obtain ⟨t, ht⟩ := hs.out
  obtain ⟨u, hu⟩ := hs.err
  refine ⟨⟨t ++ x .out, ?_⟩, ⟨u ++ x .err, ?_⟩, by rw [h.out, h.err]; exact hs.two⟩
  · rw [h.out]; exact h.text .out t ht
  · rw [h.err]; exact h.text .err u hu

theorem flush_of {s : State} {n : Nat} {t : List Char} (h : s.streams[n]? = some ⟨t, false⟩) :
    flush s n = .ok () := by unfold flush; rw [h]; rfl

theorem enter_usable {s : State} (hs : s.Usable) :
    enter s = .ok ⟨s.streams ++ [⟨[], false⟩, ⟨[], false⟩], s.streams.length, s.streams.length + 1⟩ := by
  obtain ⟨t, ht⟩ := hs.out
  obtain ⟨u, hu⟩ := hs.err
  unfold enter
  rw [flush_of ht, flush_of hu]

theorem leave_usable {b s : State} (r : Except PyErr Unit) (hs : s.Usable) :
    leave b r s = (r, { s with out := b.out, err := b.err }) := by
  obtain ⟨t, ht⟩ := hs.out
  obtain ⟨u, hu⟩ := hs.err
  unfold leave
  rw [flush_of ht, flush_of hu]

/-- The state at the start of a block. -/
def inside (s : State) : State :=
  ⟨s.streams ++ [⟨[], false⟩, ⟨[], false⟩], s.streams.length, s.streams.length + 1⟩

theorem inside_usable (s : State) : (inside s).Usable :=
  ⟨⟨[], by simp [inside]⟩, ⟨[], by simp [inside]⟩, by simp [inside]⟩

theorem lt_of_open {s : State} {n : Nat} {st : Stream} (h : s.streams[n]? = some st) :
    n < s.streams.length := (List.getElem?_eq_some_iff.1 h).1

/-- The streams that existed before a block are the same after it. -/
theorem outer_kept {s s' : State} {x : Which → List Char} (h : Printed (inside s) s' x) (n : Nat)
    (hn : n < s.streams.length) : s'.streams[n]? = s.streams[n]? := by
  rw [h.other n (by simp [inside]; omega) (by simp [inside]; omega) (by simp [inside]; omega)]
  simp [inside, List.getElem?_append_left hn]

/-- A tame block ends as `prints` tells, and prints what it tells. -/
theorem run_tame (p : Prog) (hp : p.Tame) (s : State) (hs : s.Usable) :
    (run p s).1 = (prints p).1 ∧ Printed s (run p s).2 (prints p).2 := by
  induction p generalizing s with
  | skip => exact ⟨rfl, Printed.refl s⟩
  | close w => exact hp.elim
  | assign w n => exact hp.elim
  | raise e => exact ⟨rfl, Printed.refl s⟩
  | write w t =>
    have hopen : ∃ u, s.streams[s.cur w]? = some ⟨u, false⟩ := by
      cases w
      · exact hs.out
      · exact hs.err
    obtain ⟨u, hu⟩ := hopen
    have hlt := lt_of_open hu
    have hrun : run (.write w t) s =
        (.ok (), { s with streams := s.streams.set (s.cur w) ⟨u ++ t, false⟩ }) := by
      simp only [run, writeTo, hu]; rfl
    rw [hrun]
    refine ⟨rfl, rfl, rfl, by simp, fun v y hv => ?_, fun n hn h1 h2 => ?_⟩
    · show (s.streams.set (s.cur w) ⟨u ++ t, false⟩)[s.cur v]? = some ⟨y ++ (if v = w then t else []), false⟩
      by_cases hvw : v = w
      · subst hvw
        rw [hu] at hv
        cases hv
        rw [List.getElem?_set_self hlt, if_pos rfl]
      · have hne : s.cur w ≠ s.cur v := by
          have := hs.two
          cases v <;> cases w <;> first | exact absurd rfl hvw | exact this | exact this.symm
        rw [List.getElem?_set_ne hne, hv, if_neg hvw, List.append_nil]
    · show (s.streams.set (s.cur w) ⟨u ++ t, false⟩)[n]? = _
      refine List.getElem?_set_ne ?_
      cases w
      · exact fun h => h1 h.symm
      · exact fun h => h2 h.symm
  | seq a b iha ihb =>
    obtain ⟨h1, h2⟩ := iha hp.1 s hs
    obtain ⟨h3, h4⟩ := ihb hp.2 (run a s).2 (h2.usable hs)
    simp only [run, prints]
    revert h1 h2 h3 h4
    generalize run a s = ra
    generalize prints a = sa
    obtain ⟨oa, s1⟩ := ra
    obtain ⟨o, x⟩ := sa
    intro h1 h2 h3 h4
    simp only at h1 h2 h3 h4
    subst h1
    cases oa with
    | error e => exact ⟨rfl, h2⟩
    | ok u => exact ⟨h3, h2.trans h4⟩
  | attempt a b iha ihb =>
    obtain ⟨h1, h2⟩ := iha hp.1 s hs
    obtain ⟨h3, h4⟩ := ihb hp.2 (run a s).2 (h2.usable hs)
    simp only [run, prints]
    revert h1 h2 h3 h4
    generalize run a s = ra
    generalize prints a = sa
    obtain ⟨oa, s1⟩ := ra
    obtain ⟨o, x⟩ := sa
    intro h1 h2 h3 h4
    simp only at h1 h2 h3 h4
    subst h1
    cases oa with
    | error e => exact ⟨h3, h2.trans h4⟩
    | ok u => exact ⟨rfl, h2⟩
  | fetch a ih =>
    obtain ⟨h1, h2⟩ := ih hp (inside s) (inside_usable s)
    have hrun : run (.fetch a) s = ((run a (inside s)).1,
        { (run a (inside s)).2 with out := s.out, err := s.err }) := by
      simp only [run]
      rw [enter_usable hs]
      exact leave_usable _ (h2.usable (inside_usable s))
    rw [hrun]
    refine ⟨h1, rfl, rfl, ?_, fun w t ht => ?_, fun n hn _ _ => outer_kept h2 n hn⟩
    · have := h2.more
      simp only [inside, List.length_append] at this
      exact le_trans (by omega) this
    · show (run a (inside s)).2.streams[s.cur w]? = some ⟨t ++ [], false⟩
      rw [outer_kept h2 _ (lt_of_open ht), ht, List.append_nil]

/-! ## C96 -/

/-- **C96 (`_partial`)**: `with fetch_std_streams() as (stdout, stderr): body`, for a body that writes,
raises, catches and fetches in any way: afterwards both names stand for the streams of before, nothing was
written to any of them, the block ends like the body (an exception is passed on), and the two buffers contain
exactly what the body prints on each stream, in order.  Missing: bodies that close or replace a stream
(below). -/
theorem fetch_partial (body : Prog) (hb : body.Tame) (s : State) (hs : s.Usable) :
    ∃ s', run (.fetch body) s = ((prints body).1, s') ∧ s'.out = s.out ∧ s'.err = s.err ∧
      (∀ n < s.streams.length, s'.streams[n]? = s.streams[n]?) ∧
      s'.streams[s.streams.length]? = some ⟨(prints body).2 .out, false⟩ ∧
      s'.streams[s.streams.length + 1]? = some ⟨(prints body).2 .err, false⟩ := by
  obtain ⟨h1, h2⟩ := run_tame body hb (inside s) (inside_usable s)
  refine ⟨{ (run body (inside s)).2 with out := s.out, err := s.err }, ?_, rfl, rfl,
    fun n hn => outer_kept h2 n hn, ?_, ?_⟩
  · rw [← h1]
    simp only [run]
    rw [enter_usable hs]
    exact leave_usable _ (h2.usable (inside_usable s))
  · exact h2.text .out [] (by simp [inside, State.cur])
  · exact h2.text .err [] (by simp [inside, State.cur])

/-- For *every* body: the names stand for the streams of before exactly if the streams they stand for at the
end of the body are open (or are the ones of before). -/
theorem restored_iff (body : Prog) (s : State) (hs : s.Usable) :
    let end_ := (run body (inside s)).2
    ((run (.fetch body) s).2.out = s.out ∧ (run (.fetch body) s).2.err = s.err) ↔
      (flush end_ end_.out = .ok () ∧ flush end_ end_.err = .ok ()) ∨
        (end_.out = s.out ∧ end_.err = s.err) := by
  intro end_
  have hrun : run (.fetch body) s = leave s (run body (inside s)).1 end_ := by
    simp only [run]
    rw [enter_usable hs]
    rfl
  rw [hrun]
  unfold leave
  cases h1 : flush end_ end_.out with
  | error e => simp
  | ok u =>
    cases h2 : flush end_ end_.err with
    | error e => simp
    | ok u => simp

/-- **C96 is violated** by every body that ends with closing the fetched standard output: the block raises
`ValueError` (whatever the body did), and both names keep standing for the buffers: everything printed from
then on is lost. -/
theorem fetch_closed_violated (body : Prog) (hb : body.Tame) (hok : (prints body).1 = .ok ()) (s : State)
    (hs : s.Usable) :
    ∃ s', run (.fetch (.seq body (.close .out))) s = (.error .valueError, s') ∧
      s'.out = s.streams.length ∧ s'.out ≠ s.out ∧ s'.err ≠ s.err := by
  obtain ⟨h1, h2⟩ := run_tame body hb (inside s) (inside_usable s)
  rw [hok] at h1
  have hb' : run body (inside s) = (.ok (), (run body (inside s)).2) := by rw [← h1]
  generalize (run body (inside s)).2 = s2 at hb' h2
  have hopen := h2.text .out [] (by simp [inside, State.cur])
  have ho : s2.out = s.streams.length := h2.out
  have he : s2.err = s.streams.length + 1 := h2.err
  have hcur : (inside s).cur .out = s2.out := by rw [ho]; rfl
  rw [hcur] at hopen
  have hlt := lt_of_open hopen
  have l1 := lt_of_open hs.out.choose_spec
  have l2 := lt_of_open hs.err.choose_spec
  refine ⟨{ s2 with streams := s2.streams.set s2.out ⟨[] ++ (prints body).2 .out, true⟩ }, ?_, ho, ?_, ?_⟩
  · simp only [run]
    rw [enter_usable hs]
    show (let (r, s2) := (match run body (inside s) with
      | (.ok (), s') => ((Except.ok (), closeStream s' (s'.cur .out)) : Except PyErr Unit × State)
      | (.error e, s') => (.error e, s')); leave s r s2) = _
    rw [hb']
    simp only [State.cur, closeStream, hopen, leave, flush, List.getElem?_set_self hlt]
    rfl
  · show s2.out ≠ s.out
    omega
  · show s2.err ≠ s.err
    omega

/-- Nothing is fetched, and the body is not run, if one of the streams is already closed. -/
theorem fetch_closed_before (body : Prog) (s : State) (t : List Char)
    (h : s.streams[s.out]? = some ⟨t, true⟩) : run (.fetch body) s = (.error .valueError, s) := by
  simp only [run, enter, flush, h]
  rfl

/-- Non-vacuity: two nested uses and an exception that is caught outside; the texts are apart. -/
example :
    let inner : Prog := .seq (.write .out ['b']) (.raise .indexError)
    let body : Prog := .seq (.write .out ['a']) (.seq (.attempt (.fetch inner) (.write .err ['e']))
      (.write .out ['c']))
    let s : State := ⟨[⟨['x'], false⟩, ⟨[], false⟩], 0, 1⟩
    body.Tame ∧ s.Usable ∧ run (.fetch body) s =
      (.ok (), ⟨[⟨['x'], false⟩, ⟨[], false⟩, ⟨['a', 'c'], false⟩, ⟨['e'], false⟩, ⟨['b'], false⟩,
        ⟨[], false⟩], 0, 1⟩) :=
  ⟨by simp [Prog.Tame], ⟨⟨_, rfl⟩, ⟨_, rfl⟩, by decide⟩, by decide +kernel⟩

/-- Non-vacuity of the violation: a body that prints and closes. -/
example : (run (.fetch (.seq (.write .out ['a']) (.close .out))) ⟨[⟨[], false⟩, ⟨[], false⟩], 0, 1⟩) =
    (.error .valueError, ⟨[⟨[], false⟩, ⟨[], false⟩, ⟨['a'], true⟩, ⟨[], false⟩], 2, 3⟩) := by
  decide +kernel

end Dedop.Util.Fetch
