import Verif.Dummy.Model
import Verif.Workspace.FSLemmas
import Verif.Run.Props

/-!
# The dummy processor (theorems)

C100.  What a user of `processor_factory = dedop.model.processor.DummyProcessor` can rely on.
-/
namespace Dedop.Dummy

open Dedop.Names Dedop.Workspace

/-- Specification: the text has three letters E, R, R in a row, in either case. -/
def HasErr (s : Name) : Prop :=
  ∃ pre post a b c, s = pre ++ [a, b, c] ++ post ∧ a.toUpper = 'E' ∧ b.toUpper = 'R' ∧ c.toUpper = 'R'

/-- Specification: units of work reported to the monitor. -/
def units (l : List Event) : Nat := l.countP (fun e => match e with | .progress _ => true | _ => false)

/-- Specification: the announced amount of work, if the task was started. -/
def announced : List Event → Option Nat
  | .start t :: _ => some t
  | _ => none

theorem contains_iff (sub s : Name) : contains sub s = true ↔ sub <:+: s := by
  induction s with
  | nil => simp [contains, List.isPrefixOf_iff_prefix]
  | cons c t ih =>
    rw [contains, Bool.or_eq_true, ih, List.isPrefixOf_iff_prefix, List.infix_cons_iff]

theorem contains_err (s : Name) : contains ['E', 'R', 'R'] (upper s) = true ↔ HasErr s := by
  rw [contains_iff]
  constructor
  · rintro ⟨pre, post, h⟩
    have h' : s.map Char.toUpper = pre ++ ['E', 'R', 'R'] ++ post := h.symm
    rw [List.map_eq_append_iff] at h'
    obtain ⟨l1, l2, rfl, h1, -⟩ := h'
    rw [List.map_eq_append_iff] at h1
    obtain ⟨m1, m2, rfl, -, h2⟩ := h1
    rw [List.map_eq_cons_iff] at h2
    obtain ⟨a, r, rfl, ha, h2⟩ := h2
    rw [List.map_eq_cons_iff] at h2
    obtain ⟨b, r, rfl, hb, h2⟩ := h2
    rw [List.map_eq_cons_iff] at h2
    obtain ⟨c, r, rfl, hc, h2⟩ := h2
    rw [List.map_eq_nil_iff] at h2
    subst h2
    exact ⟨m1, l2, a, b, c, rfl, ha, hb, hc⟩
  · rintro ⟨pre, post, a, b, c, rfl, ha, hb, hc⟩
    refine ⟨upper pre, upper post, ?_⟩
    simp [upper, ha, hb, hc]

theorem records_free (cancelled : Nat → Bool) (n k : Nat) (h : ∀ i, k ≤ i → i < k + n → cancelled i = false) :
    records cancelled n k = (List.replicate n (.progress none), false) := by
  induction n generalizing k with
  | zero => rfl
  | succ n ih =>
    rw [records, h k (Nat.le_refl _) (by omega), ih (k + 1) (fun i h1 h2 => h i (by omega) (by omega))]
    rfl

theorem records_cancelled (cancelled : Nat → Bool) (n k j : Nat) (hj : j < n) (hc : cancelled (k + j) = true)
    (h : ∀ i, k ≤ i → i < k + j → cancelled i = false) :
    records cancelled n k = (List.replicate j (.progress none), true) := by
  induction j generalizing n k with
  | zero =>
    cases n with
    | zero => omega
    | succ n => rw [records, if_pos (by simpa using hc)]; rfl
  | succ j ih =>
    cases n with
    | zero => omega
    | succ n =>
      rw [records, h k (Nat.le_refl _) (by omega),
        ih n (k + 1) (by omega) (by rw [← hc]; congr 1; omega) (fun i h1 h2 => h i (by omega) (by omega))]
      rfl

theorem units_append (a b : List Event) : units (a ++ b) = units a + units b := List.countP_append

theorem units_replicate (n : Nat) (m : Option String) : units (List.replicate n (.progress m)) = n := by
  simp [units, List.countP_replicate]

theorem getLast_done (l : List Event) : (l ++ [Event.done]).getLast? = some Event.done := by simp

/-- What the end of the task does when it succeeds. -/
theorem finish_ok (d : Dummy) (input : Name) (fs : FS) (h : (finish d input fs).res = .ok ()) :
    units (finish d input fs).events = (if d.skip then 0 else 1) + 1 ∧
    ∀ r, Dict.get? (finish d input fs).fs r =
      if r = d.out ++ [l1bName d input] ∨ d.skip = false ∧ r = d.out ++ [l1bsName d input] then some (.file [])
      else if r <+: d.out then some .dir else Dict.get? fs r := by
  unfold finish at h ⊢
  cases hm : fs.makedirs d.out with
  | error e => simp [hm] at h
  | ok fs1 =>
    have g1 := FS.makedirs_ok hm
    cases hs : d.skip with
    | true =>
      simp only [hm, hs, if_true] at h ⊢
      unfold product at h ⊢
      cases hw : fs1.write (d.out ++ [l1bName d input]) [] with
      | error e => simp [hw] at h
      | ok fs3 =>
        dsimp only
        refine ⟨by simp [units], fun r => ?_⟩
        rw [FS.write_ok hw r, g1]
        by_cases hr : r = d.out ++ [l1bName d input]
        · simp [hr]
        · simp [hr]
    | false =>
      simp only [hm, hs] at h ⊢
      unfold product at h ⊢
      cases hw : fs1.write (d.out ++ [l1bsName d input]) [] with
      | error e => simp [hw] at h
      | ok fs2 =>
        simp only [hw] at h ⊢
        cases hw2 : fs2.write (d.out ++ [l1bName d input]) [] with
        | error e => simp [hw2] at h
        | ok fs3 =>
          simp only [Bool.false_eq_true, if_false, hw2] at h ⊢
          refine ⟨by simp [units], fun r => ?_⟩
          rw [FS.write_ok hw2 r, FS.write_ok hw r, g1]
          by_cases h1 : r = d.out ++ [l1bName d input]
          · simp [h1]
          · by_cases h2 : r = d.out ++ [l1bsName d input]
            · simp [h2]
            · simp [h1, h2]

/-- The errors at the end of the task are errors of the file system. -/
theorem finish_error (d : Dummy) (input : Name) (fs : FS) (e : Err) (h : (finish d input fs).res = .error e) :
    e = .io .ioError := by
  have hmk : ∀ (t : Path) (fs : FS) (pre : Path) (e : PyErr), fs.makedirsFrom pre t = .error e → e = .ioError := by
    have h0 : ∀ (fs : FS) (p : Path) (e : PyErr), fs.mkdirOk p = .error e → e = .ioError := by
      intro fs p e h
      unfold FS.mkdirOk at h
      split at h <;> cases h
      rfl
    intro t
    induction t with
    | nil => intro fs pre e h; exact h0 _ _ _ h
    | cons c t ih =>
      intro fs pre e h
      rw [FS.makedirsFrom] at h
      split at h
      · rename_i e' h1
        cases h
        exact h0 _ _ _ h1
      · exact ih _ _ _ h
  have hp : ∀ (fs : FS) (dir : Path) (f : Name) (m : String) (e : Err), product fs dir f m = .error e →
      e = .io .ioError := by
    intro fs dir f m e h
    unfold product at h
    split at h
    · rename_i e' h1
      cases h
      unfold FS.write at h1
      split at h1 <;> cases h1
      rfl
    · cases h
  unfold finish at h
  split at h
  · rename_i e' h1
    cases h
    rw [hmk _ _ _ _ h1]
  · rename_i fs1 h1
    split at h
    · rename_i e' h2
      cases h
      split at h2
      · cases h2
      · exact hp _ _ _ _ _ h2
    · rename_i fs2 ev h2
      split at h
      · rename_i e' h3
        cases h
        exact hp _ _ _ _ _ h3
      · cases h

/-- **C100, work and files.**  A call that ends without an exception and was not asked to stop reported exactly the
work it announced, and left exactly its products: `L1B_…` and, unless skipped, `L1BS_…`, in the output directory,
which was created if needed; every other file is as before. -/
theorem dummy_work_and_files (d : Dummy) (recs : Nat) (cancelled : Nat → Bool) (input : Name) (fs : FS)
    (hc : ∀ i < recs, cancelled i = false) (h : (process d recs cancelled input fs).res = .ok ()) :
    let o := process d recs cancelled input fs
    announced o.events = some (units o.events) ∧ o.events.getLast? = some .done ∧
    ∀ r, Dict.get? o.fs r =
      if r = d.out ++ [l1bName d input] ∨ d.skip = false ∧ r = d.out ++ [l1bsName d input] then some (.file [])
      else if r <+: d.out then some .dir else Dict.get? fs r := by
  have hr := records_free cancelled recs 0 (fun i _ hi => hc i (by omega))
  unfold process at h ⊢
  split at h
  · cases h
  · rename_i hb
    rw [if_neg hb]
    simp only [hr, Bool.false_eq_true, if_false] at h ⊢
    obtain ⟨h1, h2⟩ := finish_ok d input fs h
    refine ⟨?_, getLast_done _, h2⟩
    rw [units_append, units_append, units_append, units_replicate, h1]
    show some (totalWork d recs) = _
    simp only [totalWork, units, List.countP_cons, List.countP_nil]
    cases d.skip <;> simp <;> omega

/-- **C100, two products.**  Unless skipped, the two products of a call are different files of the output directory, and both
are there afterwards; when skipped, every `L1BS_…` file there is as before. -/
theorem dummy_two_files (d : Dummy) (recs : Nat) (cancelled : Nat → Bool) (input : Name) (fs : FS)
    (hc : ∀ i < recs, cancelled i = false) (h : (process d recs cancelled input fs).res = .ok ()) :
    let o := process d recs cancelled input fs
    (∃ b, ['L', '1', 'B', '_'] <+: b ∧ Dict.get? o.fs (d.out ++ [b]) = some (.file [])) ∧
    (d.skip = false → ∃ b, ['L', '1', 'B', 'S', '_'] <+: b ∧ Dict.get? o.fs (d.out ++ [b]) = some (.file [])) ∧
    (d.skip = true → ∀ b, ['L', '1', 'B', 'S', '_'] <+: b → Dict.get? o.fs (d.out ++ [b]) = Dict.get? fs (d.out ++ [b])) := by
  obtain ⟨-, -, hf⟩ := dummy_work_and_files d recs cancelled input fs hc h
  refine ⟨⟨l1bName d input, ⟨base input ++ ['_'] ++ d.name ++ ['.', 'n', 'c'], by simp [l1bName]⟩, ?_⟩,
    fun hs => ⟨l1bsName d input, ⟨base input ++ ['_'] ++ d.name ++ ['.', 'n', 'c'], by simp [l1bsName]⟩, ?_⟩, ?_⟩
  · rw [hf, if_pos (Or.inl rfl)]
  · rw [hf, if_pos (Or.inr ⟨hs, rfl⟩)]
  · rintro hs b ⟨t, rfl⟩
    rw [hf, if_neg, if_neg]
    · intro hp
      have := hp.length_le
      simp at this
    · rintro (h1 | ⟨h1, -⟩)
      · simp [l1bName] at h1
      · rw [hs] at h1; cases h1

/-- **C100, cancelling.**  A call that is asked to stop before record `j` ends without an exception, reports `j` units
of work and the end of the task, and changes no file. -/
theorem dummy_cancelled (d : Dummy) (recs : Nat) (cancelled : Nat → Bool) (input : Name) (fs : FS) (j : Nat)
    (hj : j < recs) (hc : cancelled j = true) (hf : ∀ i < j, cancelled i = false) (he : ¬ HasErr (basename input)) :
    let o := process d recs cancelled input fs
    o.res = .ok () ∧ units o.events = j ∧ o.events.getLast? = some .done ∧ o.fs = fs := by
  have hr := records_cancelled cancelled recs 0 j hj (by simpa using hc) (fun i _ hi => hf i (by omega))
  unfold process
  rw [if_neg (by rw [contains_err]; exact he)]
  simp only [hr, if_true]
  refine ⟨trivial, ?_, getLast_done _, trivial⟩
  rw [units_append, units_append, units_replicate]
  simp [units]

/-- **C100, errors (exactly).**  For an input with ERR in its file name the call raises the `NameError` of an undefined
name before doing anything; every other error is one of the file system, and the task was closed. -/
theorem dummy_errors (d : Dummy) (recs : Nat) (cancelled : Nat → Bool) (input : Name) (fs : FS) :
    let o := process d recs cancelled input fs
    (HasErr (basename input) → o.res = .error (.nameError "ProcessorException") ∧ o.events = [] ∧ o.fs = fs) ∧
    (¬ HasErr (basename input) → (o.res = .ok () ∨ o.res = .error (.io .ioError)) ∧ o.events.getLast? = some .done) := by
  intro o
  constructor
  · intro h
    have : o = ⟨.error (.nameError "ProcessorException"), [], fs⟩ := by
      show process _ _ _ _ _ = _
      unfold process
      rw [if_pos ((contains_err _).2 h)]
      rfl
    rw [this]
    exact ⟨rfl, rfl, rfl⟩
  · intro h
    have ho : o = process d recs cancelled input fs := rfl
    unfold process at ho
    rw [if_neg (by rw [contains_err]; exact h)] at ho
    dsimp only at ho
    split at ho
    · rw [ho]; exact ⟨.inl rfl, getLast_done _⟩
    · rw [ho]
      refine ⟨?_, getLast_done _⟩
      cases hf : (finish d input fs).res with
      | ok u => exact .inl rfl
      | error e => rw [finish_error d input fs e hf]; exact .inr rfl

/-- **C100 is violated.**  The documented exception is never raised: `ProcessorException` for file names with ERR. -/
theorem dummy_exception_violated :
    ¬ ∀ (d : Dummy) (recs : Nat) (cancelled : Nat → Bool) (input : Name) (fs : FS), HasErr (basename input) →
      ∃ msg, (process d recs cancelled input fs).res = .error (.processor msg) := by
  intro h
  have he : HasErr (basename ['e', 'r', 'r']) := (contains_err _).1 (by decide)
  obtain ⟨m, hm⟩ := h ⟨[], [], false⟩ 100 (fun _ => false) ['e', 'r', 'r'] [] he
  rw [((dummy_errors ⟨[], [], false⟩ 100 (fun _ => false) ['e', 'r', 'r'] []).1 he).1] at hm
  cases hm

theorem runInputs_err (cancelled : Nat → Bool) (quiet : Bool) (c : Name) (inputs : List Run.Place)
    (hi : ∃ i ∈ inputs, HasErr (basename (pathText i))) (calls : List (Run.Call × Option Run.RunErr)) (ω : FS)
    (d : Dummy) : ∃ e, (∀ m, e ≠ .workspaceError m) ∧
      (Run.runInputs (asProcessor cancelled) quiet c calls ω d inputs).res = .error (.python e) := by
  induction inputs generalizing calls ω d with
  | nil => obtain ⟨i, h, -⟩ := hi; cases h
  | cons i rest ih =>
    rw [Run.runInputs]
    have hd := dummy_errors d 100 cancelled (pathText i) ω
    dsimp only at hd
    by_cases h : HasErr (basename (pathText i))
    · have h1 := (hd.1 h).1
      cases hp : process d 100 cancelled (pathText i) ω with
      | mk res ev fs' =>
        rw [hp] at h1
        cases h1
        simp only [asProcessor, hp, toRunErr]
        exact ⟨_, by simp, rfl⟩
    · have h1 := (hd.2 h).1
      cases hp : process d 100 cancelled (pathText i) ω with
      | mk res ev fs' =>
        rw [hp] at h1
        rcases h1 with h1 | h1
        · cases h1
          simp only [asProcessor, hp]
          apply ih
          obtain ⟨j, hj, hje⟩ := hi
          rcases List.mem_cons.1 hj with rfl | hj
          · exact absurd hje h
          · exact ⟨j, hj, hje⟩
        · cases h1
          simp only [asProcessor, hp, toRunErr]
          exact ⟨_, by simp, rfl⟩

/-- **C100, seen by the user.**  A run with this processor on inputs of which one has ERR in its name never ends with the
error message of a failed command: the exception of the interpreter passes through. -/
theorem run_dummy_not_reported (cancelled : Nat → Bool) (t : Templates) (fs ω : FS) (a : Run.Args) (s : Run.Selection)
    (hs : (Run.select t fs a).1 = .ok s) (hcfg : s.cfgs ≠ []) (hi : ∃ i ∈ s.inputs, HasErr (basename (pathText i))) :
    ∃ e, (Run.run (asProcessor cancelled) t fs ω a).1.res = .error (.python e) := by
  cases hsel : Run.select t fs a with
  | mk r fs1 =>
    rw [hsel] at hs
    cases hs
    unfold Run.run
    simp only [hsel]
    cases hc : s.cfgs with
    | nil => exact absurd hc hcfg
    | cons c rest =>
      obtain ⟨e, he, h⟩ := runInputs_err cancelled a.quiet c s.inputs hi
        ([] ++ [(.make (Run.setup a s.ws c), none)]) ω
        ⟨(Run.setup a s.ws c).name, match (Run.setup a s.ws c).out with | .given p => [p] | .stored p => p,
          (Run.setup a s.ws c).skip⟩
      have h2 : (Run.runConfigs (asProcessor cancelled) a s.ws s.inputs [] ω (c :: rest)).res = .error (.python e) := by
        rw [Run.runConfigs]
        simp only [asProcessor] at h ⊢
        generalize Run.runInputs _ a.quiet c _ ω _ s.inputs = out at h ⊢
        obtain ⟨res, calls, ω'⟩ := out
        cases h
        rfl
      generalize Run.runConfigs _ a s.ws s.inputs [] ω (c :: rest) = out at h2 ⊢
      obtain ⟨res, calls, ω'⟩ := out
      cases h2
      refine ⟨e, ?_⟩
      show Except.error (Run.reported (.python e)) = _
      cases e with
      | workspaceError m => exact absurd rfl (he m)
      | _ => rfl

/-! ## The theorems are about something -/

/-- A processor for the examples. -/
def exampleDummy : Dummy := ⟨['c'], [['w'], ['o']], false⟩

/-- Files for the examples: a workspace without an outputs directory. -/
def exampleFS : FS := [([], .dir), ([['w']], .dir), ([['w'], ['x']], .file ['1'])]

example : (process exampleDummy 3 (fun _ => false) "in/L1A_x.nc".toList exampleFS).res = .ok () ∧
    units (process exampleDummy 3 (fun _ => false) "in/L1A_x.nc".toList exampleFS).events = 5 ∧
    Dict.get? (process exampleDummy 3 (fun _ => false) "in/L1A_x.nc".toList exampleFS).fs
      [['w'], ['o'], "L1BS__x_c.nc".toList] = some (.file []) := by decide +kernel

example : process exampleDummy 3 (fun k => k == 2) "L1A_x.nc".toList exampleFS =
    ⟨.ok (), [.start 5, .progress none, .progress none, .done], exampleFS⟩ := by decide +kernel

example : (process exampleDummy 3 (fun _ => false) "x.nc".toList [([], .dir), ([['w']], .file [])]).res =
    .error (.io .ioError) := by decide +kernel

example : exampleDummy.skip = false ∧ Dict.get? (process exampleDummy 3 (fun _ => false) "in/L1A_x.nc".toList exampleFS).fs
      [['w'], ['o'], "L1B__x_c.nc".toList] = some (.file []) := by decide +kernel

example : (process { exampleDummy with skip := true } 3 (fun _ => false) "in/L1A_x.nc".toList exampleFS).res = .ok () := by
  decide +kernel

/-- Arguments for the example of a run. -/
def exampleArgs : Run.Args := { ws := ['w'], cfg := ['c'], inputs := [['a'], ['e', 'R', 'r', '.', 'n', 'c']] }

example : ∃ s, (Run.select Run.demoT exampleFS exampleArgs).1 = .ok s ∧ s.cfgs ≠ [] ∧
    ∃ i ∈ s.inputs, HasErr (basename (pathText i)) := by
  refine ⟨⟨['w'], [['c']], [.given ['a'], .given ['e', 'R', 'r', '.', 'n', 'c']]⟩, by decide +kernel, by simp,
    .given ['e', 'R', 'r', '.', 'n', 'c'], by simp, (contains_err _).1 (by decide)⟩

end Dedop.Dummy
