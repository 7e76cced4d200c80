import Verif.Basic.Tactics
import Verif.Names.Model
import Verif.Workspace.FS
import Verif.Run.Model

/-!
# The dummy processor (model)

Models `DummyProcessor` of `/repo/dedop/model/processor.py` (lines 25-90), which users can select with the
setting `processor_factory` (`/repo/dedop/util/config-template.py:49`).  Time spent sleeping is not modelled.
-/
namespace Dedop.Dummy

open Dedop.Names Dedop.Workspace

/-- The attributes that matter (`model/processor.py:38-50`); the output directory is a path of the modelled file
system. -/
structure Dummy where
  name : Name
  out : Path
  skip : Bool
  deriving DecidableEq, Repr

/-- Calls on the monitor: `start`, `progress(work=1, msg)`, `done` (`model/processor.py:69-90`). -/
inductive Event where
  | start (total : Nat)
  | progress (msg : Option String)
  | done
  deriving DecidableEq, Repr

/-- What `process` can raise: `ProcessorException`, the `NameError` of an undefined name, or an error of the
file system (`model/processor.py:60-61, 77, 85, 89`). -/
inductive Err where
  | processor (msg : Name)
  | nameError (name : String)
  | io (e : PyErr)
  deriving DecidableEq, Repr

/-- `s.upper()` for the ASCII letters; the other characters stay (simplified: only the three letters of `ERR`
matter, and no other character turns into one of them).  `model/processor.py:60`. -/
def upper (s : Name) : Name := s.map Char.toUpper

/-- `sub in s` (`model/processor.py:60`). -/
def contains (sub s : Name) : Bool :=
  match s with
  | [] => sub.isPrefixOf []
  | c :: t => sub.isPrefixOf (c :: t) || contains sub t

/-- Evaluation of the name `ProcessorException` in the module: neither defined nor imported
(`model/processor.py:1-5`). -/
def processorExceptionDefined : Bool := false

/-- `raise ProcessorException(...)` (`model/processor.py:61`). -/
def raiseProcessor (msg : Name) : Err :=
  if processorExceptionDefined then .processor msg else .nameError "ProcessorException"

/-- `total_work` (`model/processor.py:63-67`). -/
def totalWork (d : Dummy) (recs : Nat) : Nat := (if d.skip then recs else recs + 1) + 1

/-- `l1a_base` (`model/processor.py:79-81`). -/
def base (input : Name) : Name :=
  let b := stem (basename input)
  if ['L', '1', 'A'].isPrefixOf b then b.drop 3 else b

/-- `'L1BS_%s_%s.nc'` (`model/processor.py:84`). -/
def l1bsName (d : Dummy) (input : Name) : Name :=
  ['L', '1', 'B', 'S', '_'] ++ base input ++ ['_'] ++ d.name ++ ['.', 'n', 'c']

/-- `'L1B_%s_%s.nc'` (`model/processor.py:88`). -/
def l1bName (d : Dummy) (input : Name) : Name :=
  ['L', '1', 'B', '_'] ++ base input ++ ['_'] ++ d.name ++ ['.', 'n', 'c']

/-- The loop over the records (`model/processor.py:70-75`): `cancelled k` is the answer of the monitor to the
`k`-th question.  Gives the events and whether the loop was left by `return`. -/
def records (cancelled : Nat → Bool) : Nat → Nat → List Event × Bool
  | 0, _ => ([], false)
  | n + 1, k =>
    if cancelled k then ([], true)
    else
      let r := records cancelled n (k + 1)
      (.progress none :: r.1, r.2)

/-- The result of a call: the value or exception, the calls on the monitor, the files
(`model/processor.py:52-90`). -/
structure Out where
  res : Except Err Unit
  events : List Event
  fs : FS
  deriving DecidableEq

/-- One product (`model/processor.py:85-86`, `89-90`): the file is created empty. -/
def product (fs : FS) (dir : Path) (file : Name) (msg : String) : Except Err (FS × List Event) :=
  match fs.write (dir ++ [file]) [] with
  | .error e => .error (.io e)
  | .ok fs' => .ok (fs', [.progress (some msg)])

/-- After the loop (`model/processor.py:77-90`). -/
def finish (d : Dummy) (input : Name) (fs : FS) : Out :=
  match fs.makedirs d.out with
  | .error e => ⟨.error (.io e), [], fs⟩
  | .ok fs1 =>
    match (if d.skip then .ok (fs1, []) else product fs1 d.out (l1bsName d input) "writing L1BS") with
    | .error e => ⟨.error e, [], fs1⟩
    | .ok (fs2, ev) =>
      match product fs2 d.out (l1bName d input) "writing L1B" with
      | .error e => ⟨.error e, ev, fs2⟩
      | .ok (fs3, ev') => ⟨.ok (), ev ++ ev', fs3⟩

/-- `DummyProcessor.process` (`model/processor.py:52-90`) with `num_recs = recs` (100 in the code).  The context
manager calls `done` however the block is left (`monitor.py:70-85`). -/
def process (d : Dummy) (recs : Nat) (cancelled : Nat → Bool) (input : Name) (fs : FS) : Out :=
  if contains ['E', 'R', 'R'] (upper (basename input)) then
    ⟨.error (raiseProcessor ("failed to open L1A file ".toList ++ input)), [], fs⟩
  else
    let r := records cancelled recs 0
    if r.2 then ⟨.ok (), [.start (totalWork d recs)] ++ r.1 ++ [.done], fs⟩
    else
      let o := finish d input fs
      ⟨o.res, [.start (totalWork d recs)] ++ r.1 ++ o.events ++ [.done], o.fs⟩

/-- What `run` sees of an exception: only a `ProcessorException` is one (`cli/main.py:156, 201`). -/
def toRunErr : Err → Run.RunErr
  | .processor m => .processor (String.ofList m)
  | .nameError n => .python (.other n)
  | .io e => .python e

/-- The text of a path as an argument of the processor: the components joined
(`cli/main.py:199`). -/
def pathText : Run.Place → Name
  | .given p => p
  | .stored p => List.intercalate ['/'] p

/-- The dummy processor as the processor of `run` (`cli/main.py:191-199`); output directories given by the user are
put below the modelled root (simplified). -/
def asProcessor (cancelled : Nat → Bool) : Run.Processor FS Dummy where
  make ω s := (.ok ⟨s.name, match s.out with | .given p => [p] | .stored p => p, s.skip⟩, ω)
  process ω d input _ :=
    match process d 100 cancelled (pathText input) ω with
    | ⟨.ok (), _, fs⟩ => (.ok 0, d, fs)
    | ⟨.error e, _, fs⟩ => (.error (toRunErr e), d, fs)

end Dedop.Dummy
