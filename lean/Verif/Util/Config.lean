import Verif.Basic.Dict
import Verif.Basic.Tactics

/-!
# User settings

Models `/repo/dedop/util/config.py`: the settings file of the user (`~/.dedop/config.py`), which is made
from a template if there is none, the settings file in the current directory (`dedop-config.py`), and the
settings kept after the first use.

Simplification: a settings file is Python code; here it is the assignments it makes, in order, or `bad`
if running it raises an exception.  Values `None` in a settings file are values like any other.
-/
namespace Dedop.Util

variable {V : Type}

/-- What is at the path of a settings file. -/
inductive Entry (V : Type) where
  | missing
  /-- something that is not a file -/
  | notFile
  /-- a file that cannot be opened, compiled or executed -/
  | bad
  /-- a file that makes these assignments -/
  | good (assignments : List (String × V))
  deriving DecidableEq

/-- The two files, and what an attempt to create the file of the user leads to: whether it raises an
`OSError` and what is at the path afterwards. -/
structure Files (V : Type) where
  user : Entry V
  loc : Entry V
  createFails : Bool
  created : Entry V

/-- What is printed. -/
inductive Warning where
  | create | readUser | readLocal
  deriving DecidableEq

/-- The settings with their values, in the order of the files (`config.py:35-66`). -/
structure Settings (V : Type) where
  files : Files V
  /-- `_CONFIG` -/
  cache : Option (Dict String V)
  printed : List Warning

/-- `exec(code, None, config)` with `config = {}` (`config.py:80-83`). -/
def readPython (assignments : List (String × V)) : Dict String V :=
  assignments.foldl (fun d kv => d.set kv.1 kv.2) []

/-- `_CONFIG.update(local_config)`. -/
def updateWith (d e : Dict String V) : Dict String V :=
  e.foldl (fun d kv => d.set kv.1 kv.2) d

/-- `get_config` (`config.py:35-66`). -/
def getConfig (s : Settings V) : Dict String V × Settings V :=
  match s.cache with
  | some d => (d, s)
  | none =>
    -- lines 48-53
    let (files, printed) := match s.files.user with
      | .missing => ({ s.files with user := s.files.created },
          if s.files.createFails then s.printed ++ [Warning.create] else s.printed)
      | _ => (s.files, s.printed)
    -- lines 55-59
    let (config, printed) := match files.user with
      | .good a => (readPython a, printed)
      | .bad => ([], printed ++ [Warning.readUser])
      | _ => ([], printed)
    -- lines 61-67
    let (config, printed) := match files.loc with
      | .good a => (updateWith config (readPython a), printed)
      | .bad => (config, printed ++ [Warning.readLocal])
      | _ => (config, printed)
    (config, ⟨files, some config, printed⟩)

/-- `get_config_value` (`config.py:22-32`). -/
def getConfigValue (s : Settings V) (name : String) (default : Option V) :
    Except PyErr (Option V) × Settings V :=
  if name = "" then (.error .valueError, s)
  else
    let (d, s) := getConfig s
    (.ok (match d.get? name with | some v => some v | none => default), s)

/-- `get_config_path` (`config.py:9-19`); `expand` is `os.path.expanduser(str(value))`. -/
def getConfigPath (expand : V → String) (s : Settings V) (name : String) (default : Option V) :
    Except PyErr (Option String) × Settings V :=
  match getConfigValue s name default with
  | (.error e, s) => (.error e, s)
  | (.ok v, s) => (.ok (v.map expand), s)

/-- What can happen during a session: a setting is asked for, or somebody changes the files. -/
inductive Event (V : Type) where
  | ask (name : String) (default : Option V)
  | change (f : Files V)

/-- The answers given in a session. -/
def session (s : Settings V) : List (Event V) → List (Except PyErr (Option V)) × Settings V
  | [] => ([], s)
  | .ask n d :: t =>
    let (a, s) := getConfigValue s n d
    let (as, s) := session s t
    (a :: as, s)
  | .change f :: t => session { s with files := f } t

/-! ## Specification -/

/-- The value a settings file gives to a name: its last assignment. -/
def Entry.value (e : Entry V) (name : String) : Option V :=
  match e with
  | .good a => (a.reverse.find? (fun kv => kv.1 == name)).map (·.2)
  | _ => none

/-- The file of the user that counts: the one there is, or the one made if there is none. -/
def Files.effective (f : Files V) : Entry V :=
  match f.user with
  | .missing => f.created
  | e => e

/-- The documented precedence: the local file, then the file of the user, then the given default. -/
def Files.setting (f : Files V) (name : String) (default : Option V) : Option V :=
  (f.loc.value name).or ((f.effective.value name).or default)

/-- The answer to one question. -/
def answer (f : Files V) (name : String) (default : Option V) : Except PyErr (Option V) :=
  if name = "" then .error .valueError else .ok (f.setting name default)

/-- The answers to all questions of a session, all from the same state of the files. -/
def answers (f : Files V) : List (Event V) → List (Except PyErr (Option V))
  | [] => []
  | .ask n d :: t => answer f n d :: answers f t
  | .change _ :: t => answers f t

/-! ## Lemmas -/

theorem get?_updateWith (d : Dict String V) (e : List (String × V)) (n : String) :
    (e.foldl (fun (d : Dict String V) kv => d.set kv.1 kv.2) d).get? n =
      ((e.reverse.find? (fun kv => kv.1 == n)).map (·.2)).or (d.get? n) := by
  induction e generalizing d with
  | nil => rfl
  | cons a t ih =>
    rw [List.foldl_cons, ih, Dict.get?_set, List.reverse_cons, List.find?_append]
    by_cases h : n = a.1
    · cases t.reverse.find? (fun kv => kv.1 == n) <;> simp [h]
    · have : ¬ a.1 = n := fun e => h e.symm
      cases t.reverse.find? (fun kv => kv.1 == n) <;> simp [h, this]

theorem keys_nodup_set (d : Dict String V) (k : String) (v : V) (h : (d.map (·.1)).Nodup) :
    ((d.set k v).map (·.1)).Nodup := by
  have hk : (d.set k v).map (·.1) = if k ∈ d.map (·.1) then d.map (·.1) else d.map (·.1) ++ [k] := by
    clear h
    induction d with
    | nil => simp [Dict.set]
    | cons a t ih =>
      obtain ⟨k', v'⟩ := a
      simp only [Dict.set]
      by_cases e : k = k'
      · simp [e]
      · rw [if_neg e]
        simp only [List.map_cons, ih, List.mem_cons, e, false_or]
        split <;> simp
  rw [hk]
  split
  · exact h
  · rename_i hn
    exact List.nodup_append.2 ⟨h, by simp, by
      intro a ha b hb; simp only [List.mem_singleton] at hb; rintro rfl; exact hn (hb ▸ ha)⟩

theorem find?_reverse (e : Dict String V) (h : (e.map (·.1)).Nodup) (n : String) :
    (e.reverse.find? (fun kv => kv.1 == n)).map (·.2) = e.get? n := by
  induction e with
  | nil => rfl
  | cons a t ih =>
    obtain ⟨k, v⟩ := a
    simp only [List.map_cons, List.nodup_cons] at h
    have := ih h.2
    rw [List.reverse_cons, List.find?_append]
    simp only [Dict.get?]
    by_cases hn : n = k
    · subst hn
      have : t.reverse.find? (fun kv => kv.1 == n) = none := by
        rw [List.find?_eq_none]
        intro x hx
        have hx' : x ∈ t := List.mem_reverse.1 hx
        have : x.1 ≠ n := fun e => h.1 (e ▸ List.mem_map_of_mem (f := (·.1)) hx')
        simpa using this
      simp [this]
    · have hk : ¬ k = n := fun e => hn e.symm
      rw [if_neg hn, ← this]
      cases t.reverse.find? (fun kv => kv.1 == n) <;> simp [hk]

theorem readPython_nodup (a : List (String × V)) : ((readPython a).map (·.1)).Nodup := by
  unfold readPython
  suffices ∀ d : Dict String V, (d.map (·.1)).Nodup →
      ((a.foldl (fun (d : Dict String V) kv => d.set kv.1 kv.2) d).map (·.1)).Nodup from this [] (by simp)
  induction a with
  | nil => exact fun d h => h
  | cons x t ih => exact fun d h => ih _ (keys_nodup_set d _ _ h)

theorem readPython_get (a : List (String × V)) (n : String) :
    (readPython a).get? n = (Entry.good a).value n := by
  unfold readPython
  rw [get?_updateWith]
  simp [Entry.value, Dict.get?]

/-- What is in the cache after the first use. -/
def Cached (f : Files V) (d : Dict String V) : Prop :=
  ∀ n default, (match d.get? n with | some v => some v | none => default) = f.setting n default

theorem getConfig_fresh (s : Settings V) (h : s.cache = none) :
    (getConfig s).2.cache = some (getConfig s).1 ∧ Cached s.files (getConfig s).1 := by
  have hl : ∀ (a : List (String × V)) (d : Dict String V) (n : String),
      (updateWith d (readPython a)).get? n = ((Entry.good a).value n).or (d.get? n) := by
    intro a d n
    unfold updateWith
    rw [get?_updateWith, find?_reverse _ (readPython_nodup a), readPython_get]
  have hor : ∀ (o : Option V) (default : Option V),
      (match o with | some v => some v | none => default) = o.or default := by
    intro o d; cases o <;> rfl
  obtain ⟨⟨user, loc, fails, created⟩, cache, printed⟩ := s
  subst h
  refine ⟨?_, fun n default => ?_⟩
  · cases user <;> rfl
  · unfold Files.setting
    rw [hor, ← Option.or_assoc]
    congr 1
    cases user <;> cases loc <;> cases created <;>
      simp [getConfig, Files.effective, readPython_get, hl, Entry.value, Dict.get?]

theorem session_cached (s : Settings V) (f : Files V) (d : Dict String V) (hc : s.cache = some d)
    (hd : Cached f d) (es : List (Event V)) : (session s es).1 = answers f es := by
  induction es generalizing s with
  | nil => rfl
  | cons e t ih =>
    cases e with
    | change g => exact ih { s with files := g } hc
    | ask n default =>
      simp only [session, answers, getConfigValue, answer]
      by_cases hn : n = ""
      · simp only [hn, if_true]; rw [ih s hc]
      · simp only [hn, if_false, getConfig, hc]
        rw [ih s hc, hd n default]

/-- The state of the files after some events, and that nothing was asked before. -/
def lastChange (f : Files V) : List (Event V) → Files V
  | [] => f
  | .change g :: t => lastChange g t
  | .ask _ _ :: t => lastChange f t

/-! ## Properties -/

/-- **C91** (precedence and time of reading).  Whatever is asked in a session and however the files are
changed in between: every setting is the one of the local file, else of the file of the user, else the
default given with the question, all with the files as they are when the first setting is asked for; a
question without a name is refused and does not count as the first one. -/
theorem settings_answers (f : Files V) (printed : List Warning) (before : List (Event V))
    (hb : ∀ n d, Event.ask n d ∈ before → n = "") (n : String) (d : Option V) (hn : n ≠ "")
    (rest : List (Event V)) :
    (session ⟨f, none, printed⟩ (before ++ .ask n d :: rest)).1 =
      answers (lastChange f before) (before ++ .ask n d :: rest) := by
  induction before generalizing f with
  | nil =>
    obtain ⟨h1, h2⟩ := getConfig_fresh (⟨f, none, printed⟩ : Settings V) rfl
    simp only [List.nil_append, session, getConfigValue, if_neg hn, lastChange, answers, answer]
    rw [session_cached _ f _ h1 h2, h2 n d]
  | cons e t ih =>
    cases e with
    | change g => exact ih g (fun n d h => hb n d (List.mem_cons_of_mem _ h))
    | ask m d' =>
      have hm : m = "" := hb m d' List.mem_cons_self
      subst hm
      simp only [List.cons_append, session, getConfigValue, if_true, lastChange, answers, answer]
      rw [ih f (fun n d h => hb n d (List.mem_cons_of_mem _ h))]

/-- … and without any proper question every answer is the refusal. -/
theorem nothing_asked (s : Settings V) (es : List (Event V))
    (h : ∀ n d, Event.ask n d ∈ es → n = "") :
    ∀ a ∈ (session s es).1, a = .error .valueError := by
  induction es generalizing s with
  | nil => simp [session]
  | cons e t ih =>
    cases e with
    | change g => exact ih _ (fun n d h' => h n d (List.mem_cons_of_mem _ h'))
    | ask m d' =>
      have hm : m = "" := h m d' List.mem_cons_self
      subst hm
      intro a ha
      simp only [session, getConfigValue, if_true, List.mem_cons] at ha
      rcases ha with ha | ha
      · exact ha
      · exact ih s (fun n d h' => h n d (List.mem_cons_of_mem _ h')) a ha

/-- **C91** (problems never stop the program but are told).  The first question prints a warning exactly
for each of: the file of the user could not be made, it cannot be read, the local file cannot be read; and
nothing is printed afterwards.  Only a missing file of the user is written. -/
theorem settings_warnings (f : Files V) (printed : List Warning) (n : String) (d : Option V)
    (hn : n ≠ "") :
    let s' := (getConfigValue ⟨f, none, printed⟩ n d).2
    (∃ new, s'.printed = printed ++ new ∧
      (Warning.create ∈ new ↔ f.user = .missing ∧ f.createFails = true) ∧
      (Warning.readUser ∈ new ↔ f.effective = .bad) ∧
      (Warning.readLocal ∈ new ↔ f.loc = .bad)) ∧
    (f.user ≠ .missing → s'.files = f) ∧ s'.files.loc = f.loc ∧ s'.files.user = f.effective ∧
    ∀ m d' g, (getConfigValue { s' with files := g } m d').2 = { s' with files := g } := by
  obtain ⟨user, loc, fails, created⟩ := f
  refine ⟨?_, ?_, ?_, ?_, ?_⟩
  · simp only [getConfigValue, if_neg hn]
    cases user <;> cases loc <;> cases fails <;> cases created <;>
      simp [getConfig, Files.effective] <;>
      first
      | exact ⟨[], by simp⟩
      | exact ⟨_, rfl, by decide⟩
      | exact ⟨_, rfl, by simp⟩
  · simp only [getConfigValue, if_neg hn]
    cases user <;> simp [getConfig]
  · simp only [getConfigValue, if_neg hn]
    cases user <;> simp [getConfig]
  · simp only [getConfigValue, if_neg hn]
    cases user <;> simp [getConfig, Files.effective]
  · intro m d' g
    obtain ⟨h1, _⟩ := getConfig_fresh (⟨⟨user, loc, fails, created⟩, none, printed⟩ : Settings V) rfl
    have key : ∀ s : Settings V, ∀ c, s.cache = some c → (getConfigValue s m d').2 = s := by
      intro s c hs
      by_cases hm : m = ""
      · simp [getConfigValue, hm]
      · simp [getConfigValue, hm, getConfig, hs]
    simp only [getConfigValue, if_neg hn]
    exact key _ _ h1

/-- **C91** (paths).  A setting that is a path is the setting with `~` expanded, and `None` if there is
neither a setting nor a default. -/
theorem settings_path (expand : V → String) (f : Files V) (printed : List Warning) (n : String)
    (d : Option V) (hn : n ≠ "") :
    (getConfigPath expand ⟨f, none, printed⟩ n d).1 = .ok ((f.setting n d).map expand) := by
  obtain ⟨_, h2⟩ := getConfig_fresh (⟨f, none, printed⟩ : Settings V) rfl
  simp only [getConfigPath, getConfigValue, if_neg hn]
  rw [h2 n d]

/-- Non-vacuity: a session with all three sources; the change of the local file comes too late. -/
example :
    let f : Files String := ⟨.good [("workspaces_dir", "~/a"), ("x", "1")],
      .good [("workspaces_dir", "/b"), ("workspaces_dir", "/c")], false, .missing⟩
    (session ⟨f, none, []⟩ [.ask "" none, .ask "workspaces_dir" none, .change ⟨.bad, .bad, true, .bad⟩,
      .ask "x" none, .ask "y" (some "2"), .ask "z" none]).1 =
      [.error .valueError, .ok (some "/c"), .ok (some "1"), .ok (some "2"), .ok none] := by
  decide +kernel

example :
    (getConfigValue (⟨⟨.missing, .bad, true, .missing⟩, none, []⟩ : Settings Nat) "x" (some 3)) =
      (.ok (some 3), ⟨⟨.missing, .bad, true, .missing⟩, some [], [.create, .readLocal]⟩) := by
  rfl

end Dedop.Util
