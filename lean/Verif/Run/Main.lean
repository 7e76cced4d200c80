import Verif.Util.Config
import Verif.Workspace.Commands
import Verif.Basic.Tactics

/-!
# The two programs: command line and web service (C133, C134)

Models `main` of `/repo/dedop/cli/main.py` (lines 1257-1298), `create_application` and `main` of
`/repo/dedop/webapi/main.py` (lines 38-58) and the constructor of the workspace manager
(`/repo/dedop/ui/workspace_manager.py:84-85`): which workspaces directory and which processor are used.

* C133, the arguments and settings that count: `main_uses`;
* C133, both programs work on the same workspaces: `programs_agree_partial`, `programs_agree_violated`;
* C134, the location file: `location_partial`, `location_violated`, `location_interrupted_violated`.
-/
namespace Dedop.Main

open Dedop.Names Dedop.Workspace Dedop.Util

/-- The values of settings that matter here: `None`, a text, a callable (`util/config-template.py:8-11`,
`45-49`).  Simplification: values of other types are not modelled. -/
inductive Value where
  | none
  | text (s : String)
  | callable (n : Nat)
  deriving DecidableEq, Repr

/-- Truth of a value in Python. -/
def Value.truthy : Value → Bool
  | .none => false
  | .text s => s != ""
  | .callable _ => true

/-- The processor a command makes: one of the callables given, or the processor of the package
(`cli/main.py:1262-1285`). -/
inductive Factory where
  | given (n : Nat)
  | value (v : Value)
  | standard
  deriving DecidableEq, Repr

/-- Module variables `_PROCESSOR_FACTORY` and `_WORKSPACE_MANAGER` (`cli/main.py:57-58`); a manager is
known by its directory.  With them the settings (`util/config.py:6`). -/
structure Globals where
  factory : Option Factory
  manager : Option String
  settings : Settings Value

/-- Arguments of `main`: a manager (by its directory) and a processor factory (`cli/main.py:1257`). -/
structure MainArgs where
  manager : Option String := none
  factory : Option Nat := none
  deriving DecidableEq, Repr

/-- `os.path.expanduser(str(value))`: `home` replaces a leading tilde.  Simplification: the tilde is
only expanded alone or before a separator. -/
def expand (home : String) : Value → String
  | .text s => if s = "~" then home else if s.startsWith "~/" then home ++ String.ofList (s.toList.drop 1) else s
  | .none => "None"
  | .callable _ => "<function>"

/-- `get_config_path` (`util/config.py:9-19`); a setting `None` gives `None`. -/
def configPath (home : String) (s : Settings Value) (name : String) :
    Except PyErr (Option String) × Settings Value :=
  match getConfigValue s name none with
  | (.error e, s) => (.error e, s)
  | (.ok none, s) => (.ok none, s)
  | (.ok (some .none), s) => (.ok none, s)
  | (.ok (some v), s) => (.ok (some (expand home v)), s)

/-- `WorkspaceManager.__init__` (`workspace_manager.py:26`, `84-85`): no directory or an empty one stand
for `~/.dedop/workspaces`. -/
def newManager (home : String) : Option String → String
  | none => home ++ "/.dedop/workspaces"
  | some d => if d = "" then home ++ "/.dedop/workspaces" else d

/-- `main` up to the command (`cli/main.py:1281-1291`): sets the module variables. -/
def setUp (home : String) (g : Globals) (a : MainArgs) : Except PyErr Globals :=
  -- lines 1281-1282
  let (v, s) : Except PyErr (Option Value) × Settings Value := match a.factory with
    | some _ => (.ok none, g.settings)
    | none => getConfigValue g.settings "processor_factory" none
  match v with
  | .error e => .error e
  | .ok v =>
    -- line 1285
    let factory := match a.factory with
      | some n => Factory.given n
      | none => match v with
        | some v => if v.truthy then .value v else .standard
        | none => .standard
    -- line 1287
    match configPath home s "workspaces_dir" with
    | (.error e, _) => .error e
    | (.ok dir, s) =>
      -- line 1290
      let manager := match a.manager with
        | some d => d
        | none => newManager home dir
      .ok ⟨some factory, some manager, s⟩

/-- What the command sees (e.g. `cli/main.py:191`, `1014`). -/
structure Used where
  factory : Factory
  dir : String
  deriving DecidableEq, Repr

/-- What happens in one process: a call of `main`, or somebody changes the settings files. -/
inductive Happens where
  | main (a : MainArgs)
  | change (f : Files Value)

/-- What the commands of the calls in one process see, one after the other. -/
def calls (home : String) (g : Globals) : List Happens → List (Option Used)
  | [] => []
  | .change f :: t => calls home { g with settings := { g.settings with files := f } } t
  | .main a :: t =>
    match setUp home g a with
    | .error _ => none :: calls home g t
    | .ok g' =>
      (match g'.factory, g'.manager with
        | some f, some d => some ⟨f, d⟩
        | _, _ => none) :: calls home g' t

/-- The state when the process starts (`cli/main.py:57-58`, `util/config.py:6`). -/
def fresh (f : Files Value) : Globals := ⟨none, none, ⟨f, none, []⟩⟩

/-- The directory of the web service: `WorkspaceManager()` (`webapi/main.py:45`). -/
def webDir (home : String) : String := newManager home none

/-! ## Specification -/

/-- The value of a setting, `None` counting as not set. -/
def settingOf (f : Files Value) (name : String) : Option Value :=
  match f.setting name none with
  | some .none => none
  | v => v

/-- The processor that should be used: the argument, else the setting (if it is true), else the
processor of the package. -/
def wantedFactory (f : Files Value) (a : MainArgs) : Factory :=
  match a.factory, settingOf f "processor_factory" with
  | some n, _ => .given n
  | none, some (.callable n) => .value (.callable n)
  | none, some (.text s) => if s = "" then .standard else .value (.text s)
  | none, _ => .standard

/-- The directory that should be used: the argument, else the setting (if it is not empty), else
`~/.dedop/workspaces`. -/
def wantedDir (home : String) (f : Files Value) (a : MainArgs) : String :=
  match a.manager, settingOf f "workspaces_dir" with
  | some d, _ => d
  | none, some v => if expand home v = "" then home ++ "/.dedop/workspaces" else expand home v
  | none, none => home ++ "/.dedop/workspaces"

/-! ## Lemmas -/

theorem getConfigValue_cached (s : Settings Value) (f : Files Value) (d : Dict String Value)
    (hc : s.cache = some d) (hd : Cached f d) (n : String) (hn : n ≠ "") (default : Option Value) :
    getConfigValue s n default = (.ok (f.setting n default), s) := by
  unfold getConfigValue getConfig
  rw [if_neg hn, hc]
  simp only
  rw [hd n default]

theorem getConfigValue_fresh (s : Settings Value) (hc : s.cache = none) (n : String) (hn : n ≠ "")
    (default : Option Value) :
    ∃ d s', getConfigValue s n default = (.ok (s.files.setting n default), s') ∧ s'.cache = some d ∧
      Cached s.files d := by
  obtain ⟨h1, h2⟩ := getConfig_fresh s hc
  refine ⟨(getConfig s).1, (getConfig s).2, ?_, h1, h2⟩
  unfold getConfigValue
  rw [if_neg hn]
  simp only
  rw [h2 n default]

/-- The settings that count: those kept, or those in the files. -/
def Counts (f : Files Value) (s : Settings Value) : Prop :=
  (s.cache = none ∧ s.files = f) ∨ ∃ d, s.cache = some d ∧ Cached f d

theorem getConfigValue_counts (s : Settings Value) (f : Files Value) (h : Counts f s) (n : String)
    (hn : n ≠ "") (default : Option Value) :
    ∃ s', getConfigValue s n default = (.ok (f.setting n default), s') ∧
      ∃ d, s'.cache = some d ∧ Cached f d := by
  rcases h with ⟨hc, rfl⟩ | ⟨d, hc, hd⟩
  · obtain ⟨d, s', e, h1, h2⟩ := getConfigValue_fresh s hc n hn default
    exact ⟨s', e, d, h1, h2⟩
  · exact ⟨s, getConfigValue_cached s f d hc hd n hn default, d, hc, hd⟩

theorem setUp_spec (home : String) (g : Globals) (f : Files Value) (h : Counts f g.settings) (a : MainArgs) :
    ∃ s', setUp home g a = .ok ⟨some (wantedFactory f a), some (wantedDir home f a), s'⟩ ∧
      ∃ d, s'.cache = some d ∧ Cached f d := by
  have hdir : ∀ s, Counts f s → ∃ s', configPath home s "workspaces_dir" =
      (.ok ((settingOf f "workspaces_dir").map (expand home)), s') ∧ ∃ d, s'.cache = some d ∧ Cached f d := by
    intro s hs
    obtain ⟨s', e, hc⟩ := getConfigValue_counts s f hs "workspaces_dir" (by decide) none
    refine ⟨s', ?_, hc⟩
    unfold configPath settingOf
    rw [e]
    cases f.setting "workspaces_dir" none with
    | none => rfl
    | some v => cases v <;> rfl
  have hman : ∀ (o : Option Value), (match a.manager with
      | some d => d
      | none => newManager home (o.map (expand home))) =
      match a.manager, o with
      | some d, _ => d
      | none, some v => if expand home v = "" then home ++ "/.dedop/workspaces" else expand home v
      | none, none => home ++ "/.dedop/workspaces" := by
    intro o
    cases a.manager with
    | some d => rfl
    | none => cases o <;> rfl
  unfold setUp
  cases ha : a.factory with
  | some n =>
    obtain ⟨s', e, hc⟩ := hdir g.settings h
    refine ⟨s', ?_, hc⟩
    simp only [e, hman]
    simp only [wantedFactory, wantedDir, ha]
  | none =>
    obtain ⟨s1, e1, hc1⟩ := getConfigValue_counts g.settings f h "processor_factory" (by decide) none
    obtain ⟨s', e, hc⟩ := hdir s1 (Or.inr hc1)
    refine ⟨s', ?_, hc⟩
    simp only [e1, e, hman]
    have hf : (match f.setting "processor_factory" none with
        | some v => if v.truthy then Factory.value v else .standard
        | none => .standard) = wantedFactory f a := by
      unfold wantedFactory settingOf
      rw [ha]
      cases f.setting "processor_factory" none with
      | none => rfl
      | some v =>
        cases v with
        | none => rfl
        | callable n => rfl
        | text t =>
          by_cases ht : t = ""
          · subst ht; rfl
          · simp [Value.truthy, ht]
    rw [hf]
    simp only [wantedDir]

/-! ## C133 -/

/-- The calls of `main` among the things that happen. -/
def mains : List Happens → List MainArgs
  | [] => []
  | .main a :: t => a :: mains t
  | .change _ :: t => mains t

/-- The settings files at the first call of `main`. -/
def firstFiles (f : Files Value) : List Happens → Files Value
  | [] => f
  | .main _ :: _ => f
  | .change g :: t => firstFiles g t

/-- **C133, arguments and settings.**  Whatever happens in a process: every command uses the processor
and the workspaces directory given to its own call of `main`, else those of the settings, else the
standard processor and `~/.dedop/workspaces`; earlier calls have no influence, and the settings are
those in the files at the first call. -/
theorem main_uses (home : String) (f : Files Value) (es : List Happens) :
    calls home (fresh f) es = (mains es).map (fun a =>
      some ⟨wantedFactory (firstFiles f es) a, wantedDir home (firstFiles f es) a⟩) := by
  have kept : ∀ (es : List Happens) (g : Globals) (f : Files Value) (d : Dict String Value),
      g.settings.cache = some d → Cached f d →
      calls home g es = (mains es).map (fun a => some ⟨wantedFactory f a, wantedDir home f a⟩) := by
    intro es
    induction es with
    | nil => intro g f d _ _; rfl
    | cons e t ih =>
      intro g f d hc hd
      cases e with
      | change h => exact ih { g with settings := { g.settings with files := h } } f d hc hd
      | main a =>
        obtain ⟨s', e, d', hc', hd'⟩ := setUp_spec home g f (Or.inr ⟨d, hc, hd⟩) a
        simp only [calls, e, mains, List.map_cons]
        rw [ih _ f d' hc' hd']
  have start : ∀ (es : List Happens) (g : Globals), g.settings.cache = none →
      calls home g es = (mains es).map (fun a =>
        some ⟨wantedFactory (firstFiles g.settings.files es) a, wantedDir home (firstFiles g.settings.files es) a⟩) := by
    intro es
    induction es with
    | nil => intro g _; rfl
    | cons e t ih =>
      intro g hc
      cases e with
      | change h => exact ih { g with settings := { g.settings with files := h } } hc
      | main a =>
        obtain ⟨s', e, d', hc', hd'⟩ := setUp_spec home g g.settings.files (Or.inl ⟨hc, rfl⟩) a
        simp only [calls, e, mains, List.map_cons]
        rw [kept t _ g.settings.files d' hc' hd']
        rfl
  exact start es (fresh f) rfl

/-- **C133, the home directory.**  The setting `~` names the home directory and `~/d` the directory `d` in it; a path that does not
begin with a tilde is used as it is. -/
theorem setting_home (home d : String) (f : Files Value) (hh : home ≠ "") :
    (settingOf f "workspaces_dir" = some (.text "~") → calls home (fresh f) [.main {}] = [some ⟨wantedFactory f {}, home⟩]) ∧
    (settingOf f "workspaces_dir" = some (.text ("~/" ++ d)) →
      calls home (fresh f) [.main {}] = [some ⟨wantedFactory f {}, home ++ "/" ++ d⟩]) ∧
    (settingOf f "workspaces_dir" = some (.text d) → d ≠ "" → d.toList.head? ≠ some '~' →
      calls home (fresh f) [.main {}] = [some ⟨wantedFactory f {}, d⟩]) := by
  have key : ∀ v, settingOf f "workspaces_dir" = some v → expand home v ≠ "" →
      calls home (fresh f) [.main {}] = [some ⟨wantedFactory f {}, expand home v⟩] := by
    intro v hv hne
    rw [main_uses]
    simp only [mains, List.map_cons, List.map_nil, firstFiles]
    unfold wantedDir
    rw [hv]
    simp only [if_neg hne]
  refine ⟨fun h => ?_, fun h => ?_, fun h hd ht => ?_⟩
  · have e : expand home (.text "~") = home := by simp [expand]
    have := key _ h (by rw [e]; exact hh)
    rwa [e] at this
  · have e : expand home (.text ("~/" ++ d)) = home ++ "/" ++ d := by
      have h1 : "~/" ++ d ≠ "~" := by
        intro h
        have := congrArg String.toList h
        simp at this
      have h2 : ("~/" ++ d).startsWith "~/" = true := by
        rw [String.startsWith_string_iff]
        simp
      rw [expand, if_neg h1, if_pos h2]
      apply String.toList_injective
      simp
    have := key _ h (by
      rw [e]
      intro h
      have := congrArg String.toList h
      simp at this)
    rwa [e] at this
  · have e : expand home (.text d) = d := by
      have h1 : d ≠ "~" := by rintro rfl; simp at ht
      have h2 : ¬ d.startsWith "~/" = true := by
        rw [String.startsWith_string_iff]
        rintro ⟨t, h⟩
        rw [← h] at ht
        simp at ht
      rw [expand, if_neg h1, if_neg h2]
    have := key _ h (by rw [e]; exact hd)
    rwa [e] at this

/-- What is on the disk: for every directory that can be a workspaces directory, its content. -/
abbrev Store := String → FS

/-- A step of a user who uses both programs: a command line (in its own process, `cli/main.py:1257-1298`)
or a call of the web service (`webapi/main.py:38-46`). -/
inductive Step where
  | cli (c : Cmd)
  | web (c : WebCall)
  deriving DecidableEq, Repr

/-- The effect of a step, with the settings `f`. -/
def step (t : Templates) (home : String) (f : Files Value) (st : Store) : Step → Store
  | .cli c =>
    match calls home (fresh f) [.main {}] with
    | [some u] => Function.update st u.dir (cliSession t (st u.dir) [c])
    | _ => st
  | .web c => Function.update st (webDir home) (webSession t (st (webDir home)) [c])

/-- The effect of a step on one workspaces directory that both programs use. -/
def stepOn (t : Templates) (fs : FS) : Step → FS
  | .cli c => cliSession t fs [c]
  | .web c => webSession t fs [c]

/-- **C133, one set of workspaces** (`_partial`).  Without a setting of the workspaces directory, the
command line and the web service work on the same directory: any steps, in any order, have the effect
of the same steps on one directory, and nothing else changes.  Missing: the setting `workspaces_dir`,
see `programs_agree_violated`. -/
theorem programs_agree_partial (t : Templates) (home : String) (f : Files Value)
    (hf : ∀ v, settingOf f "workspaces_dir" = some v → expand home v = "" ∨
      expand home v = home ++ "/.dedop/workspaces") (st : Store) (steps : List Step) :
    steps.foldl (step t home f) st =
      Function.update st (home ++ "/.dedop/workspaces")
        (steps.foldl (stepOn t) (st (home ++ "/.dedop/workspaces"))) := by
  have hd : wantedDir home f {} = home ++ "/.dedop/workspaces" := by
    unfold wantedDir
    cases hs : settingOf f "workspaces_dir" with
    | none => rfl
    | some v =>
      rcases hf v hs with e | e
      · simp [e]
      · simp only [e]; split <;> rfl
  have hone : ∀ st s, step t home f st s =
      Function.update st (home ++ "/.dedop/workspaces") (stepOn t (st (home ++ "/.dedop/workspaces")) s) := by
    intro st s
    cases s with
    | web c => rfl
    | cli c =>
      unfold step
      rw [main_uses]
      simp only [mains, List.map_cons, List.map_nil, firstFiles, hd, stepOn]
  induction steps generalizing st with
  | nil => simp
  | cons s rest ih =>
    rw [List.foldl_cons, List.foldl_cons, hone, ih]
    simp

/-- Settings files with `workspaces_dir = '/data'`. -/
def dataSettings : Files Value where
  user := .good [("workspaces_dir", .text "/data")]
  loc := .missing
  createFails := false
  created := .missing

/-- **C133 violated: the web service ignores the setting.**  With `workspaces_dir` set, a workspace
made on the command line does not exist for the web service. -/
theorem programs_agree_violated :
    ∃ (t : Templates) (f : Files Value),
      wantedDir "/h" f {} = "/data" ∧
      (let st := [Step.cli (.ws (.add "a".toList))].foldl (step t "/h" f) (fun _ => [])
       workspaceNames (st "/data") = ["a".toList] ∧ workspaceNames (st (webDir "/h")) = []) := by
  refine ⟨⟨[], [], []⟩, dataSettings, by decide +kernel, ?_⟩
  have hd : wantedDir "/h" dataSettings {} = "/data" := by decide +kernel
  have hw : webDir "/h" = "/h/.dedop/workspaces" := by decide +kernel
  have hstep : [Step.cli (.ws (.add "a".toList))].foldl (step ⟨[], [], []⟩ "/h" dataSettings) (fun _ => []) =
      Function.update (fun _ => []) "/data" (cliSession ⟨[], [], []⟩ [] [.ws (.add "a".toList)]) := by
    simp only [List.foldl_cons, List.foldl_nil, step]
    rw [main_uses]
    simp only [mains, List.map_cons, List.map_nil, firstFiles, hd]
  rw [hstep, hw]
  constructor
  · rw [Function.update_self]; decide +kernel
  · rw [Function.update_of_ne (by decide)]; decide +kernel

/-- Non-vacuity of the hypothesis of `programs_agree_partial`. -/
example : ∀ v, settingOf ⟨.missing, .missing, false, .good []⟩ "workspaces_dir" = some v →
    expand "/h" v = "" ∨ expand "/h" v = "/h" ++ "/.dedop/workspaces" := by
  have : settingOf ⟨.missing, .missing, false, .good []⟩ "workspaces_dir" = none := by decide +kernel
  intro v hv; rw [this] at hv; cases hv

/-- Non-vacuity: three calls of `main` in a process, the settings changed before the second one. -/
example : calls "/h" (fresh ⟨.good [("workspaces_dir", .text "~/ws"), ("processor_factory", .callable 3)],
      .missing, false, .missing⟩)
    [.main {}, .change ⟨.missing, .missing, true, .missing⟩, .main { factory := some 1 }, .main { manager := some "/m" }] =
    [some ⟨.value (.callable 3), "/h/ws"⟩, some ⟨.given 1, "/h/ws"⟩, some ⟨.value (.callable 3), "/m"⟩] := by
  rw [main_uses]
  decide +kernel

example : settingOf ⟨.good [("workspaces_dir", .text "~/ws")], .missing, false, .missing⟩ "workspaces_dir" = some (.text ("~/" ++ "ws")) := by
  decide +kernel

/-! ## C134 -/

/-- The part of `main` of the web service before the server starts (`webapi/main.py:49-54`): `loc` is
the content of the location file (`conf/defaults.py:10`), `prefix` the directory of the running
environment (`sys.prefix`). -/
def writeLocation (loc : Option String) (pre : String) : Option String :=
  match loc with
  | some text => some text
  | none => some pre

/-- The location file after the service was started from some environments, one after the other. -/
def starts (loc : Option String) (prefixes : List String) : Option String :=
  prefixes.foldl writeLocation loc

/-- **C134** (`_partial`).  If the service is always started from the same environment, the location
file names this environment after every start.  Missing: a second environment, see
`location_violated`. -/
theorem location_partial (pre : String) (prefixes : List String) (hne : prefixes ≠ [])
    (h : ∀ p ∈ prefixes, p = pre) : starts none prefixes = some pre := by
  have keep : ∀ (l : List String) (x : String), starts (some x) l = some x := by
    intro l
    induction l with
    | nil => intro x; rfl
    | cons p l ih => intro x; exact ih x
  cases prefixes with
  | nil => exact absurd rfl hne
  | cons p l =>
    have : starts none (p :: l) = starts (some p) l := rfl
    rw [this, keep, h p (by simp)]

/-- **C134 violated.**  Once the file exists it is never changed: after a start from another
environment (of the same version) it still names the first one, for all environments. -/
theorem location_violated (first : String) (others : List String) (p : String) (hp : p ≠ first) :
    starts none (first :: others ++ [p]) ≠ some p := by
  have keep : ∀ (l : List String) (x : String), starts (some x) l = some x := by
    intro l
    induction l with
    | nil => intro x; rfl
    | cons p l ih => intro x; exact ih x
  have : starts none (first :: others ++ [p]) = starts (some first) (others ++ [p]) := rfl
  rw [this, keep]
  intro e
  exact hp (Option.some.inj e).symm

/-- What a start may leave that is killed: the file as it was, or the beginning of the text after it
has been created (`webapi/main.py:52-54`). -/
def killedStart (loc : Option String) (pre : String) : List (Option String) :=
  match loc with
  | some text => [some text]
  | none => none :: (List.range (pre.length + 1)).map (fun k => some (String.ofList (pre.toList.take k)))

/-- **C134 violated by an interruption.**  A first start killed after the file has been created leaves
an empty file, and no later start from the same environment, however often, changes that. -/
theorem location_interrupted_violated (pre : String) (hp : pre ≠ "") :
    ∃ loc ∈ killedStart none pre, ∀ n, starts loc (List.replicate n pre) ≠ some pre := by
  refine ⟨some "", ?_, ?_⟩
  · unfold killedStart
    refine List.mem_cons_of_mem _ (List.mem_map.mpr ⟨0, by simp, by simp⟩)
  · intro n
    have : starts (some "") (List.replicate n pre) = some "" := by
      induction n with
      | zero => rfl
      | succ n ih => exact ih
    rw [this]
    intro e
    exact hp (Option.some.inj e).symm

/-- Non-vacuity. -/
example : starts none ["/env1", "/env1", "/env1"] = some "/env1" := rfl

end Dedop.Main
