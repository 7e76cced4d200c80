import Verif.Basic.Dict
import Verif.Basic.Tactics

/-!
# Parameters of the algorithms

Models the decorator class `Parameter` (`/repo/dedop/util/parameter.py`) and the way an algorithm takes
its parameters from the configuration (`/repo/dedop/proc/sar/base_algorithm.py`).

Simplification: classes have one base class (all classes of the repository that use the decorator do),
so a class is the list of its ancestors, itself first and `object` left out, each with the dictionary
`parameters` of its own namespace (`none`: it has none).
-/
namespace Dedop.Util

variable {V : Type}

/-- `Parameter.__init__` (`parameter.py:6-38`): the fields used when an algorithm is made.  `none` is
`None`. -/
structure Par (V : Type) where
  name : String
  default : Option V
  valueSet : Option V
  deriving DecidableEq

/-- The dictionary `parameters` of one class. -/
abbrev Own (V : Type) := Option (Dict String (Par V))

/-- `Parameter.__call__` (`parameter.py:53-57`): decorating a class. -/
def decorate (own : Own V) (p : Par V) : Own V :=
  match own with
  | none => some (Dict.set [] p.name p)
  | some d => some (d.set p.name p)

/-- A class statement with its decorators, in the order in which they are applied (the lowest first). -/
def classOf (decorators : List (Par V)) : Own V :=
  decorators.foldl decorate none

/-- The attribute `parameters` of a class: its own or the one of the nearest ancestor that has one
(`hasattr`/attribute access, `parameter.py:61`, `85`). -/
def attr : List (Own V) → Own V
  | [] => none
  | some d :: _ => some d
  | none :: bases => attr bases

/-- `Parameter.get_parameter` (`parameter.py:59-67`). -/
def getParameter (name : String) : List (Own V) → Option (Par V)
  | [] => none
  | c :: bases =>
    match attr (c :: bases) with
    | some d =>
      match d.get? name with
      | some p => some p
      | none => getParameter name bases
    | none => getParameter name bases

/-- `dict.update`. -/
def update (d e : Dict String (Par V)) : Dict String (Par V) :=
  e.foldl (fun d kv => d.set kv.1 kv.2) d

/-- `Parameter._collect_parameters_from_class` (`parameter.py:78-85`). -/
def collect (ps : Dict String (Par V)) : List (Own V) → Dict String (Par V)
  | [] => ps
  | c :: bases =>
    let ps := collect ps bases
    match attr (c :: bases) with
    | some d => update ps d
    | none => ps

/-- `Parameter.get_parameters` (`parameter.py:69-79`). -/
def getParameters (clazz : List (Own V)) : Dict String (Par V) := collect [] clazz

/-- One turn of the loop of `collect_parameter_values` (`base_algorithm.py:29-39`); `cnf` gives, for a
name, what `getattr(self.cnf, name)` returns or raises. -/
def takeValue (cnf : String → Except PyErr (Option V)) (self : Dict String (Option V)) (p : Par V) :
    Dict String (Option V) :=
  let self := match p.valueSet with
    | some v => self.set p.name (some v)
    | none => self
  match cnf p.name with
  | .ok v => self.set p.name v
  | .error _ => self.set p.name p.default

/-- `BaseAlgorithm.__init__` and `collect_parameter_values` (`base_algorithm.py:16-39`): the attributes
of a new algorithm. `self` holds the attributes set before (`chd`, `cst`, `cnf`).  As in the program
there is no way for this to fail. -/
def newAlgorithm (cnf : String → Except PyErr (Option V)) (self : Dict String (Option V))
    (clazz : List (Own V)) : Except PyErr (Dict String (Option V)) :=
  .ok (((getParameters clazz).map (·.2)).foldl (takeValue cnf) self)

/-! ## Specification -/

/-- The declaration of a parameter that counts for a class, given the decorators of the class and of its
ancestors (itself first): the one nearest to the class, and of several in the same class the one written
on top (the last applied). -/
def nearest (decorators : List (List (Par V))) (name : String) : Option (Par V) :=
  (decorators.flatMap List.reverse).find? (fun p => p.name == name)

/-! ## Lemmas -/

/-- A dictionary of declarations whose keys are the names of the declarations, each key once. -/
structure Good (d : Dict String (Par V)) : Prop where
  named : ∀ kv ∈ d, kv.1 = kv.2.name
  nodup : (d.map (·.1)).Nodup

theorem mem_set {K W : Type} [DecidableEq K] (d : Dict K W) (k : K) (v : W) (kv : K × W)
    (h : kv ∈ d.set k v) : kv = (k, v) ∨ kv ∈ d := by
  induction d with
  | nil => simpa [Dict.set] using h
  | cons a t ih =>
    obtain ⟨k', v'⟩ := a
    simp only [Dict.set] at h
    split at h
    · rename_i e; subst e
      rcases List.mem_cons.1 h with h | h
      · exact .inl h
      · exact .inr (List.mem_cons_of_mem _ h)
    · rcases List.mem_cons.1 h with h | h
      · exact .inr (h ▸ List.mem_cons_self)
      · rcases ih h with h | h
        · exact .inl h
        · exact .inr (List.mem_cons_of_mem _ h)

theorem keys_set {K W : Type} [DecidableEq K] (d : Dict K W) (k : K) (v : W) :
    (d.set k v).map (·.1) = if k ∈ d.map (·.1) then d.map (·.1) else d.map (·.1) ++ [k] := by
  induction d with
  | nil => simp [Dict.set]
  | cons a t ih =>
    obtain ⟨k', v'⟩ := a
    simp only [Dict.set]
    by_cases e : k = k'
    · simp [e]
    · rw [if_neg e]
      simp only [List.map_cons, ih, List.mem_cons, e, false_or]
      split <;> simp

theorem good_nil : Good ([] : Dict String (Par V)) := ⟨by simp, by simp⟩

theorem good_set (d : Dict String (Par V)) (hd : Good d) (p : Par V) : Good (d.set p.name p) := by
  refine ⟨fun kv h => ?_, ?_⟩
  · rcases mem_set _ _ _ _ h with h | h
    · rw [h]
    · exact hd.named _ h
  · rw [keys_set]
    split
    · exact hd.nodup
    · rename_i h
      exact List.nodup_append.2 ⟨hd.nodup, by simp, by
        intro a ha b hb; simp only [List.mem_singleton] at hb; rintro rfl; exact h (hb ▸ ha)⟩

theorem get?_of_mem {K W : Type} [DecidableEq K] (d : Dict K W) (hd : (d.map (·.1)).Nodup) (kv : K × W)
    (h : kv ∈ d) : d.get? kv.1 = some kv.2 := by
  induction d with
  | nil => cases h
  | cons a t ih =>
    obtain ⟨k', v'⟩ := a
    simp only [List.map_cons, List.nodup_cons] at hd
    simp only [Dict.get?]
    rcases List.mem_cons.1 h with h | h
    · subst h; simp
    · have hne : ¬ kv.1 = k' := fun e => hd.1 (e ▸ List.mem_map_of_mem (f := (·.1)) h)
      rw [if_neg hne, ih hd.2 h]

theorem mem_of_get? {K W : Type} [DecidableEq K] (d : Dict K W) (k : K) (v : W)
    (h : d.get? k = some v) : (k, v) ∈ d := by
  induction d with
  | nil => cases h
  | cons a t ih =>
    obtain ⟨k', v'⟩ := a
    simp only [Dict.get?] at h
    split at h
    · rename_i e; subst e
      injection h with h; subst h; exact List.mem_cons_self
    · exact List.mem_cons_of_mem _ (ih h)

theorem good_update (d e : Dict String (Par V)) (hd : Good d) (he : ∀ kv ∈ e, kv.1 = kv.2.name) :
    Good (update d e) := by
  unfold update
  induction e generalizing d with
  | nil => exact hd
  | cons a t ih =>
    have := good_set d hd a.2
    rw [← he a List.mem_cons_self] at this
    exact ih _ this (fun kv h => he kv (List.mem_cons_of_mem _ h))

theorem get?_update (d e : Dict String (Par V)) (he : (e.map (·.1)).Nodup) (n : String) :
    (update d e).get? n = (e.get? n).or (d.get? n) := by
  unfold update
  induction e generalizing d with
  | nil => rfl
  | cons a t ih =>
    simp only [List.map_cons, List.nodup_cons] at he
    rw [List.foldl_cons, ih _ he.2, Dict.get?_set]
    obtain ⟨k, v⟩ := a
    simp only [Dict.get?]
    by_cases h : n = k
    · subst h
      rw [if_pos rfl, if_pos rfl]
      cases e : Dict.get? t n with
      | none => rfl
      | some w => exact absurd (List.mem_map_of_mem (f := (·.1)) (mem_of_get? _ _ _ e)) he.1
    · rw [if_neg h, if_neg h]

/-- What decorating does to the dictionary of a class. -/
theorem classOf_spec (ps : List (Par V)) (own : Own V) (hown : ∀ d, own = some d → Good d) :
    (∀ d, ps.foldl decorate own = some d → Good d) ∧
    (ps.foldl decorate own = none ↔ own = none ∧ ps = []) ∧
    ∀ n, ((ps.foldl decorate own).getD []).get? n =
      (ps.reverse.find? (fun p => p.name == n)).or ((own.getD []).get? n) := by
  induction ps generalizing own with
  | nil => exact ⟨hown, by simp, fun n => rfl⟩
  | cons p t ih =>
    have hg : ∀ d, decorate own p = some d → Good d := by
      intro d h
      cases own with
      | none => injection h with h; subst h; exact good_set _ good_nil p
      | some e => injection h with h; subst h; exact good_set _ (hown e rfl) p
    obtain ⟨h1, h2, h3⟩ := ih (decorate own p) hg
    refine ⟨h1, ?_, fun n => ?_⟩
    · rw [List.foldl_cons, h2]
      cases own <;> simp [decorate]
    · rw [List.foldl_cons, h3, List.reverse_cons, List.find?_append]
      have : ((decorate own p).getD []).get? n =
          (List.find? (fun p => p.name == n) [p]).or ((own.getD []).get? n) := by
        have e : (decorate own p).getD [] = (own.getD []).set p.name p := by cases own <;> rfl
        rw [e, Dict.get?_set]
        by_cases h : n = p.name
        · simp [h]
        · have : ¬ p.name = n := fun e => h e.symm
          simp [h, this]
      rw [this, Option.or_assoc]

theorem classOf_get (ps : List (Par V)) (n : String) :
    ((classOf ps).getD []).get? n = ps.reverse.find? (fun p => p.name == n) := by
  have := (classOf_spec ps none (by simp)).2.2 n
  simpa [Dict.get?, classOf] using this

theorem attr_eq (c : Own V) (bases : List (Own V)) :
    attr (c :: bases) = c.or (attr bases) := by
  cases c <;> rfl

theorem attr_get (decorators : List (List (Par V))) (d : Dict String (Par V))
    (h : attr (decorators.map classOf) = some d) :
    Good d ∧ ∀ n p, d.get? n = some p → nearest decorators n = some p := by
  induction decorators with
  | nil => cases h
  | cons ps rest ih =>
    rw [List.map_cons, attr_eq] at h
    have hs := classOf_spec ps none (by simp)
    cases e : classOf ps with
    | some d' =>
      rw [e] at h
      injection h with h; subst h
      refine ⟨hs.1 _ e, fun n p hp => ?_⟩
      have := classOf_get ps n
      rw [e] at this
      simp only [Option.getD_some] at this
      rw [nearest, List.flatMap_cons, List.find?_append, ← this, hp]; rfl
    | none =>
      rw [e] at h
      have hps : ps = [] := (hs.2.1.1 e).2
      subst hps
      exact ih h

theorem nearest_cons (ps : List (Par V)) (rest : List (List (Par V))) (n : String) :
    nearest (ps :: rest) n = (((classOf ps).getD []).get? n).or (nearest rest n) := by
  rw [nearest, List.flatMap_cons, List.find?_append, classOf_get]; rfl

theorem getParameters_good (decorators : List (List (Par V))) :
    Good (getParameters (decorators.map classOf)) := by
  unfold getParameters
  induction decorators with
  | nil => exact good_nil
  | cons ps rest ih =>
    simp only [List.map_cons, collect]
    split
    · rename_i d h
      exact good_update _ _ ih (attr_get (ps :: rest) d h).1.named
    · exact ih

/-! ## Properties -/

/-- **C90** (which declaration counts).  `Parameter.get_parameter` and the collected dictionary agree:
both give the nearest declaration. -/
theorem parameters_nearest (decorators : List (List (Par V))) (name : String) :
    (getParameters (decorators.map classOf)).get? name = nearest decorators name ∧
    getParameter name (decorators.map classOf) = nearest decorators name := by
  unfold getParameters
  induction decorators with
  | nil => exact ⟨rfl, rfl⟩
  | cons ps rest ih =>
    have key : ∀ d, attr ((ps :: rest).map classOf) = some d →
        (d.get? name).or (nearest rest name) = nearest (ps :: rest) name := by
      intro d h
      cases e : d.get? name with
      | some p => rw [(attr_get _ d h).2 name p e]; rfl
      | none =>
        rw [nearest_cons]
        cases e' : classOf ps with
        | none => rfl
        | some d' =>
          rw [List.map_cons, attr_eq, e'] at h
          injection h with h; subst h
          simp only [Option.getD_some, e]
    have none_case : attr ((ps :: rest).map classOf) = none →
        nearest (ps :: rest) name = nearest rest name := by
      intro h
      rw [List.map_cons, attr_eq] at h
      rw [nearest_cons]
      cases e' : classOf ps with
      | none => rfl
      | some d' => rw [e'] at h; cases h
    constructor
    · simp only [List.map_cons, collect]
      split
      · rename_i d h
        rw [get?_update _ _ (attr_get (ps :: rest) d h).1.nodup, ih.1]
        exact key d h
      · rename_i h
        rw [ih.1]; exact (none_case h).symm
    · simp only [List.map_cons, getParameter]
      split
      · rename_i d h
        rw [← key d h]
        split
        · rename_i p hp; rw [hp]; rfl
        · rename_i hp; rw [hp, ih.2]; rfl
      · rename_i h
        rw [ih.2]; exact (none_case h).symm

theorem get?_takeValue (cnf : String → Except PyErr (Option V)) (self : Dict String (Option V))
    (p : Par V) (n : String) :
    (takeValue cnf self p).get? n = if n = p.name then
      (match cnf p.name with | .ok v => some v | .error _ => some p.default) else self.get? n := by
  unfold takeValue
  cases cnf p.name <;> cases p.valueSet <;> simp only [Dict.get?_set] <;> split <;> rfl

theorem foldl_takeValue (cnf : String → Except PyErr (Option V)) (d : Dict String (Par V))
    (hd : Good d) (self : Dict String (Option V)) (n : String) :
    ((d.map (·.2)).foldl (takeValue cnf) self).get? n =
      match d.get? n with
      | some p => (match cnf n with | .ok v => some v | .error _ => some p.default)
      | none => self.get? n := by
  induction d generalizing self with
  | nil => rfl
  | cons a t ih =>
    obtain ⟨k, p⟩ := a
    have hk : k = p.name := hd.named (k, p) List.mem_cons_self
    have hn := hd.nodup
    simp only [List.map_cons, List.nodup_cons] at hn
    have ht : Good t := ⟨fun kv h => hd.named kv (List.mem_cons_of_mem _ h), hn.2⟩
    rw [List.map_cons, List.foldl_cons, ih ht]
    simp only [Dict.get?]
    by_cases h : n = k
    · subst h
      have : Dict.get? t n = none := by
        cases e : Dict.get? t n with
        | none => rfl
        | some w => exact absurd (List.mem_map_of_mem (f := (·.1)) (mem_of_get? _ _ _ e)) hn.1
      rw [this, if_pos rfl, get?_takeValue, if_pos hk, ← hk]
    · rw [if_neg h]
      split
      · rfl
      · rw [get?_takeValue, if_neg (by rw [← hk]; exact h)]

/-- **C90** (values of the parameters).  A new algorithm has, for every parameter declared by its class
or an ancestor, the value of the configuration if it can be read there, else the default of the nearest
declaration; its other attributes are not touched. -/
theorem algorithm_values (cnf : String → Except PyErr (Option V)) (self : Dict String (Option V))
    (decorators : List (List (Par V))) :
    ∃ attrs, newAlgorithm cnf self (decorators.map classOf) = .ok attrs ∧
      (∀ n p v, nearest decorators n = some p → cnf n = .ok v → attrs.get? n = some v) ∧
      (∀ n p e, nearest decorators n = some p → cnf n = .error e → attrs.get? n = some p.default) ∧
      (∀ n, nearest decorators n = none → attrs.get? n = self.get? n) := by
  refine ⟨_, rfl, ?_, ?_, ?_⟩ <;> intro n
  · intro p v hp hv
    rw [foldl_takeValue _ _ (getParameters_good _), (parameters_nearest _ _).1, hp, hv]
  · intro p e hp hv
    rw [foldl_takeValue _ _ (getParameters_good _), (parameters_nearest _ _).1, hp, hv]
  · intro hp
    rw [foldl_takeValue _ _ (getParameters_good _), (parameters_nearest _ _).1, hp]

/-- The full claim about unreadable values: a declared parameter without default whose value cannot be
read (it is missing, or has the wrong type) is reported when the algorithm is made. -/
def ReportsUnreadable (V : Type) : Prop :=
  ∀ (cnf : String → Except PyErr (Option V)) (self : Dict String (Option V))
    (decorators : List (List (Par V))) (n : String) (p : Par V) (e : PyErr),
    nearest decorators n = some p → p.default = none → cnf n = .error e →
      ∃ e', newAlgorithm cnf self (decorators.map classOf) = .error e'

/-- **C90** (violated part).  No unreadable value is ever reported: the parameter silently becomes
`None`. -/
theorem unreadable_silent_violated (cnf : String → Except PyErr (Option V))
    (self : Dict String (Option V)) (decorators : List (List (Par V))) (n : String) (p : Par V)
    (e : PyErr) (hp : nearest decorators n = some p) (hd : p.default = none) (hc : cnf n = .error e) :
    ∃ attrs, newAlgorithm cnf self (decorators.map classOf) = .ok attrs ∧
      attrs.get? n = some none := by
  obtain ⟨attrs, h, _, h2, _⟩ := algorithm_values cnf self decorators
  exact ⟨attrs, h, by rw [h2 n p e hp hc, hd]⟩

theorem reportsUnreadable_false (V : Type) : ¬ ReportsUnreadable V := by
  intro h
  obtain ⟨e', he⟩ := h (fun _ => .error .typeError) [] [[⟨"flag_stack_masking", none, none⟩]]
    "flag_stack_masking" ⟨"flag_stack_masking", none, none⟩ .typeError (by simp [nearest]) rfl rfl
  cases he

/-- The classes of a program: for every class its ancestors (itself first) and what each has in its own
namespace. Decorating class `c` changes the namespace of `c` only. -/
def decorateAt (heap : Nat → Own V) (c : Nat) (p : Par V) : Nat → Own V :=
  fun k => if k = c then decorate (heap k) p else heap k

/-- **C90** (no leaks between algorithms).  Declaring a parameter for one class leaves every class that is
not derived from it as it was. -/
theorem declaration_local (heap : Nat → Own V) (c : Nat) (p : Par V) (ancestors : List Nat)
    (h : c ∉ ancestors) :
    getParameters (ancestors.map (decorateAt heap c p)) = getParameters (ancestors.map heap) := by
  congr 1
  refine List.map_congr_left fun k hk => ?_
  have hne : ¬ k = c := fun e => h (e ▸ hk)
  rw [decorateAt, if_neg hne]

/-- … and every class derived from it (or itself) that does not declare the name nearer gets it. -/
theorem declaration_inherited (near : List (List (Par V))) (ps : List (Par V))
    (far : List (List (Par V))) (p : Par V) (h : ∀ qs ∈ near, ∀ q ∈ qs, q.name ≠ p.name) :
    (getParameters ((near ++ (ps ++ [p]) :: far).map classOf)).get? p.name = some p := by
  rw [(parameters_nearest _ _).1]
  induction near with
  | nil => simp [nearest]
  | cons qs rest ih =>
    rw [List.cons_append, nearest_cons, classOf_get]
    have : qs.reverse.find? (fun q => q.name == p.name) = none := by
      rw [List.find?_eq_none]
      intro q hq
      simpa using h qs List.mem_cons_self q (List.mem_reverse.1 hq)
    rw [this, Option.none_or]
    exact ih (fun qs hqs => h qs (List.mem_cons_of_mem _ hqs))

/-! ## The shipped algorithms -/

/-- The decorators of `BaseAlgorithm` (`base_algorithm.py:5-6`), in the order of application. -/
def baseDecorators : List (Par Int) := [⟨"zp_fact_range", none, none⟩, ⟨"n_looks_stack", none, none⟩]

/-- The decorators of the algorithm classes (`geometry_corrections.py:11-13`,
`azimuth_processing.py:12`, `multilooking.py:42`, `stack_masking.py:9`); the other algorithms have none.
`True` is 1, `False` 0. -/
def shipped : List (String × List (Par Int)) :=
  [("GeometryCorrectionsAlgorithm", [⟨"flag_window_delay_alignment_method", some 0, none⟩,
      ⟨"flag_slant_range_correction", some 1, none⟩, ⟨"flag_doppler_range_correction", some 1, none⟩]),
   ("AzimuthProcessingAlgorithm", [⟨"flag_azimuth_processing_method", none, none⟩]),
   ("MultilookingAlgorithm", [⟨"flag_avoid_zeros_in_multilooking", some 0, none⟩]),
   ("StackMaskingAlgorithm", [⟨"flag_stack_masking", none, none⟩]),
   ("StackGatheringAlgorithm", [])]

/-- The attributes of `ConfigurationFile` that are parameters (`configuration.py:18-90`). -/
def configAttributes : List String :=
  ["flag_cal2_correction", "flag_uso_correction", "flag_cal2_table_index", "flag_cal1_corrections",
   "flag_cal1_intraburst_corrections", "flag_surface_focusing", "surface_focusing_lat",
   "surface_focusing_lon", "surface_focusing_alt", "flag_azimuth_processing_method",
   "flag_postphase_azimuth_processing", "flag_azimuth_windowing_method", "azimuth_window_width",
   "flag_doppler_range_correction", "flag_slant_range_correction",
   "flag_window_delay_alignment_method", "flag_stack_masking", "flag_avoid_zeros_in_multilooking",
   "flag_surface_weighting", "flag_antenna_weighting", "zp_fact_range", "n_looks_stack", "min_lat",
   "max_lat", "min_lon", "max_lon", "output_format"]

/-- **C90** (the shipped algorithms).  Every parameter an algorithm of the chain declares or inherits is a
parameter of the configuration file, so it is never constantly at its default because of a misspelt
name. -/
theorem shipped_names_known : ∀ a ∈ shipped, ∀ p ∈ (getParameters ([a.2, baseDecorators].map classOf)),
    p.1 ∈ configAttributes := by
  decide +kernel

/-- Non-vacuity: the geometry corrections with a configuration that switches the slant range correction
off and has no entry for the Doppler one. -/
example :
    let cnf : String → Except PyErr (Option Int) := fun n =>
      if n = "flag_slant_range_correction" then .ok (some 0)
      else if n = "n_looks_stack" then .ok (some 240)
      else .error (.other "MissingParameterError")
    newAlgorithm cnf [] ([(shipped.head!).2, baseDecorators].map classOf) = .ok
      [("zp_fact_range", none), ("n_looks_stack", some 240),
       ("flag_window_delay_alignment_method", some 0), ("flag_slant_range_correction", some 0),
       ("flag_doppler_range_correction", some 1)] := by
  decide +kernel

/-- … a class that declares a parameter of its base again. -/
example : nearest [[⟨"a", some 1, none⟩, ⟨"a", some 2, none⟩], [⟨"a", some (3 : Int), none⟩]] "a"
    = some ⟨"a", some 2, none⟩ := by decide +kernel

end Dedop.Util
