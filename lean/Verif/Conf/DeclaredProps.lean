import Verif.Conf.Declared
import Mathlib.Tactic.FinCases

/-!
# The declared parameters (theorems)

C101: the shipped files provide what the program declares.  C102: a parameter has the value that was written.
-/
namespace Dedop.Conf

/-! ## Specification -/

/-- What a value of a kind looks like to the program. -/
def Fits : Kind → Val → Prop
  | .any, _ => True
  | .float, v => ∃ q, v = .num q
  | .int, v => ∃ n, v = .int n
  | .bool, v => ∃ b, v = .bool b
  | .enum cls values, v => ∃ s ∈ values, v = .member cls s
  | .radians, v => ∃ q, v = .radians q
  | .array n, v => ∃ l, v = .list l ∧ l.length = n

/-- The parameter can be read from the file and, unless it is optional, has a value of its kind. -/
def Provides (T : Texts) (file : Json Val) (d : Decl) : Prop :=
  (∃ v, expected (some file) [] (d.param T) = .ok v) ∧
  (d.optional = false → ∃ v, expected (some file) [] (d.param T) = .ok (some v) ∧ Fits d.kind v)

/-- The value read says the same as the value written: the same number, truth value, text (as a member of the
enumeration), angle in degrees, or list. -/
def Same : Kind → Val → Val → Prop
  | .any, x, y => y = x
  | .float, x, y => ∃ q : ℚ, y = .num q ∧ (x = .num q ∨ ∃ n : Int, x = .int n ∧ q = n)
  | .int, x, y => ∃ n : Int, y = .int n ∧ (x = .int n ∨ x = .num n)
  | .bool, x, y => ∃ b, x = .bool b ∧ y = .bool b
  | .enum cls _, x, y => ∃ s, y = .member cls s ∧ x = .str s
  | .radians, x, y => ∃ q : ℚ, y = .radians q ∧ (x = .num q ∨ ∃ n : Int, x = .int n ∧ q = n)
  | .array _, x, y => ∃ l, x = .list l ∧ y = .list l

/-- Values a JSON file can hold. -/
def FromJson : Val → Prop
  | .radians _ => False
  | .member _ _ => False
  | _ => True

/-! ## Independence of reading numbers out of texts -/

/-- Reads no text as a number. -/
def noTexts : Texts := ⟨fun _ => none, fun _ => none⟩

theorem converted_indep (T : Texts) (d : Decl) (v : Option Val)
    (h : ∀ s, v = some (.str s) → d.kind ≠ .float ∧ d.kind ≠ .int) :
    converted (d.param T) v = converted (d.param noTexts) v := by
  cases v with
  | none => rfl
  | some x =>
    unfold converted Decl.param
    cases hk : d.kind <;> try rfl
    · cases x <;> first | rfl | exact absurd hk (h _ rfl).1
    · cases x <;> first | rfl | exact absurd hk (h _ rfl).2

/-- No number of the file is written as a text. -/
def plainNumbers (file : Json Val) (d : Decl) : Bool :=
  match d.kind, given (some file) [] d.name with
  | .float, some (some (.str _)) => false
  | .int, some (some (.str _)) => false
  | .float, none => d.default.isNone
  | .int, none => d.default.isNone
  | _, _ => true

theorem expected_indep (T : Texts) (file : Json Val) (d : Decl) (h : plainNumbers file d = true) :
    expected (some file) [] (d.param T) = expected (some file) [] (d.param noTexts) := by
  unfold plainNumbers at h
  unfold expected
  simp only [show ∀ T, (Decl.param T d).name = d.name from fun _ => rfl,
    show ∀ T, (Decl.param T d).optional = (d.optional || d.default.isSome) from fun _ => rfl,
    show ∀ T, (Decl.param T d).default = d.default from fun _ => rfl]
  cases hg : given (some file) [] d.name with
  | some v =>
    apply converted_indep
    rintro s rfl
    rw [hg] at h
    constructor <;> (intro hk; rw [hk] at h; simp at h)
  | none =>
    dsimp only
    split
    · show converted (d.param T) d.default = converted (d.param noTexts) d.default
      apply converted_indep
      intro s hs
      rw [hg] at h
      constructor <;> (intro hk; rw [hk, hs] at h; simp at h)
    · rfl

/-! ## C101 -/

theorem exists_ok {A : Type} (r : Except PyErr A) (h : r.toBool = true) : ∃ d, r = .ok d := by
  cases r with
  | error e => cases h
  | ok d => exact ⟨d, rfl⟩

/-- The test of `Provides` for the shipped files. -/
def provides (file : Json Val) (d : Decl) : Bool :=
  match expected (some file) [] (d.param noTexts) with
  | .error _ => false
  | .ok none => d.optional
  | .ok (some v) =>
    match d.kind, v with
    | .any, _ => true
    | .float, .num _ => true
    | .int, .int _ => true
    | .bool, .bool _ => true
    | .enum cls values, .member c s => c == cls && values.contains s
    | .radians, .radians _ => true
    | .array n, .list l => l.length == n
    | _, _ => false

theorem provides_sound (T : Texts) (file : Json Val) (d : Decl) (h : provides file d = true)
    (hp : plainNumbers file d = true) : Provides T file d := by
  unfold Provides
  rw [expected_indep T file d hp]
  unfold provides at h
  split at h
  · cases h
  · rename_i he
    exact ⟨⟨_, he⟩, fun ho => by rw [ho] at h; cases h⟩
  · rename_i v he
    refine ⟨⟨_, he⟩, fun _ => ⟨v, he, ?_⟩⟩
    revert h
    cases hk : d.kind <;> cases v <;> simp [Fits]
    rename_i cls values c s
    intro h1 h2
    exact ⟨h2, h1⟩

/-- The three parameters of the antenna pattern. -/
def antennaPattern : List String := ["antenna_weights", "antenna_angles", "antenna_angles_spacing"]

/-- **C101 (partial).**  Each of the shipped default files is accepted by its class and provides every declared
parameter, with a value of the declared kind, except the antenna pattern of the characterisation file. -/
theorem shipped_provides_partial (T : Texts) :
    (∃ d, create (declCHD.map (·.name)) versionCHD (some shippedCHD) [] = .ok d) ∧
    (∃ d, create (declCNF.map (·.name)) versionCNF (some shippedCNF) [] = .ok d) ∧
    (∃ d, create (declCST.map (·.name)) versionCST (some shippedCST) [] = .ok d) ∧
    (∀ d ∈ declCHD, d.attr ∉ antennaPattern → Provides T shippedCHD d) ∧
    (∀ d ∈ declCNF, Provides T shippedCNF d) ∧ ∀ d ∈ declCST, Provides T shippedCST d := by
  refine ⟨?_, ?_, ?_, ?_, ?_, ?_⟩
  · exact exists_ok _ (by decide +kernel)
  · exact exists_ok _ (by decide +kernel)
  · exact exists_ok _ (by decide +kernel)
  · intro d hd ha
    have h : ∀ d ∈ declCHD, d.attr ∉ antennaPattern → provides shippedCHD d = true ∧ plainNumbers shippedCHD d = true := by
      decide +kernel
    exact provides_sound T _ d (h d hd ha).1 (h d hd ha).2
  · intro d hd
    have h : ∀ d ∈ declCNF, provides shippedCNF d = true ∧ plainNumbers shippedCNF d = true := by decide +kernel
    exact provides_sound T _ d (h d hd).1 (h d hd).2
  · intro d hd
    have h : ∀ d ∈ declCST, provides shippedCST d = true ∧ plainNumbers shippedCST d = true := by decide +kernel
    exact provides_sound T _ d (h d hd).1 (h d hd).2

/-- **C101 is violated** for the antenna pattern: with the shipped characterisation file each of its three parameters
is missing, in every history of reads, so that an algorithm that reads it fails. -/
theorem antenna_pattern_violated (T : Texts) (d : Decl) (hd : d ∈ declCHD) (ha : d.attr ∈ antennaPattern) :
    expected (some shippedCHD) [] (d.param T) = .error missing := by
  have h : ∀ d ∈ declCHD, d.attr ∈ antennaPattern → plainNumbers shippedCHD d = true ∧
      expected (some shippedCHD) [] (d.param noTexts) = .error missing := by decide +kernel
  rw [expected_indep T _ d (h d hd ha).1]
  exact (h d hd ha).2

/-- **C101 is violated** for the CryoSat template: its characterisation file is not accepted by the class that reads
it, until it is upgraded. -/
theorem cryosat_rejected_violated :
    create (declCHD.map (·.name)) versionCHD (some cryosatCHD) [] = .error incompatible :=
  (other_version_rejected _ _ _ _).1 0 rfl (by decide)

/-- Its other two files are accepted and complete. -/
theorem cryosat_others (T : Texts) :
    (∃ d, create (declCNF.map (·.name)) versionCNF (some cryosatCNF) [] = .ok d) ∧
    (∃ d, create (declCST.map (·.name)) versionCST (some cryosatCST) [] = .ok d) ∧
    (∀ d ∈ declCNF, Provides T cryosatCNF d) ∧ ∀ d ∈ declCST, Provides T cryosatCST d := by
  refine ⟨?_, ?_, ?_, ?_⟩
  · exact exists_ok _ (by decide +kernel)
  · exact exists_ok _ (by decide +kernel)
  · intro d hd
    have h : ∀ d ∈ declCNF, provides cryosatCNF d = true ∧ plainNumbers cryosatCNF d = true := by decide +kernel
    exact provides_sound T _ d (h d hd).1 (h d hd).2
  · intro d hd
    have h : ∀ d ∈ declCST, provides cryosatCST d = true ∧ plainNumbers cryosatCST d = true := by decide +kernel
    exact provides_sound T _ d (h d hd).1 (h d hd).2

/-! ## C102 -/

/-- **C102, exactly.**  For a value a JSON file can hold, the value read says the same as the value written, except in
these cases: a truth value given for a number or angle; a text given for a number; anything but a truth value given
for a switch; a number with a fraction given for an integer; a single number given for a list of length one. -/
theorem value_same_iff (T : Texts) (d : Decl) (x y : Val) (hx : FromJson x)
    (h : converted (d.param T) (some x) = .ok (some y)) :
    Same d.kind x y ↔
      ¬ ((∃ b, x = .bool b) ∧ (d.kind = .float ∨ d.kind = .int ∨ d.kind = .radians) ∨
         (∃ s, x = .str s) ∧ (d.kind = .float ∨ d.kind = .int) ∨
         (¬ ∃ b, x = .bool b) ∧ d.kind = .bool ∨
         (∃ q : ℚ, x = .num q ∧ ¬ ∃ n : Int, q = n) ∧ d.kind = .int ∨
         (¬ ∃ l, x = .list l) ∧ d.kind = .array 1) := by
  unfold converted Decl.param at h
  cases hk : d.kind with
  | any =>
    rw [hk] at h
    simp [Kind.cast, Kind.type] at h
    simp [Same, h]
  | float =>
    rw [hk] at h
    cases x <;> simp [Kind.cast, Kind.type, castFloat, FromJson, isFloat, Kind.isArray] at h hx
    · subst h; simp [Same]
    · subst h; simp [Same]
    · subst h; simp [Same]
    · simp [Same]
  | int =>
    rw [hk] at h
    cases x <;> simp [Kind.cast, Kind.type, castInt, FromJson, isInt, Kind.isArray] at h hx
    · subst h; simp [Same]
    · subst h; simp [Same]
    · rename_i q
      subst h
      simp only [Same]
      constructor
      · rintro ⟨n, h1, h2⟩
        simp at h2 ⊢
        exact ⟨n, h2⟩
      · intro hn
        simp at hn
        obtain ⟨n, rfl⟩ := hn
        refine ⟨n, ?_, by simp⟩
        simp
    · simp [Same]
  | bool =>
    rw [hk] at h
    cases x <;> simp [Kind.cast, Kind.type, castBool, FromJson, isBool, Kind.isArray] at h hx
    · subst h; simp [Same]
    all_goals simp [Same]
  | enum cls values =>
    rw [hk] at h
    cases x <;> simp [Kind.cast, Kind.type, castEnum, FromJson, isEnum, Kind.isArray] at h hx
    rename_i s
    by_cases hs : s ∈ values
    · simp [hs] at h
      subst h; simp [Same]
    · simp [hs] at h
  | radians =>
    rw [hk] at h
    cases x <;> simp [Kind.cast, Kind.type, castRadians, FromJson, Kind.isArray] at h hx
    · subst h; simp [Same]
    · subst h; simp [Same]
    · subst h; simp [Same]
  | array n =>
    rw [hk] at h
    cases x <;> simp [Kind.cast, Kind.type, castArray, FromJson, Kind.isArray] at h hx
    · by_cases hn : n = 1
      · simp [hn] at h; subst h; simp [Same, hn]
      · simp [hn] at h
    · by_cases hn : n = 1
      · simp [hn] at h; subst h; simp [Same, hn]
      · simp [hn] at h
    · by_cases hn : n = 1
      · simp [hn] at h; subst h; simp [Same, hn]
      · simp [hn] at h
    · rename_i l
      by_cases hn : l.length = n
      · simp [hn] at h; subst h; simp [Same]
      · simp [hn] at h

/-- **C102 is violated.**  A switch written as the text "false" is read as true, and 2.5 written for an integer is read
as 2; neither is rejected. -/
theorem value_violated (T : Texts) :
    ∃ d ∈ declCNF, ∃ x y, FromJson x ∧ converted (d.param T) (some x) = .ok (some y) ∧ ¬ Same d.kind x y ∧
      (x = .str "false" ∧ y = .bool true) := by
  refine ⟨_, List.mem_iff_get.2 ⟨⟨5, by decide⟩, rfl⟩, .str "false", .bool true, trivial, ?_, ?_, rfl, rfl⟩
  · rfl
  · rintro ⟨b, h, -⟩; cases h

/-- The same for the index of a calibration table: 2.5 is taken as 2. -/
theorem fraction_violated (T : Texts) :
    ∃ d ∈ declCNF, d.attr = "flag_cal2_table_index" ∧
      converted (d.param T) (some (.num (5 / 2))) = .ok (some (.int 2)) := by
  refine ⟨_, List.mem_iff_get.2 ⟨⟨2, by decide⟩, rfl⟩, rfl, ?_⟩
  have : converted ({ attr := "flag_cal2_table_index", name := "flag_cal2_table_index_cnf", kind := .int : Decl}.param noTexts)
    (some (.num (5 / 2))) = .ok (some (.int 2)) := by decide +kernel
  rw [← this]
  rfl

/-- **C102, rejected values.**  What cannot be a value of the kind is rejected: text or list for an angle, an unknown
name for an enumeration, a list of another length. -/
theorem wrong_values_rejected (T : Texts) (d : Decl) :
    (∀ s, d.kind = .radians → ∃ e, converted (d.param T) (some (.str s)) = .error e) ∧
    (∀ l, d.kind = .radians ∨ d.kind = .float ∨ d.kind = .int → ∃ e, converted (d.param T) (some (.list l)) = .error e) ∧
    (∀ cls values s, d.kind = .enum cls values → s ∉ values → ∃ e, converted (d.param T) (some (.str s)) = .error e) ∧
    (∀ n l, d.kind = .array n → l.length ≠ n → ∃ e, converted (d.param T) (some (.list l)) = .error e) := by
  unfold converted Decl.param
  refine ⟨?_, ?_, ?_, ?_⟩
  · intro s hk; exact ⟨_, by rw [hk]; rfl⟩
  · rintro l (hk | hk | hk) <;> exact ⟨_, by rw [hk]; rfl⟩
  · intro cls values s hk hs
    refine ⟨.valueError, ?_⟩
    rw [hk]
    simp [Kind.cast, castEnum, hs]
  · intro n l hk hl
    refine ⟨.valueError, ?_⟩
    rw [hk]
    simp [Kind.cast, castArray, hl]

example : Same .radians (.int 45) (.radians 45) := ⟨45, rfl, .inr ⟨45, rfl, by norm_num⟩⟩

example : converted ((declCNF[11]'(by decide)).param noTexts) (some (.str "hanning")) =
    .ok (some (.member "AzimuthWindowingMethod" "hanning")) := by decide +kernel

end Dedop.Conf
