import Verif.Conf.DeclaredProps

/-!
# What a value of another type is read as (C102)
-/
namespace Dedop.Conf

/-! ## Specification -/

/-- The number a value stands for: truth values count as 1 and 0. -/
inductive Number : Val → ℚ → Prop
  | yes : Number (.bool true) 1
  | no : Number (.bool false) 0
  | int (n : Int) : Number (.int n) n
  | num (q : ℚ) : Number (.num q) q

/-- The number without its fraction. -/
def WholePart (q : ℚ) (n : Int) : Prop := |(n : ℚ)| ≤ |q| ∧ |q| < |(n : ℚ)| + 1 ∧ 0 ≤ q * n

/-- Zero, the empty text and the empty list. -/
def Nothing (x : Val) : Prop := Number x 0 ∨ x = .str "" ∨ x = .list []

/-- What a value is read as. -/
def ReadAs (T : Texts) : Kind → Val → Val → Prop
  | .any, x, y => y = x
  | .float, x, y => ∃ q, y = .num q ∧ (Number x q ∨ ∃ s, x = .str s ∧ T.float s = some q)
  | .int, x, y => ∃ n, y = .int n ∧ ((∃ q, Number x q ∧ WholePart q n) ∨ ∃ s, x = .str s ∧ T.int s = some n)
  | .bool, x, y => ∃ b, y = .bool b ∧ (b = false ↔ Nothing x)
  | .enum cls values, x, y => ∃ s ∈ values, y = .member cls s ∧ x = .str s
  | .radians, x, y => ∃ q, y = .radians q ∧ Number x q
  | .array n, x, y => ∃ l, y = .list l ∧ l.length = n ∧ (x = .list l ∨ ∃ q, Number x q ∧ l = [q])

/-! ## C102 -/

theorem number_bool (b : Bool) : Number (.bool b) (if b then 1 else 0) := by
  cases b
  · exact .no
  · exact .yes

theorem number_unique {x : Val} {q r : ℚ} (h1 : Number x q) (h2 : Number x r) : q = r := by
  cases h1 <;> cases h2 <;> rfl

theorem whole_int (n : Int) : WholePart n n :=
  ⟨le_refl _, by linarith, mul_self_nonneg _⟩

theorem whole_trunc (q : ℚ) : WholePart q (if 0 ≤ q then ⌊q⌋ else ⌈q⌉) := by
  by_cases h : 0 ≤ q
  · rw [if_pos h]
    have h1 : (0 : ℚ) ≤ ⌊q⌋ := by exact_mod_cast Int.floor_nonneg.2 h
    refine ⟨?_, ?_, mul_nonneg h h1⟩
    · rw [abs_of_nonneg h1, abs_of_nonneg h]; exact Int.floor_le q
    · rw [abs_of_nonneg h1, abs_of_nonneg h]; exact Int.lt_floor_add_one q
  · rw [if_neg h]
    push Not at h
    have h1 : (⌈q⌉ : ℚ) ≤ 0 := by exact_mod_cast Int.ceil_le.2 (by simpa using h.le)
    refine ⟨?_, ?_, mul_nonneg_of_nonpos_of_nonpos h.le h1⟩
    · rw [abs_of_nonpos h1, abs_of_nonpos h.le]; linarith [Int.le_ceil q]
    · rw [abs_of_nonpos h1, abs_of_nonpos h.le]; linarith [Int.ceil_lt_add_one q]

/-- **C102, what is read instead.**  For a value a JSON file can hold which is not rejected: a truth value given for a number or angle counts
as 1 or 0; the fraction of a number given for an integer is cut off; a text given for a number is read as a number; for a switch everything is
true but zero and the empty; a single number given for a list of one is its element. -/
theorem value_read_as (T : Texts) (d : Decl) (x y : Val) (hx : FromJson x) (h : converted (d.param T) (some x) = .ok (some y)) :
    ReadAs T d.kind x y := by
  unfold converted Decl.param at h
  cases hk : d.kind with
  | any =>
    rw [hk] at h
    simp [Kind.cast, Kind.type] at h
    exact h.symm
  | float =>
    rw [hk] at h
    cases x <;> simp [Kind.cast, Kind.type, castFloat, FromJson, isFloat, Kind.isArray] at h hx
    · subst h; exact ⟨_, rfl, .inl (number_bool _)⟩
    · subst h; exact ⟨_, rfl, .inl (.int _)⟩
    · subst h; exact ⟨_, rfl, .inl (.num _)⟩
    · rename_i s
      cases ht : T.float s with
      | none => rw [ht] at h; simp at h
      | some q => rw [ht] at h; simp at h; subst h; exact ⟨q, rfl, .inr ⟨s, rfl, ht⟩⟩
  | int =>
    rw [hk] at h
    cases x <;> simp [Kind.cast, Kind.type, castInt, FromJson, isInt, Kind.isArray] at h hx
    · rename_i b
      subst h
      refine ⟨_, rfl, .inl ⟨_, number_bool b, ?_⟩⟩
      have := whole_int (if b then 1 else 0)
      cases b <;> exact_mod_cast this
    · subst h; exact ⟨_, rfl, .inl ⟨_, .int _, whole_int _⟩⟩
    · subst h; exact ⟨_, rfl, .inl ⟨_, .num _, whole_trunc _⟩⟩
    · rename_i s
      cases ht : T.int s with
      | none => rw [ht] at h; simp at h
      | some n => rw [ht] at h; simp at h; subst h; exact ⟨n, rfl, .inr ⟨s, rfl, ht⟩⟩
  | bool =>
    rw [hk] at h
    have hb : castBool x = .ok y := by
      cases x <;> simp [Kind.cast, Kind.type, castBool, FromJson, isBool, Kind.isArray] at h hx ⊢ <;> exact h
    have num : ∀ z q, Number z q → (Nothing z ↔ q = 0) := by
      intro z q hz
      constructor
      · rintro (h0 | h0 | h0)
        · exact number_unique hz h0
        · subst h0; cases hz
        · subst h0; cases hz
      · rintro rfl; exact .inl hz
    cases x with
    | bool b =>
      cases hb
      refine ⟨b, rfl, ?_⟩
      rw [num _ _ (number_bool b)]
      cases b <;> simp
    | int n =>
      cases hb
      refine ⟨_, rfl, ?_⟩
      rw [num _ _ (.int n)]
      simp
    | num q =>
      cases hb
      refine ⟨_, rfl, ?_⟩
      rw [num _ _ (.num q)]
      simp
    | str s =>
      cases hb
      refine ⟨_, rfl, ?_⟩
      unfold Nothing
      simp
      intro h; cases h
    | list l =>
      cases hb
      refine ⟨_, rfl, ?_⟩
      unfold Nothing
      simp
      intro h; cases h
    | radians q => exact hx.elim
    | member a b => exact hx.elim
  | enum cls values =>
    rw [hk] at h
    cases x <;> simp [Kind.cast, Kind.type, castEnum, FromJson, isEnum, Kind.isArray] at h hx
    rename_i s
    by_cases hs : s ∈ values
    · simp [hs] at h
      subst h; exact ⟨s, hs, rfl, rfl⟩
    · simp [hs] at h
  | radians =>
    rw [hk] at h
    cases x <;> simp [Kind.cast, Kind.type, castRadians, FromJson, Kind.isArray] at h hx
    · subst h; exact ⟨_, rfl, number_bool _⟩
    · subst h; exact ⟨_, rfl, .int _⟩
    · subst h; exact ⟨_, rfl, .num _⟩
  | array n =>
    rw [hk] at h
    cases x <;> simp [Kind.cast, Kind.type, castArray, FromJson, Kind.isArray] at h hx
    · by_cases hn : n = 1
      · simp [hn] at h; subst h hn; exact ⟨_, rfl, rfl, .inr ⟨_, number_bool _, rfl⟩⟩
      · simp [hn] at h
    · by_cases hn : n = 1
      · simp [hn] at h; subst h hn; exact ⟨_, rfl, rfl, .inr ⟨_, .int _, rfl⟩⟩
      · simp [hn] at h
    · by_cases hn : n = 1
      · simp [hn] at h; subst h hn; exact ⟨_, rfl, rfl, .inr ⟨_, .num _, rfl⟩⟩
      · simp [hn] at h
    · rename_i l
      by_cases hn : l.length = n
      · simp [hn] at h; subst h; exact ⟨l, rfl, hn, .inl rfl⟩
      · simp [hn] at h

/-- The hypotheses are met, for instance by a truth value given for the latitude of the target. -/
example : ∃ d ∈ declCNF, d.kind = .radians ∧ FromJson (.bool true) ∧
    converted (d.param noTexts) (some (.bool true)) = .ok (some (.radians 1)) ∧ ReadAs noTexts d.kind (.bool true) (.radians 1) := by
  have h : ∃ d ∈ declCNF, d.kind = .radians ∧ converted (d.param noTexts) (some (.bool true)) = .ok (some (.radians 1)) := by
    decide +kernel
  obtain ⟨d, h1, h2, h3⟩ := h
  exact ⟨d, h1, h2, trivial, h3, value_read_as noTexts d _ _ trivial h3⟩

/-- The kinds of options for which a file may say `null`: those without a type, angles and lists. -/
def Nullable : Kind → Prop
  | .any | .radians | .array _ => True
  | .float | .int | .bool | .enum _ _ => False

/-- **C102, `null`.**  A `null` in the file is read as `None` for options without a type, angles and lists, and is rejected with
`ParameterTypeError` for numbers, switches and enumerations; the same holds for an option which may be missing, is missing and has no default. -/
theorem null_read (T : Texts) (d : Decl) :
    (Nullable d.kind → converted (d.param T) none = .ok none) ∧
    (¬ Nullable d.kind → converted (d.param T) none = .error wrongType) := by
  unfold converted Decl.param
  cases hk : d.kind <;> simp [Nullable, Kind.type, Kind.isArray, Kind.cast]

/-- Both cases occur among the options of the configuration file. -/
example : (∃ d ∈ declCNF, converted (d.param noTexts) none = .ok none) ∧ (∃ d ∈ declCNF, converted (d.param noTexts) none = .error wrongType) := by
  decide +kernel

end Dedop.Conf
