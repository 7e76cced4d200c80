import Verif.Web.JsonText
import Verif.Workspace.FilesProps
import Verif.Basic.Tactics

/-! # What is saved is what is read (C137) -/
namespace Dedop.JsonText

open Dedop.Names Dedop.Workspace

/-! ## Specification -/

/-- One or more digits. -/
def Digits (t : Name) : Prop := t ≠ [] ∧ ∀ c ∈ t, c.isDigit = true

/-- The text of a number (RFC 8259, section 6): perhaps a minus sign; digits, of which the first is not `0` unless it is the only one; perhaps
a fraction; perhaps an exponent. -/
def IsNumber (t : Name) : Prop :=
  ∃ sign whole frac exp, t = sign ++ (whole ++ frac ++ exp) ∧ (sign = [] ∨ sign = ['-']) ∧
    (Digits whole ∧ (whole.head? = some '0' → whole = ['0'])) ∧
    (frac = [] ∨ ∃ ds, Digits ds ∧ frac = '.' :: ds) ∧
    (exp = [] ∨ ∃ e sg ds, (e = 'e' ∨ e = 'E') ∧ (sg = [] ∨ sg = ['-'] ∨ sg = ['+']) ∧ Digits ds ∧ exp = e :: (sg ++ ds))

/-- The values that Python can hold: the keys of a dictionary are different. -/
inductive Valid : Json → Prop
  | lit (l : Lit) : Valid (.lit l)
  | num (t : Name) (h : IsNumber t) : Valid (.num t)
  | str (s : Name) : Valid (.str s)
  | arr (l : List Json) (h : ∀ x ∈ l, Valid x) : Valid (.arr l)
  | obj (m : List (Name × Json)) (hk : (m.map (·.1)).Nodup) (h : ∀ p ∈ m, Valid p.2) : Valid (.obj m)

/-- One step into a value. -/
inductive Step where
  | key (k : Name)
  | index (i : Nat)

/-- What a step leads to. -/
def Json.child : Json → Step → Option Json
  | .obj m, .key k => Dict.get? m k
  | .arr l, .index i => l[i]?
  | _, _ => none

/-- What a path leads to. -/
def Json.at : Json → List Step → Option Json
  | v, [] => some v
  | v, s :: path =>
    match v.child s with
    | none => none
    | some w => w.at path

/-- What is seen of a value without going into it. -/
inductive Seen where
  | lit (l : Lit)
  | num (t : Name)
  | str (s : Name)
  | arr (length : Nat)
  | obj (length : Nat)
  deriving DecidableEq

/-- What is seen of a value. -/
def Json.seen : Json → Seen
  | .lit l => .lit l
  | .num t => .num t
  | .str s => .str s
  | .arr l => .arr l.length
  | .obj m => .obj m.length

/-- Two values are the same, up to the order of the keys of objects: along every path one sees the same. -/
def Same (v w : Json) : Prop := ∀ path, (v.at path).map Json.seen = (w.at path).map Json.seen

/-! ## Lists of values -/

theorem Json.induct {P : Json → Prop} (lit : ∀ l, P (.lit l)) (num : ∀ t, P (.num t)) (str : ∀ s, P (.str s))
    (arr : ∀ l, (∀ x ∈ l, P x) → P (.arr l)) (obj : ∀ m, (∀ p ∈ m, P p.2) → P (.obj m)) : ∀ v, P v :=
  fun v => Json.rec (motive_1 := P) (motive_2 := fun l => ∀ x ∈ l, P x) (motive_3 := fun m => ∀ p ∈ m, P p.2)
    (motive_4 := fun p => P p.2) lit num str (fun l h => arr l h) (fun m h => obj m h)
    (by simp) (fun x l hx hl => by simp only [List.mem_cons, forall_eq_or_imp]; exact ⟨hx, hl⟩)
    (by simp) (fun x l hx hl => by
      intro p hp
      rcases List.mem_cons.1 hp with rfl | hp
      · exact hx
      · exact hl p hp) (fun k v h => h) v

mutual
/-- The value with the keys of all objects in order. -/
def canon : Json → Json
  | .lit l => .lit l
  | .num t => .num t
  | .str s => .str s
  | .arr l => .arr (canonItems l)
  | .obj m => .obj (byKey (canonMembers m))
/-- The elements of an array. -/
def canonItems : List Json → List Json
  | [] => []
  | x :: rest => canon x :: canonItems rest
/-- The members of an object. -/
def canonMembers : List (Name × Json) → List (Name × Json)
  | [] => []
  | kv :: rest => canonMember kv :: canonMembers rest
/-- A member. -/
def canonMember : Name × Json → Name × Json
  | (k, v) => (k, canon v)
end

theorem renderItems_eq (n : Nat) (l : List Json) : renderItems n l = l.map (render n) := by
  induction l with
  | nil => rw [renderItems]; rfl
  | cons x l ih => rw [renderItems, ih]; rfl

theorem renderMembers_eq (n : Nat) (m : List (Name × Json)) :
    renderMembers n m = m.map (fun p => (p.1, render n p.2)) := by
  induction m with
  | nil => rw [renderMembers]; rfl
  | cons x l ih => obtain ⟨k, v⟩ := x; rw [renderMembers, ih, renderMember]; rfl

theorem canonItems_eq (l : List Json) : canonItems l = l.map canon := by
  induction l with
  | nil => rw [canonItems]; rfl
  | cons x l ih => rw [canonItems, ih]; rfl

theorem canonMembers_eq (m : List (Name × Json)) : canonMembers m = m.map (fun p => (p.1, canon p.2)) := by
  induction m with
  | nil => rw [canonMembers]; rfl
  | cons x l ih => obtain ⟨k, v⟩ := x; rw [canonMembers, ih, canonMember]; rfl

theorem byKey_map {α β : Type} (f : α → β) (m : List (Name × α)) :
    byKey (m.map (fun p => (p.1, f p.2))) = (byKey m).map (fun p => (p.1, f p.2)) := by
  unfold byKey
  rw [List.map_insertionSort (r := fun a b : Name × α => a.1 ≤ b.1) (s := fun a b : Name × β => a.1 ≤ b.1)]
  intros; rfl

theorem byKey_perm {α : Type} (m : List (Name × α)) : (byKey m).Perm m := List.perm_insertionSort _ _

/-! ## Strings -/

theorem hexVal_hexDigit : ∀ d, d < 16 → hexVal (hexDigit d) = some d := by decide +kernel

theorem hex4_digits (n : Nat) (h : n < 65536) (r : Name) :
    hex4 (hexDigit (n / 4096 % 16) :: hexDigit (n / 256 % 16) :: hexDigit (n / 16 % 16) ::
      hexDigit (n % 16) :: r) = some (n, r) := by
  unfold hex4
  simp only [hexVal_hexDigit _ (Nat.mod_lt _ (by norm_num : 0 < 16))]
  have : n / 4096 % 16 * 4096 + n / 256 % 16 * 256 + n / 16 % 16 * 16 + n % 16 = n := by omega
  rw [this]

theorem lookup_cases (c : Char) (e : Char) (h : letters.lookup c = some e) : (c, e) ∈ letters := by
  unfold letters at *
  simp only [List.lookup] at h
  repeat' split at h
  all_goals first
    | (cases h; rename_i hc; simp only [beq_iff_eq] at hc; subst hc; simp)
    | cases h

theorem unescape_letter (c e : Char) (h : (c, e) ∈ letters) (r : Name) :
    unescape (e :: r) = some (c, r) := by
  unfold letters at h
  simp only [List.mem_cons, Prod.mk.injEq, List.not_mem_nil, or_false] at h
  rcases h with ⟨rfl, rfl⟩ | ⟨rfl, rfl⟩ | ⟨rfl, rfl⟩ | ⟨rfl, rfl⟩ | ⟨rfl, rfl⟩ | ⟨rfl, rfl⟩ | ⟨rfl, rfl⟩ <;> rfl

theorem toNat_ranges (c : Char) : c.toNat < 0xd800 ∨ 0xdfff < c.toNat ∧ c.toNat < 0x110000 := c.valid

theorem unicodeEscape_append (m : Nat) (r : Name) : unicodeEscape m ++ r = '\\' :: 'u' ::
    hexDigit (m / 4096 % 16) :: hexDigit (m / 256 % 16) :: hexDigit (m / 16 % 16) :: hexDigit (m % 16) :: r := rfl

theorem unescape_single (n : Nat) (h : n < 65536) (hs : n < 0xd800 ∨ 0xdfff < n) (r : Name) :
    unescape ('u' :: hexDigit (n / 4096 % 16) :: hexDigit (n / 256 % 16) :: hexDigit (n / 16 % 16) ::
      hexDigit (n % 16) :: r) = some (Char.ofNat n, r) := by
  unfold unescape
  dsimp only
  rw [if_pos rfl, hex4_digits _ h]
  dsimp only
  rw [if_neg (by omega), if_neg (by omega)]

theorem unescape_pair (n m : Nat) (h1 : 0xd800 ≤ n) (h2 : n < 0xdc00) (h3 : 0xdc00 ≤ m) (h4 : m < 0xe000)
    (r : Name) : unescape ('u' :: hexDigit (n / 4096 % 16) :: hexDigit (n / 256 % 16) ::
      hexDigit (n / 16 % 16) :: hexDigit (n % 16) :: (unicodeEscape m ++ r)) =
      some (Char.ofNat (0x10000 + ((n - 0xd800) * 0x400 + (m - 0xdc00))), r) := by
  have hst : ∀ t : Name, strip? ['\\', 'u'] ('\\' :: 'u' :: t) = some t := fun _ => rfl
  unfold unescape
  dsimp only
  rw [if_pos rfl, hex4_digits _ (by omega), unicodeEscape_append]
  dsimp only
  rw [if_pos ⟨h1, h2⟩, hst]
  dsimp only
  rw [hex4_digits _ (by omega)]
  dsimp only
  rw [if_pos ⟨h3, h4⟩]

theorem scanString_backslash (k : Nat) (c : Char) (t r : Name) (h : unescape t = some (c, r)) :
    scanString (k + 1) ('\\' :: t) =
      match scanString k r with
      | none => none
      | some (s, rest) => some (c :: s, rest) := by
  rw [scanString, if_neg (by decide), if_pos rfl, h]
  dsimp only
  rcases scanString k r with _ | ⟨_, _⟩ <;> rfl

theorem scanString_escape (k : Nat) (c : Char) (r : Name) : scanString (k + 1) (escape c ++ r) =
    match scanString k r with
    | none => none
    | some (s, rest) => some (c :: s, rest) := by
  have hr := toNat_ranges c
  unfold escape
  split
  · rename_i e he
    exact scanString_backslash k c _ r (unescape_letter c e (lookup_cases c e he) r)
  · rename_i he
    have hne : c ≠ '"' ∧ c ≠ '\\' := by
      constructor <;> (rintro rfl; exact absurd he (by decide))
    split
    · rename_i hp
      rw [List.cons_append, List.nil_append, scanString, if_neg hne.1, if_neg hne.2, if_neg (by omega)]
      rcases scanString k r with _ | ⟨_, _⟩ <;> rfl
    · split
      · rename_i hs
        rw [unicodeEscape_append]
        apply scanString_backslash
        rw [unescape_single _ hs (by omega), Char.ofNat_toNat]
      · rename_i hs
        dsimp only
        rw [List.append_assoc, unicodeEscape_append]
        apply scanString_backslash
        rw [unescape_pair _ _ (by omega) (by omega) (by omega) (by omega)]
        have : 0x10000 + ((0xd800 + (c.toNat - 0x10000) / 0x400 % 0x400 - 0xd800) * 0x400 +
            (0xdc00 + (c.toNat - 0x10000) % 0x400 - 0xdc00)) = c.toNat := by omega
        rw [this, Char.ofNat_toNat]

theorem scanString_quoted (s r : Name) : ∀ k, s.length < k →
    scanString k (s.flatMap escape ++ '"' :: r) = some (s, r) := by
  induction s with
  | nil =>
    intro k hk
    obtain ⟨k, rfl⟩ : ∃ k', k = k' + 1 := ⟨k - 1, by omega⟩
    rfl
  | cons c s ih =>
    intro k hk
    obtain ⟨k, rfl⟩ : ∃ k', k = k' + 1 := ⟨k - 1, by simp only [List.length_cons] at hk; omega⟩
    rw [List.flatMap_cons, List.append_assoc, scanString_escape, ih k (by simp only [List.length_cons] at hk; omega)]

theorem escape_ne (c : Char) : 1 ≤ (escape c).length := by
  unfold escape unicodeEscape
  repeat' split
  all_goals simp

theorem length_flatMap (s : Name) : s.length ≤ (s.flatMap escape).length := by
  induction s with
  | nil => simp
  | cons c s ih =>
    have := escape_ne c
    simp only [List.flatMap_cons, List.length_append, List.length_cons]
    omega

/-- A string is read as it was written. -/
theorem scanString_quote (s r : Name) :
    scanString ((s.flatMap escape ++ '"' :: r).length + 1) (s.flatMap escape ++ '"' :: r) = some (s, r) := by
  apply scanString_quoted
  have := length_flatMap s
  simp only [List.length_append, List.length_cons]
  omega

/-! ## White space -/

theorem skip_newline (k : Nat) (s : Name) : skip (newline k ++ s) = skip s := by
  unfold skip newline
  rw [List.cons_append, List.dropWhile_cons_of_pos (by decide)]
  induction (4 * k) with
  | zero => rfl
  | succ n ih => rw [List.replicate_succ, List.cons_append, List.dropWhile_cons_of_pos (by decide), ih]

theorem skip_cons (c : Char) (s : Name) (h : isBlank c = false) : skip (c :: s) = c :: s := by
  unfold skip
  rw [List.dropWhile_cons_of_neg (by rw [h]; decide)]

/-- The text goes on with something that is not part of a number. -/
def Stop (rest : Name) : Prop := ∀ c ∈ rest.head?, isNum c = false

theorem isNum_not_blank (c : Char) (h : isNum c = true) :
    isBlank c = false ∧ c ≠ ']' ∧ c ≠ '}' ∧ c ≠ '"' ∧ c ≠ '[' ∧ c ≠ '{' := by
  refine ⟨?_, ?_, ?_, ?_, ?_, ?_⟩
  · by_contra hb
    rw [Bool.not_eq_false] at hb
    unfold isBlank at hb
    simp only [decide_eq_true_eq] at hb
    rcases hb with rfl | rfl | rfl | rfl <;> exact absurd h (by decide)
  all_goals (rintro rfl; exact absurd h (by decide))

theorem digit_isNum (c : Char) (h : c.isDigit = true) : isNum c = true := by
  unfold isNum
  rw [h]
  rfl

theorem IsNumber.chars {t : Name} (h : IsNumber t) : ∀ c ∈ t, isNum c = true := by
  obtain ⟨sign, whole, frac, exp, rfl, h1, ⟨⟨-, h2⟩, -⟩, h3, h4⟩ := h
  intro c hc
  simp only [List.mem_append] at hc
  rcases hc with hc | (hc | hc) | hc
  · rcases h1 with rfl | rfl
    · cases hc
    · rw [List.mem_singleton] at hc; subst hc; decide
  · exact digit_isNum c (h2 c hc)
  · rcases h3 with rfl | ⟨ds, hd, rfl⟩
    · cases hc
    · rcases List.mem_cons.1 hc with rfl | hc
      · decide
      · exact digit_isNum c (hd.2 c hc)
  · rcases h4 with rfl | ⟨e, sg, ds, he, hs, hd, rfl⟩
    · cases hc
    · rcases List.mem_cons.1 hc with rfl | hc
      · rcases he with rfl | rfl <;> decide
      · rcases List.mem_append.1 hc with hc | hc
        · rcases hs with rfl | rfl | rfl
          · cases hc
          · rw [List.mem_singleton] at hc; subst hc; decide
          · rw [List.mem_singleton] at hc; subst hc; decide
        · exact digit_isNum c (hd.2 c hc)

theorem IsNumber.head {t : Name} (h : IsNumber t) :
    (∃ d r, t = d :: r ∧ d.isDigit = true) ∨ ∃ d r, t = '-' :: d :: r ∧ d.isDigit = true := by
  obtain ⟨sign, whole, frac, exp, rfl, h1, ⟨⟨hne, h2⟩, -⟩, -, -⟩ := h
  obtain ⟨d, w, rfl⟩ := List.exists_cons_of_ne_nil hne
  have hd := h2 d (by simp)
  rcases h1 with rfl | rfl
  · exact .inl ⟨d, w ++ frac ++ exp, rfl, hd⟩
  · exact .inr ⟨d, w ++ frac ++ exp, rfl, hd⟩

/-- The first character of a text. -/
theorem render_head (n : Nat) (v : Json) (hv : Valid v) : ∃ c t, render n v = c :: t ∧ isBlank c = false ∧
    c ≠ ']' ∧ c ≠ '}' := by
  cases hv with
  | lit l =>
    rw [render]
    cases l <;> exact ⟨_, _, rfl, by decide, by decide, by decide⟩
  | num t h =>
    rw [render]
    have hn := h.chars
    obtain ⟨d, r, rfl, hd⟩ | ⟨d, r, rfl, hd⟩ := h.head
    · have := isNum_not_blank d (hn d (by simp))
      exact ⟨d, r, rfl, this.1, this.2.1, this.2.2.1⟩
    · exact ⟨_, _, rfl, by decide, by decide, by decide⟩
  | str s => rw [render]; exact ⟨_, _, rfl, by decide, by decide, by decide⟩
  | arr l h =>
    rw [render]
    unfold bracketed
    split <;> exact ⟨_, _, rfl, by decide, by decide, by decide⟩
  | obj m hk h =>
    rw [render]
    unfold bracketed
    split <;> exact ⟨_, _, rfl, by decide, by decide, by decide⟩

/-! ## Atoms -/

theorem strip?_ne (p c : Char) (ps s : Name) (h : p ≠ c) : strip? (p :: ps) (c :: s) = none := by
  rw [strip?, if_neg h]

/-- No digit follows. -/
def NoDigit (rest : Name) : Prop := ∀ c ∈ rest.head?, c.isDigit = false

theorem digits_stop (t rest : Name) (ht : ∀ c ∈ t, c.isDigit = true) (hs : NoDigit rest) :
    (t ++ rest).takeWhile Char.isDigit = t ∧ (t ++ rest).dropWhile Char.isDigit = rest := by
  induction t with
  | nil =>
    cases rest with
    | nil => exact ⟨rfl, rfl⟩
    | cons c r =>
      have := hs c (by simp)
      rw [List.nil_append, List.takeWhile_cons_of_neg (by rw [this]; decide),
        List.dropWhile_cons_of_neg (by rw [this]; decide)]
      exact ⟨rfl, rfl⟩
  | cons c t ih =>
    have hc := ht c (by simp)
    obtain ⟨h1, h2⟩ := ih (fun x hx => ht x (List.mem_cons_of_mem _ hx))
    rw [List.cons_append, List.takeWhile_cons_of_pos hc, List.dropWhile_cons_of_pos hc, h1, h2]
    exact ⟨rfl, rfl⟩

theorem scanInt_whole (whole rest : Name) (hw : Digits whole) (h0 : whole.head? = some '0' → whole = ['0']) (hr : NoDigit rest) :
    scanInt (whole ++ rest) = some (whole, rest) := by
  obtain ⟨c, w, rfl⟩ := List.exists_cons_of_ne_nil hw.1
  rw [List.cons_append, scanInt]
  by_cases hc : c = '0'
  · rw [if_pos hc]
    have := h0 (by rw [List.head?_cons, hc])
    simp only [List.cons.injEq] at this
    rw [this.2]
    rfl
  · rw [if_neg hc, if_pos (hw.2 c (by simp))]
    obtain ⟨h1, h2⟩ := digits_stop w rest (fun x hx => hw.2 x (List.mem_cons_of_mem _ hx)) hr
    rw [h1, h2]

theorem stop_noDigit {rest : Name} (hs : Stop rest) : NoDigit rest := by
  intro c hc
  have := hs c hc
  by_contra h
  rw [Bool.not_eq_false] at h
  rw [digit_isNum c h] at this
  cases this

theorem scanExp_exp (exp rest : Name)
    (h : exp = [] ∨ ∃ e sg ds, (e = 'e' ∨ e = 'E') ∧ (sg = [] ∨ sg = ['-'] ∨ sg = ['+']) ∧ Digits ds ∧ exp = e :: (sg ++ ds))
    (hs : Stop rest) : scanExp (exp ++ rest) = (exp, rest) := by
  rcases h with rfl | ⟨e, sg, ds, he, hsg, hd, rfl⟩
  · rw [List.nil_append]
    cases rest with
    | nil => rfl
    | cons c r =>
      have : ¬ (c = 'e' ∨ c = 'E') := by
        intro h
        have := hs c (by simp)
        rcases h with rfl | rfl <;> exact absurd this (by decide)
      rw [scanExp.eq_def]
      dsimp only
      rw [if_neg this]
  · obtain ⟨d, w, rfl⟩ := List.exists_cons_of_ne_nil hd.1
    have h1 := digits_stop w rest (fun x hx => hd.2 x (List.mem_cons_of_mem _ hx)) (stop_noDigit hs)
    have hdd := hd.2 d (by simp)
    rw [List.cons_append, scanExp.eq_def]
    dsimp only
    rw [if_pos he]
    rcases hsg with rfl | rfl | rfl
    · show (if d.isDigit = true then _ else _) = _
      rw [if_pos hdd]
      change (e :: d :: List.takeWhile Char.isDigit (w ++ rest), List.dropWhile Char.isDigit (w ++ rest)) = _
      rw [h1.1, h1.2]
      rfl
    · show (if ('-' : Char).isDigit = true then _ else if '-' = '-' ∨ '-' = '+' then (if d.isDigit = true then _ else _) else _) = _
      rw [if_neg (by decide), if_pos (.inl rfl), if_pos hdd]
      change (e :: '-' :: d :: List.takeWhile Char.isDigit (w ++ rest), List.dropWhile Char.isDigit (w ++ rest)) = _
      rw [h1.1, h1.2]
      rfl
    · show (if ('+' : Char).isDigit = true then _ else if '+' = '-' ∨ '+' = '+' then (if d.isDigit = true then _ else _) else _) = _
      rw [if_neg (by decide), if_pos (.inr rfl), if_pos hdd]
      change (e :: '+' :: d :: List.takeWhile Char.isDigit (w ++ rest), List.dropWhile Char.isDigit (w ++ rest)) = _
      rw [h1.1, h1.2]
      rfl

/-- What follows the whole part or the fraction. -/
theorem exp_noDigit (exp rest : Name)
    (h : exp = [] ∨ ∃ e sg ds, (e = 'e' ∨ e = 'E') ∧ (sg = [] ∨ sg = ['-'] ∨ sg = ['+']) ∧ Digits ds ∧ exp = e :: (sg ++ ds))
    (hs : Stop rest) : ∀ c ∈ (exp ++ rest).head?, c.isDigit = false ∧ c ≠ '.' := by
  rcases h with rfl | ⟨e, sg, ds, he, -, -, rfl⟩
  · intro c hc
    refine ⟨stop_noDigit hs c hc, ?_⟩
    rintro rfl
    exact absurd (hs _ hc) (by decide)
  · intro c hc
    simp only [List.cons_append, List.head?_cons, Option.mem_def, Option.some.injEq] at hc
    subst hc
    rcases he with rfl | rfl <;> decide

theorem scanFrac_frac (frac rest : Name) (h : frac = [] ∨ ∃ ds, Digits ds ∧ frac = '.' :: ds)
    (hr : ∀ c ∈ rest.head?, c.isDigit = false ∧ c ≠ '.') : scanFrac (frac ++ rest) = (frac, rest) := by
  rcases h with rfl | ⟨ds, hd, rfl⟩
  · rw [List.nil_append]
    rcases rest with _ | ⟨c, _ | ⟨d, r⟩⟩
    · rfl
    · rfl
    · rw [scanFrac, if_neg (fun h => (hr c (by simp)).2 h.1)]
  · obtain ⟨d, w, rfl⟩ := List.exists_cons_of_ne_nil hd.1
    have h1 := digits_stop w rest (fun x hx => hd.2 x (List.mem_cons_of_mem _ hx)) (fun c hc => (hr c hc).1)
    rw [List.cons_append, List.cons_append, scanFrac, if_pos ⟨rfl, hd.2 d (by simp)⟩, h1.1, h1.2]

theorem frac_noDigit (frac rest : Name) (h : frac = [] ∨ ∃ ds, Digits ds ∧ frac = '.' :: ds)
    (hr : ∀ c ∈ rest.head?, c.isDigit = false ∧ c ≠ '.') : NoDigit (frac ++ rest) := by
  rcases h with rfl | ⟨ds, hd, rfl⟩
  · exact fun c hc => (hr c hc).1
  · intro c hc
    simp only [List.cons_append, List.head?_cons, Option.mem_def, Option.some.injEq] at hc
    subst hc
    decide

theorem scanNumber_number (t rest : Name) (h : IsNumber t) (hs : Stop rest) : scanNumber (t ++ rest) = some (t, rest) := by
  obtain ⟨sign, whole, frac, exp, rfl, h1, ⟨hw, h0⟩, h3, h4⟩ := h
  have he := exp_noDigit exp rest h4 hs
  have hu : scanUnsigned (whole ++ frac ++ exp ++ rest) = some (whole ++ frac ++ exp, rest) := by
    unfold scanUnsigned
    rw [List.append_assoc, List.append_assoc, scanInt_whole whole _ hw h0 (frac_noDigit frac _ h3 he)]
    dsimp only
    rw [scanFrac_frac frac _ h3 he]
    dsimp only
    rw [scanExp_exp exp rest h4 hs]
  unfold scanNumber
  rcases h1 with rfl | rfl
  · have hn : strip? ['-'] (whole ++ frac ++ exp ++ rest) = none := by
      obtain ⟨d, w, rfl⟩ := List.exists_cons_of_ne_nil hw.1
      refine strip?_ne _ _ _ _ ?_
      rintro rfl
      exact absurd (hw.2 '-' (by simp)) (by decide)
    rw [List.nil_append, hn]
    exact hu
  · have hn : strip? ['-'] (['-'] ++ (whole ++ frac ++ exp) ++ rest) = some (whole ++ frac ++ exp ++ rest) := by
      rw [List.append_assoc]
      rfl
    rw [hn]
    dsimp only
    rw [hu]
    rfl

theorem digit_ne (d : Char) (h : d.isDigit = true) : 'n' ≠ d ∧ 't' ≠ d ∧ 'f' ≠ d ∧ 'N' ≠ d ∧ 'I' ≠ d ∧ '-' ≠ d := by
  refine ⟨?_, ?_, ?_, ?_, ?_, ?_⟩ <;> (rintro rfl; exact absurd h (by decide))

theorem scanAtom_number (t rest : Name) (h : IsNumber t) (hs : Stop rest) :
    scanAtom (t ++ rest) = some (.num t, rest) := by
  have hd := h.head
  have h1 := scanNumber_number t rest h hs
  have e1 : strip? "null".toList (t ++ rest) = none := by
    rcases hd with ⟨d, r, rfl, hd⟩ | ⟨d, r, rfl, hd⟩
    · exact strip?_ne _ _ _ _ (digit_ne d hd).1
    · exact strip?_ne _ _ _ _ (by decide)
  have e2 : strip? "true".toList (t ++ rest) = none := by
    rcases hd with ⟨d, r, rfl, hd⟩ | ⟨d, r, rfl, hd⟩
    · exact strip?_ne _ _ _ _ (digit_ne d hd).2.1
    · exact strip?_ne _ _ _ _ (by decide)
  have e3 : strip? "false".toList (t ++ rest) = none := by
    rcases hd with ⟨d, r, rfl, hd⟩ | ⟨d, r, rfl, hd⟩
    · exact strip?_ne _ _ _ _ (digit_ne d hd).2.2.1
    · exact strip?_ne _ _ _ _ (by decide)
  have e4 : strip? "NaN".toList (t ++ rest) = none := by
    rcases hd with ⟨d, r, rfl, hd⟩ | ⟨d, r, rfl, hd⟩
    · exact strip?_ne _ _ _ _ (digit_ne d hd).2.2.2.1
    · exact strip?_ne _ _ _ _ (by decide)
  have e5 : strip? "Infinity".toList (t ++ rest) = none := by
    rcases hd with ⟨d, r, rfl, hd⟩ | ⟨d, r, rfl, hd⟩
    · exact strip?_ne _ _ _ _ (digit_ne d hd).2.2.2.2.1
    · exact strip?_ne _ _ _ _ (by decide)
  have e6 : strip? "-Infinity".toList (t ++ rest) = none := by
    rcases hd with ⟨d, r, rfl, hd⟩ | ⟨d, r, rfl, hd⟩
    · exact strip?_ne _ _ _ _ (digit_ne d hd).2.2.2.2.2
    · show strip? ('-' :: "Infinity".toList) ('-' :: (d :: (r ++ rest))) = none
      rw [strip?, if_pos rfl]
      exact strip?_ne _ _ _ _ (digit_ne d hd).2.2.2.2.1
  unfold scanAtom
  simp only [e1, e2, e3, e4, e5, e6, h1]

theorem scanAtom_lit (l : Lit) (rest : Name) : scanAtom (l.text ++ rest) = some (.lit l, rest) := by
  cases l <;> rfl

/-! ## Values -/

/-- What is proved of a value: its text, wherever it stands, is read as the value. -/
def Reads (v : Json) : Prop := ∀ (level n : Nat) (rest : Name), (render level v).length < n → Stop rest →
  scan n (render level v ++ rest) = some (canon v, rest)

theorem joined_head (sep : Name) (x : Name) (l : List Name) : ∃ r, joined sep (x :: l) = x ++ r := by
  cases l with
  | nil => exact ⟨[], by simp [joined]⟩
  | cons y l => exact ⟨_, by rw [joined, List.append_assoc]⟩

theorem stop_comma (s : Name) : Stop (',' :: s) := by
  intro c hc; simp only [List.head?_cons, Option.mem_some_iff] at hc; subst hc; decide

theorem stop_newline (k : Nat) (s : Name) : Stop (newline k ++ s) := by
  intro c hc
  simp only [newline, List.cons_append, List.head?_cons, Option.mem_some_iff] at hc
  subst hc; decide

theorem scanItems_joined (level lo : Nat) (l : List Json) (hne : l ≠ []) (hv : ∀ x ∈ l, Valid x)
    (hr : ∀ x ∈ l, Reads x) : ∀ (n : Nat) (rest : Name),
    (joined (',' :: newline level) (l.map (render level))).length + 1 < n →
    scanItems n (joined (',' :: newline level) (l.map (render level)) ++ (newline lo ++ ']' :: rest)) =
      some (l.map canon, rest) := by
  induction l with
  | nil => exact absurd rfl hne
  | cons x l ih =>
    intro n rest hn
    obtain ⟨n, rfl⟩ : ∃ n', n = n' + 1 := ⟨n - 1, by omega⟩
    cases l with
    | nil =>
      simp only [List.map_cons, List.map_nil, joined] at hn ⊢
      rw [scanItems, hr x (by simp) level n _ (by omega) (stop_newline _ _)]
      simp only
      rw [skip_newline, skip_cons _ _ (by decide)]
      simp only [if_true]
    | cons y l =>
      simp only [List.map_cons, joined, List.append_assoc, List.length_append, List.cons_append,
        List.length_cons] at hn ⊢
      rw [scanItems, hr x (by simp) level n _ (by omega) (stop_comma _)]
      simp only
      rw [skip_cons _ _ (by decide)]
      dsimp only
      rw [if_neg (by decide), if_pos rfl, skip_newline]
      obtain ⟨c, t, hc, hb, _, _⟩ := render_head level y (hv y (by simp))
      obtain ⟨r, hj⟩ := joined_head (',' :: newline level) (render level y) (l.map (render level))
      have hs : skip (joined (',' :: newline level) (render level y :: l.map (render level)) ++
          (newline lo ++ ']' :: rest)) =
          joined (',' :: newline level) (render level y :: l.map (render level)) ++
          (newline lo ++ ']' :: rest) := by
        rw [hj, hc]
        exact skip_cons _ _ hb
      rw [hs]
      have := ih (by simp) (fun z hz => hv z (List.mem_cons_of_mem _ hz))
        (fun z hz => hr z (List.mem_cons_of_mem _ hz)) n rest (by
          simp only [List.map_cons]; omega)
      simp only [List.map_cons] at this
      rw [this]

/-- The text of a member. -/
def memberText (level : Nat) (p : Name × Json) : Name := member (p.1, render level p.2)

theorem memberText_eq (level : Nat) (p : Name × Json) (r : Name) :
    memberText level p ++ r = '"' :: (p.1.flatMap escape ++ '"' :: ':' :: ' ' :: (render level p.2 ++ r)) := by
  unfold memberText member quote
  simp

theorem scanMembers_joined (level lo : Nat) (l : List (Name × Json)) (hne : l ≠ []) (hv : ∀ x ∈ l, Valid x.2)
    (hr : ∀ x ∈ l, Reads x.2) : ∀ (n : Nat) (rest : Name),
    (joined (',' :: newline level) (l.map (memberText level))).length + 1 < n →
    scanMembers n (joined (',' :: newline level) (l.map (memberText level)) ++ (newline lo ++ '}' :: rest)) =
      some (l.map (fun p => (p.1, canon p.2)), rest) := by
  have hlen : ∀ p : Name × Json, (render level p.2).length + 4 ≤ (memberText level p).length := by
    intro p
    have := congrArg List.length (memberText_eq level p [])
    simp only [List.append_nil, List.length_cons, List.length_append] at this
    omega
  have hvalue : ∀ p : Name × Json, Valid p.2 → ∀ r, skip (' ' :: (render level p.2 ++ r)) = render level p.2 ++ r := by
    intro p hp r
    obtain ⟨c, t, hc, hb, _, _⟩ := render_head level p.2 hp
    rw [hc]
    show skip (' ' :: (c :: (t ++ r))) = _
    have : skip (' ' :: (c :: (t ++ r))) = skip (c :: (t ++ r)) := by
      unfold skip; rw [List.dropWhile_cons_of_pos (by decide)]
    rw [this, skip_cons _ _ hb]
    rfl
  induction l with
  | nil => exact absurd rfl hne
  | cons x l ih =>
    intro n rest hn
    obtain ⟨n, rfl⟩ : ∃ n', n = n' + 1 := ⟨n - 1, by omega⟩
    have hx := hlen x
    have step : ∀ (tail : Name), Stop tail → (render level x.2).length < n →
        scanMembers (n + 1) (memberText level x ++ tail) =
          match skip tail with
          | [] => none
          | c :: rest =>
            if c = '}' then some ([(x.1, canon x.2)], rest)
            else if c = ',' then
              match scanMembers n (skip rest) with
              | none => none
              | some (l, rest) => some ((x.1, canon x.2) :: l, rest)
            else none := by
      intro tail ht hlt
      rw [memberText_eq, scanMembers, if_pos rfl, scanString_quote]
      simp only
      rw [skip_cons _ _ (by decide)]
      simp only [if_true]
      rw [hvalue x (hv x (by simp)), hr x (by simp) level n tail hlt ht]
      dsimp only
      rcases skip tail with _ | ⟨c, r⟩
      · rfl
      · dsimp only
        split
        · rfl
        · split
          · rcases scanMembers n (skip r) with _ | ⟨_, _⟩ <;> rfl
          · rfl
    cases l with
    | nil =>
      simp only [List.map_cons, List.map_nil, joined] at hn ⊢
      rw [step _ (stop_newline _ _) (by omega), skip_newline, skip_cons _ _ (by decide)]
      simp only [if_true]
    | cons y l =>
      simp only [List.map_cons, joined, List.append_assoc, List.length_append, List.cons_append,
        List.length_cons] at hn ⊢
      rw [step _ (stop_comma _) (by omega), skip_cons _ _ (by decide)]
      dsimp only
      rw [if_neg (by decide), if_pos rfl, skip_newline]
      obtain ⟨r, hj⟩ := joined_head (',' :: newline level) (memberText level y) (l.map (memberText level))
      have hs : skip (joined (',' :: newline level) (memberText level y :: l.map (memberText level)) ++
          (newline lo ++ '}' :: rest)) =
          joined (',' :: newline level) (memberText level y :: l.map (memberText level)) ++
          (newline lo ++ '}' :: rest) := by
        rw [hj, List.append_assoc, memberText_eq]
        exact skip_cons _ _ (by decide)
      rw [hs]
      have := ih (by simp) (fun z hz => hv z (List.mem_cons_of_mem _ hz))
        (fun z hz => hr z (List.mem_cons_of_mem _ hz)) n rest (by
          simp only [List.map_cons]; omega)
      simp only [List.map_cons] at this
      rw [this]

theorem set_new {α : Type} (d : Dict Name α) (k : Name) (v : α) (h : k ∉ d.map (·.1)) :
    Dict.set d k v = d ++ [(k, v)] := by
  induction d with
  | nil => rfl
  | cons p d ih =>
    obtain ⟨k', v'⟩ := p
    simp only [List.map_cons, List.mem_cons, not_or] at h
    rw [Dict.set, if_neg h.1, ih h.2]
    rfl

theorem foldl_set {α : Type} (l : List (Name × α)) : ∀ (acc : Dict Name α), ((acc ++ l).map (·.1)).Nodup →
    l.foldl (fun d kv => Dict.set d kv.1 kv.2) acc = acc ++ l := by
  induction l with
  | nil => intro acc _; simp
  | cons p l ih =>
    intro acc h
    have hp : p.1 ∉ acc.map (·.1) := by
      rw [List.map_append, List.map_cons] at h
      intro hm
      exact (List.nodup_append.1 h).2.2 _ hm p.1 (by simp) rfl
    rw [List.foldl_cons, set_new _ _ _ hp, ih]
    · simp
    · simpa using h

theorem reads (v : Json) (hv : Valid v) : Reads v := by
  induction v using Json.induct with
  | lit l =>
    intro level n rest hn _
    obtain ⟨n, rfl⟩ : ∃ n', n = n' + 1 := ⟨n - 1, by omega⟩
    have ha := scanAtom_lit l rest
    rw [render, canon]
    cases l <;> exact ha
  | num t =>
    intro level n rest hn hs
    obtain ⟨n, rfl⟩ : ∃ n', n = n' + 1 := ⟨n - 1, by omega⟩
    rw [render, canon]
    cases hv with
    | num _ h =>
      have ha := scanAtom_number t rest h hs
      have hn := h.chars
      have hd := h.head
      cases t with
      | nil => rcases hd with ⟨d, r, hd, _⟩ | ⟨d, r, hd, _⟩ <;> cases hd
      | cons c t =>
        obtain ⟨_, _, _, h1, h2, h3⟩ := isNum_not_blank c (hn c (by simp))
        rw [List.cons_append] at ha ⊢
        rw [scan, if_neg h1, if_neg h2, if_neg h3, ha]
  | str s =>
    intro level n rest hn hs
    obtain ⟨n, rfl⟩ : ∃ n', n = n' + 1 := ⟨n - 1, by omega⟩
    rw [render, canon]
    have : quote s ++ rest = '"' :: (s.flatMap escape ++ '"' :: rest) := by unfold quote; simp
    rw [this, scan, if_pos rfl, scanString_quote]
  | arr l ih =>
    intro level n rest hn hs
    obtain ⟨n, rfl⟩ : ∃ n', n = n' + 1 := ⟨n - 1, by omega⟩
    cases hv with
    | arr _ hl =>
      rw [render, canon, canonItems_eq] at *
      rw [renderItems_eq] at *
      unfold bracketed at *
      by_cases hne : l = []
      · subst hne
        rfl
      · have hm : l.map (render (level + 1)) ≠ [] := by simpa using hne
        rw [if_neg hm] at hn ⊢
        simp only [List.cons_append, List.append_assoc, List.length_cons, List.length_append,
          List.nil_append] at hn ⊢
        rw [scan, if_neg (by decide), if_pos rfl, skip_newline]
        obtain ⟨x, l', rfl⟩ := List.exists_cons_of_ne_nil hne
        obtain ⟨c, t, hc, hb, hcl, _⟩ := render_head (level + 1) x (hl x (by simp))
        obtain ⟨r, hj⟩ := joined_head (',' :: newline (level + 1)) (render (level + 1) x)
          (l'.map (render (level + 1)))
        have key := scanItems_joined (level + 1) level (x :: l') (by simp) hl
          (fun z hz => ih z hz (hl z hz)) n rest (by omega)
        rw [List.map_cons, hj, hc, List.cons_append, List.cons_append] at key ⊢
        rw [skip_cons _ _ hb]
        simp only
        rw [if_neg hcl, key]
  | obj m ih =>
    intro level n rest hn hs
    obtain ⟨n, rfl⟩ : ∃ n', n = n' + 1 := ⟨n - 1, by omega⟩
    cases hv with
    | obj _ hk hl =>
      rw [render, canon, canonMembers_eq, byKey_map] at *
      rw [renderMembers_eq, byKey_map, List.map_map] at *
      have hfun : (member ∘ fun p : Name × Json => (p.1, render (level + 1) p.2)) = memberText (level + 1) := rfl
      rw [hfun] at hn ⊢
      clear hfun
      have hp := byKey_perm m
      have hk' : ((byKey m).map (·.1)).Nodup := (hp.map _).nodup_iff.2 hk
      have hl' : ∀ p ∈ byKey m, Valid p.2 := fun p h => hl p (hp.mem_iff.1 h)
      have hr' : ∀ p ∈ byKey m, Reads p.2 := fun p h => ih p (hp.mem_iff.1 h) (hl' p h)
      clear ih hl hk
      generalize byKey m = l at *
      unfold bracketed at *
      by_cases hne : l = []
      · subst hne
        rfl
      · have hm : l.map (memberText (level + 1)) ≠ [] := by simpa using hne
        rw [if_neg hm] at hn ⊢
        simp only [List.cons_append, List.append_assoc, List.length_cons, List.length_append,
          List.nil_append] at hn ⊢
        rw [scan, if_neg (by decide), if_neg (by decide), if_pos rfl, skip_newline]
        have key := scanMembers_joined (level + 1) level l hne hl' hr' n rest (by omega)
        obtain ⟨x, l', rfl⟩ := List.exists_cons_of_ne_nil hne
        obtain ⟨r, hj⟩ := joined_head (',' :: newline (level + 1)) (memberText (level + 1) x)
          (l'.map (memberText (level + 1)))
        rw [List.map_cons, hj, List.append_assoc, memberText_eq] at key ⊢
        rw [skip_cons _ _ (by decide)]
        simp only
        rw [if_neg (by decide), key]
        simp only
        rw [foldl_set]
        · rfl
        · rw [List.nil_append, List.map_map]
          exact hk'

theorem loads_dumps (v : Json) (hv : Valid v) : loads (dumps v) = .ok (canon v) := by
  unfold loads dumps
  obtain ⟨c, t, hc, hb, _, _⟩ := render_head 0 v hv
  have hs : skip (render 0 v) = render 0 v := by rw [hc]; exact skip_cons _ _ hb
  have := reads v hv 0 ((render 0 v).length + 1) [] (by omega) (by intro c h; simp at h)
  rw [List.append_nil] at this
  rw [hs, this]
  rfl

/-! ## The same value -/

theorem get?_perm {α : Type} {d e : Dict Name α} (h : d.Perm e) (hk : (d.map (·.1)).Nodup) (k : Name) :
    Dict.get? d k = Dict.get? e k := by
  induction h with
  | nil => rfl
  | cons p _ ih =>
    obtain ⟨k', v⟩ := p
    simp only [List.map_cons, List.nodup_cons] at hk
    simp only [Dict.get?, ih hk.2]
  | swap p q l =>
    obtain ⟨k1, v1⟩ := p
    obtain ⟨k2, v2⟩ := q
    simp only [List.map_cons, List.nodup_cons, List.mem_cons, not_or] at hk
    simp only [Dict.get?]
    by_cases h1 : k = k1
    · by_cases h2 : k = k2
      · exact absurd (h2.symm.trans h1) hk.1.1
      · simp only [if_neg h2]
    · simp [h1]
  | trans h1 _ ih1 ih2 => rw [ih1 hk, ih2 ((h1.map _).nodup_iff.1 hk)]

theorem get?_map {α β : Type} (f : α → β) (d : Dict Name α) (k : Name) :
    Dict.get? (d.map (fun p => (p.1, f p.2))) k = (Dict.get? d k).map f := by
  induction d with
  | nil => rfl
  | cons p d ih =>
    obtain ⟨k', v⟩ := p
    simp only [List.map_cons, Dict.get?]
    split
    · rfl
    · exact ih

theorem canon_child (v : Json) (hv : Valid v) (s : Step) : (canon v).child s = (v.child s).map canon := by
  cases hv with
  | lit l => rw [canon]; cases s <;> rfl
  | num t h => rw [canon]; cases s <;> rfl
  | str t => rw [canon]; cases s <;> rfl
  | arr l h =>
    rw [canon, canonItems_eq]
    cases s with
    | key k => rfl
    | index i => simp [Json.child]
  | obj m hk h =>
    rw [canon, canonMembers_eq]
    cases s with
    | key k =>
      simp only [Json.child]
      rw [get?_perm (byKey_perm _), get?_map]
      rw [((byKey_perm _).map _).nodup_iff, List.map_map]
      exact hk
    | index i => rfl

theorem get?_mem {α : Type} (d : Dict Name α) (k : Name) (v : α) (h : Dict.get? d k = some v) : (k, v) ∈ d := by
  induction d with
  | nil => cases h
  | cons p d ih =>
    obtain ⟨k', v'⟩ := p
    simp only [Dict.get?] at h
    split at h
    · rename_i hk; cases h; subst hk; simp
    · exact List.mem_cons_of_mem _ (ih h)

theorem child_valid (v : Json) (hv : Valid v) (s : Step) (w : Json) (h : v.child s = some w) : Valid w := by
  cases hv with
  | lit l => cases s <;> cases h
  | num t h' => cases s <;> cases h
  | str t => cases s <;> cases h
  | arr l hl =>
    cases s with
    | key k => cases h
    | index i => exact hl w (List.mem_of_getElem? h)
  | obj m hk hl =>
    cases s with
    | key k => exact hl _ (get?_mem _ _ _ h)
    | index i => cases h

theorem canon_seen (v : Json) : (canon v).seen = v.seen := by
  cases v with
  | arr l => rw [canon, canonItems_eq]; simp [Json.seen]
  | obj m => rw [canon, canonMembers_eq]; simp [Json.seen, (byKey_perm _).length_eq]
  | _ => rw [canon]

theorem canon_same (v : Json) (hv : Valid v) : Same v (canon v) := by
  intro path
  induction path generalizing v with
  | nil => simp [Json.at, canon_seen]
  | cons s path ih =>
    simp only [Json.at, canon_child v hv]
    cases hc : v.child s with
    | none => rfl
    | some w => exact ih w (child_valid v hv s w hc)

/-- C137, the text: the text written for a value is read as the same value. -/
theorem text_restores (v : Json) (hv : Valid v) : ∃ w, loads (dumps v) = .ok w ∧ Same v w :=
  ⟨canon v, loads_dumps v hv, canon_same v hv⟩

/-! ## Only ASCII characters -/

theorem hexDigit_ascii : ∀ d, d < 16 → (hexDigit d).toNat < 128 := by decide +kernel

theorem unicodeEscape_ascii (n : Nat) : ∀ c ∈ unicodeEscape n, c.toNat < 128 := by
  unfold unicodeEscape
  simp only [List.mem_cons, List.not_mem_nil, or_false, forall_eq_or_imp, forall_eq]
  have h : ∀ m, (hexDigit (m % 16)).toNat < 128 := fun m => hexDigit_ascii _ (Nat.mod_lt _ (by norm_num))
  exact ⟨by decide, by decide, h _, h _, h _, h _⟩

theorem escape_ascii (d : Char) : ∀ c ∈ escape d, c.toNat < 128 := by
  unfold escape
  split
  · rename_i e he
    have := lookup_cases d e he
    unfold letters at this
    simp only [List.mem_cons, Prod.mk.injEq, List.not_mem_nil, or_false] at this
    rcases this with ⟨rfl, rfl⟩ | ⟨rfl, rfl⟩ | ⟨rfl, rfl⟩ | ⟨rfl, rfl⟩ | ⟨rfl, rfl⟩ | ⟨rfl, rfl⟩ | ⟨rfl, rfl⟩ <;>
      decide
  · split
    · intro c hc
      simp only [List.mem_singleton] at hc
      subst hc; omega
    · split
      · exact unicodeEscape_ascii _
      · intro c hc
        rcases List.mem_append.1 hc with h | h <;> exact unicodeEscape_ascii _ c h

theorem quote_ascii (s : Name) : ∀ c ∈ quote s, c.toNat < 128 := by
  intro c hc
  unfold quote at hc
  simp only [List.cons_append, List.mem_cons, List.mem_append, List.mem_flatMap, List.not_mem_nil,
    or_false] at hc
  rcases hc with rfl | ⟨d, _, h⟩ | rfl
  · decide
  · exact escape_ascii d c h
  · decide

theorem newline_ascii (k : Nat) : ∀ c ∈ newline k, c.toNat < 128 := by
  intro c hc
  unfold newline at hc
  rcases List.mem_cons.1 hc with rfl | h
  · decide
  · rw [(List.mem_replicate.1 h).2]; decide

theorem joined_ascii (sep : Name) (hs : ∀ c ∈ sep, c.toNat < 128) : ∀ (l : List Name),
    (∀ t ∈ l, ∀ c ∈ t, c.toNat < 128) → ∀ c ∈ joined sep l, c.toNat < 128
  | [], _ => by simp [joined]
  | [x], h => by simpa [joined] using h
  | x :: y :: l, h => by
    intro c hc
    rw [joined, List.mem_append, List.mem_append] at hc
    rcases hc with (hc | hc) | hc
    · exact h x (by simp) c hc
    · exact hs c hc
    · exact joined_ascii sep hs (y :: l) (fun t ht => h t (List.mem_cons_of_mem _ ht)) c hc

theorem bracketed_ascii (k : Nat) (o e : Char) (ho : o.toNat < 128) (he : e.toNat < 128) (l : List Name)
    (h : ∀ t ∈ l, ∀ c ∈ t, c.toNat < 128) : ∀ c ∈ bracketed k o e l, c.toNat < 128 := by
  intro c hc
  unfold bracketed at hc
  split at hc
  · simp only [List.mem_cons, List.not_mem_nil, or_false] at hc
    rcases hc with rfl | rfl <;> assumption
  · simp only [List.mem_cons, List.mem_append, List.not_mem_nil, or_false] at hc
    rcases hc with rfl | ((hc | hc) | hc) | rfl
    · exact ho
    · exact newline_ascii _ c hc
    · refine joined_ascii _ ?_ l h c hc
      intro c hc
      rcases List.mem_cons.1 hc with rfl | hc
      · decide
      · exact newline_ascii _ c hc
    · exact newline_ascii _ c hc
    · exact he

theorem isNum_ascii (c : Char) (h : isNum c = true) : c.toNat < 128 := by
  unfold isNum at h
  simp only [Bool.or_eq_true, decide_eq_true_eq] at h
  rcases h with ((((h | rfl) | rfl) | rfl) | rfl) | rfl
  · unfold Char.isDigit at h
    simp only [Bool.and_eq_true, decide_eq_true_eq] at h
    have := h.2
    have h57 : c.val.toNat ≤ 57 := this
    show c.val.toNat < 128
    omega
  all_goals decide

theorem render_ascii (v : Json) (hv : Valid v) : ∀ level, ∀ c ∈ render level v, c.toNat < 128 := by
  induction v using Json.induct with
  | lit l =>
    intro level
    rw [render]
    cases l <;> decide
  | num t =>
    intro level c hc
    rw [render] at hc
    cases hv with
    | num _ h => exact isNum_ascii c (h.chars c hc)
  | str s => intro level; rw [render]; exact quote_ascii s
  | arr l ih =>
    intro level
    rw [render, renderItems_eq]
    cases hv with
    | arr _ hl =>
      apply bracketed_ascii _ _ _ (by decide) (by decide)
      intro t ht
      obtain ⟨x, hx, rfl⟩ := List.mem_map.1 ht
      exact ih x hx (hl x hx) _
  | obj m ih =>
    intro level
    rw [render, renderMembers_eq, byKey_map, List.map_map]
    cases hv with
    | obj _ _ hl =>
      apply bracketed_ascii _ _ _ (by decide) (by decide)
      intro t ht
      obtain ⟨p, hp, rfl⟩ := List.mem_map.1 ht
      have hp' := (byKey_perm m).mem_iff.1 hp
      intro c hc
      simp only [Function.comp, member, List.mem_append] at hc
      rcases hc with (hc | hc) | hc
      · exact quote_ascii _ c hc
      · revert c; decide
      · exact ih p hp' (hl p hp') _ c hc

/-- C137: the text has only ASCII characters, so that it does not matter with which encoding the file is
written and read. -/
theorem text_ascii (v : Json) (hv : Valid v) : ∀ c ∈ dumps v, c.toNat < 128 := render_ascii v hv 0

/-! ## The requests -/

/-- The names that the client gets with an object: the keys, each once, in the order of their lower-case
form. -/
def Ordered (lower : Name → Name) (v : Json) (order : List Name) : Prop :=
  (∀ m, v = .obj m → order.Perm (m.map (·.1))) ∧ order.Pairwise (fun a b => lower a ≤ lower b)

theorem insertionSort_spec (lower : Name → Name) (l : List Name) :
    (l.insertionSort (fun a b => lower a ≤ lower b)).Perm l ∧
      (l.insertionSort (fun a b => lower a ≤ lower b)).Pairwise (fun a b => lower a ≤ lower b) := by
  refine ⟨List.perm_insertionSort _ _, ?_⟩
  have : Std.Total (fun a b : Name => lower a ≤ lower b) := ⟨fun a b => List.le_total (lower a) (lower b)⟩
  have : IsTrans Name (fun a b : Name => lower a ≤ lower b) := ⟨fun a b c h1 h2 => List.le_trans h1 h2⟩
  exact List.pairwise_insertionSort _ _

theorem getConfigJson_saved (lower : Name → Name) (fs : FS) (w c key : Name) (m : List (Name × Json))
    (hv : Valid (.obj m)) (hf : view fs (cfgFile w c key) = some (.file (dumps (.obj m)))) :
    ∃ v order, getConfigJson lower fs w c key = .ok (v, order) ∧ Same (.obj m) v ∧
      Ordered lower (.obj m) order := by
  have hn : names (canon (.obj m)) = .ok ((byKey (m.map (fun p => (p.1, canon p.2)))).map (·.1)) := by
    rw [canon, canonMembers_eq]; rfl
  have hs := insertionSort_spec lower ((byKey (m.map (fun p => (p.1, canon p.2)))).map (·.1))
  refine ⟨canon (.obj m), _, ?_, canon_same _ hv, ?_, hs.2⟩
  · unfold getConfigJson
    have hf' : Dict.get? fs (cfgFile w c key) = some (.file (dumps (.obj m))) := hf
    simp only [hf', loads_dumps _ hv, hn]
  · intro m' hm
    cases hm
    refine hs.1.trans (((byKey_perm _).map _).trans ?_)
    rw [List.map_map]
    exact List.Perm.refl _

theorem save_files (fs : FS) (w c : Name) (conf : Dict Name Json)
    (hex : ∀ key ∈ cfgKeys, ∃ old, view fs (cfgFile w c key) = some (.file old)) :
    (save fs w c conf).1 = .ok () ∧
    view (save fs w c conf).2 (cfgFile w c "CHD".toList) = some (.file (part conf "chd".toList)) ∧
    view (save fs w c conf).2 (cfgFile w c "CNF".toList) = some (.file (part conf "cnf".toList)) ∧
    view (save fs w c conf).2 (cfgFile w c "CST".toList) = some (.file (part conf "cst".toList)) ∧
    ∀ r, (∀ key ∈ cfgKeys, r ≠ cfgFile w c key) → view (save fs w c conf).2 r = view fs r := by
  have h := save_interrupted fs w c
    [("CHD".toList, part conf "chd".toList), ("CNF".toList, part conf "cnf".toList),
      ("CST".toList, part conf "cst".toList)] (by simp only [List.map_cons, List.map_nil]; decide) (by
      intro kt hkt
      simp only [List.mem_cons, List.not_mem_nil, or_false] at hkt
      rcases hkt with rfl | rfl | rfl <;> exact hex _ (by simp [cfgKeys])) 3
  obtain ⟨h1, h2, h3⟩ := h
  refine ⟨h1, h2 ("CHD".toList, part conf "chd".toList) (by simp),
    h2 ("CNF".toList, part conf "cnf".toList) (by simp), h2 ("CST".toList, part conf "cst".toList) (by simp), ?_⟩
  intro r hr
  apply h3
  intro kt hkt
  simp only [List.take, List.mem_cons, List.not_mem_nil, or_false] at hkt
  rcases hkt with rfl | rfl | rfl <;> exact hr _ (by simp [cfgKeys])

/-- C137: after a client has saved the three parts of an existing configuration, a request for it gives the
same three parts, whatever they hold, each with its keys in alphabetical order without regard to case; no
other file of any workspace is changed. -/
theorem saved_is_read_partial (lower : Name → Name) (fs : FS) (w c : Name) (conf : Dict Name Json)
    (chd cnf cst : List (Name × Json))
    (hex : ∀ key ∈ cfgKeys, ∃ old, view fs (cfgFile w c key) = some (.file old))
    (h1 : Dict.get? conf "chd".toList = some (.obj chd)) (h2 : Dict.get? conf "cnf".toList = some (.obj cnf))
    (h3 : Dict.get? conf "cst".toList = some (.obj cst))
    (v1 : Valid (.obj chd)) (v2 : Valid (.obj cnf)) (v3 : Valid (.obj cst)) :
    (save fs w c conf).1 = .ok () ∧
    (∃ r, getConfigs lower (save fs w c conf).2 w c = .ok r ∧ r.name = c ∧
      Same (.obj chd) r.chd ∧ Same (.obj cnf) r.cnf ∧ Same (.obj cst) r.cst ∧
      Ordered lower (.obj chd) r.chdOrder ∧ Ordered lower (.obj cnf) r.cnfOrder ∧
      Ordered lower (.obj cst) r.cstOrder) ∧
    ∀ p, (∀ key ∈ cfgKeys, p ≠ cfgFile w c key) → view (save fs w c conf).2 p = view fs p := by
  obtain ⟨s0, s1, s2, s3, s4⟩ := save_files fs w c conf hex
  refine ⟨s0, ?_, s4⟩
  unfold part at s1 s2 s3
  rw [h1, Option.getD_some] at s1
  rw [h2, Option.getD_some] at s2
  rw [h3, Option.getD_some] at s3
  obtain ⟨a1, o1, e1, p1, q1⟩ := getConfigJson_saved lower _ w c _ chd v1 s1
  obtain ⟨a2, o2, e2, p2, q2⟩ := getConfigJson_saved lower _ w c _ cnf v2 s2
  obtain ⟨a3, o3, e3, p3, q3⟩ := getConfigJson_saved lower _ w c _ cst v3 s3
  refine ⟨⟨c, a1, o1, a2, o2, a3, o3⟩, ?_, rfl, p1, p2, p3, q1, q2, q3⟩
  unfold getConfigs
  simp only [e1, e2, e3]

/-- C137 is false for a request that leaves out a part: the request succeeds, but the part is replaced by
`null`, and the configuration can no longer be read. -/
theorem saved_part_missing_violated (lower : Name → Name) (fs : FS) (w c : Name) (conf : Dict Name Json)
    (hex : ∀ key ∈ cfgKeys, ∃ old, view fs (cfgFile w c key) = some (.file old))
    (h1 : Dict.get? conf "chd".toList = none) :
    (save fs w c conf).1 = .ok () ∧
    view (save fs w c conf).2 (cfgFile w c "CHD".toList) = some (.file "null".toList) ∧
    getConfigs lower (save fs w c conf).2 w c = .error .typeError := by
  obtain ⟨s0, s1, -, -, -⟩ := save_files fs w c conf hex
  unfold part at s1
  rw [h1, Option.getD_none] at s1
  have hd : dumps (.lit .null) = "null".toList := rfl
  rw [hd] at s1
  refine ⟨s0, s1, ?_⟩
  have hl : loads "null".toList = .ok (.lit .null) := by
    rw [← hd]
    exact loads_dumps _ (.lit _)
  have hg : Dict.get? (save fs w c conf).2 (cfgFile w c "CHD".toList) = some (.file "null".toList) := s1
  unfold getConfigs getConfigJson
  simp only [hg, hl, names]

/-- C137 is false for a save that is interrupted: the file can hold a configuration that is neither the old
nor the new one, and nothing tells it from a configuration that somebody has saved. -/
theorem interrupted_third_violated : ∃ (old new : Json) (k : Nat) (third : Json), Valid old ∧ Valid new ∧
    loads (contentAfter (dumps old) (dumps new) k) = .ok third ∧ ¬Same third old ∧ ¬Same third new := by
  have hnum : ∀ t ∈ ["11".toList, "22".toList], IsNumber t := by
    intro t ht
    simp only [List.mem_cons, List.not_mem_nil, or_false] at ht
    rcases ht with rfl | rfl <;> exact ⟨[], _, [], [], by rw [List.append_nil, List.append_nil]; rfl, .inl rfl, ⟨⟨by decide, by decide⟩, by decide⟩, .inl rfl, .inl rfl⟩
  have hval : ∀ t ∈ ["11".toList, "22".toList], Valid (.obj [("n".toList, .num t)]) := by
    intro t ht
    refine .obj _ (by simp) ?_
    intro p hp
    simp only [List.mem_cons, List.not_mem_nil, or_false] at hp
    subst hp
    exact .num _ (hnum t ht)
  refine ⟨.obj [("n".toList, .num "11".toList)], .obj [("n".toList, .num "22".toList)], 12,
    .obj [("n".toList, .num "21".toList)], hval _ (by simp), hval _ (by simp), rfl, ?_, ?_⟩
  · intro h
    exact absurd (h [.key "n".toList]) (by decide)
  · intro h
    exact absurd (h [.key "n".toList]) (by decide)

/-- A workspace with a configuration, and a request with the three parts, satisfy the assumptions. -/
example : ∃ (fs : FS) (conf : Dict Name Json),
    (∀ key ∈ cfgKeys, ∃ old, view fs (cfgFile "w".toList "c".toList key) = some (.file old)) ∧
    Dict.get? conf "chd".toList = some (.obj []) ∧ Dict.get? conf "cst".toList = none := by
  refine ⟨cfgKeys.map (fun key => (cfgFile "w".toList "c".toList key, .file "{}".toList)),
    [("chd".toList, .obj [])], ?_, rfl, rfl⟩
  intro key hk
  simp only [cfgKeys, List.mem_cons, List.not_mem_nil, or_false] at hk
  rcases hk with rfl | rfl | rfl <;> exact ⟨"{}".toList, by decide +kernel⟩

/-- A configuration with nested values and characters of all kinds satisfies the assumptions. -/
example : Valid (.obj [("z".toList, .arr [.num "-1.5e-07".toList, .lit .true, .arr []]),
    ("é😀\n\"\\".toList, .obj [("".toList, .str "\x7f".toList)])]) := by
  refine .obj _ (by decide) ?_
  intro p hp
  simp only [List.mem_cons, List.not_mem_nil, or_false] at hp
  rcases hp with rfl | rfl
  · refine .arr _ ?_
    intro x hx
    simp only [List.mem_cons, List.not_mem_nil, or_false] at hx
    rcases hx with rfl | rfl | rfl
    · exact .num _ ⟨['-'], ['1'], ['.', '5'], ['e', '-', '0', '7'], rfl, .inr rfl, ⟨⟨by decide, by decide⟩, by decide⟩,
        .inr ⟨['5'], ⟨by decide, by decide⟩, rfl⟩, .inr ⟨'e', ['-'], ['0', '7'], .inl rfl, .inr (.inl rfl), ⟨by decide, by decide⟩, rfl⟩⟩
    · exact .lit _
    · exact .arr _ (by simp)
  · refine .obj _ (by simp) ?_
    intro p hp
    simp only [List.mem_cons, List.not_mem_nil, or_false] at hp
    subst hp
    exact .str _

end Dedop.JsonText
