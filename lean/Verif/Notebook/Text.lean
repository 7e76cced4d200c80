import Verif.Notebook.Model
/-!
# The notebook contains the path of the product (C86)

Specification: reading a JSON string and a Python string literal.  The claim is that the code in the notebook that a reader of the
JSON file finds contains a string literal whose value is the path.
-/
namespace Dedop.Notebook
open Dedop.Names (Name)

/-! ## Specification -/

/-- The character meant by a short JSON escape.  `\u` does not occur in the texts considered here. -/
def jsonEscape (e : Char) : Option Char :=
  if e = '"' ∨ e = '\\' ∨ e = '/' then some e
  else if e = 'b' then some (Char.ofNat 8)
  else if e = 'f' then some (Char.ofNat 12)
  else if e = 'n' then some '\n'
  else if e = 'r' then some '\r'
  else if e = 't' then some '\t'
  else none

/-- Reading a JSON string whose opening quote has been read: its value and what follows the closing quote. -/
def jsonBody : Nat → Name → Option (Name × Name)
  | 0, _ => none
  | _ + 1, [] => none
  | n + 1, c :: t =>
    if c = '"' then some ([], t)
    else if c = '\\' then
      match t with
      | [] => none
      | e :: t' => match jsonEscape e with
        | none => none
        | some x => (jsonBody n t').map fun r => (x :: r.1, r.2)
    else if c.toNat < 32 then none
    else (jsonBody n t).map fun r => (c :: r.1, r.2)

/-- A JSON string at the beginning of a text. -/
def jsonString (s : Name) : Option (Name × Name) :=
  match s with
  | '"' :: t => jsonBody (t.length + 1) t
  | _ => none

/-- Value of a hexadecimal digit. -/
def hexVal (c : Char) : Option Nat :=
  if 48 ≤ c.toNat ∧ c.toNat ≤ 57 then some (c.toNat - 48)
  else if 97 ≤ c.toNat ∧ c.toNat ≤ 102 then some (c.toNat - 87)
  else if 65 ≤ c.toNat ∧ c.toNat ≤ 70 then some (c.toNat - 55)
  else none

/-- Value of hexadecimal digits, from left to right. -/
def hexRead : Nat → Name → Option Nat
  | v, [] => some v
  | v, c :: t => (hexVal c).bind fun d => hexRead (v * 16 + d) t

/-- `k` hexadecimal digits stand for a character. -/
def hexChar (k : Nat) (t : Name) : Option (Char × Name) :=
  if t.length < k then none else (hexRead 0 (t.take k)).map fun v => (Char.ofNat v, t.drop k)

/-- A Python escape after its backslash: the character and what follows.  Octal and named escapes are left out. -/
def pyEscape : Name → Option (Char × Name)
  | [] => none
  | e :: t =>
    if e = '\'' ∨ e = '"' ∨ e = '\\' then some (e, t)
    else if e = 't' then some ('\t', t)
    else if e = 'n' then some ('\n', t)
    else if e = 'r' then some ('\r', t)
    else if e = 'x' then hexChar 2 t
    else if e = 'u' then hexChar 4 t
    else if e = 'U' then hexChar 8 t
    else none

/-- Reading a Python string literal delimited by `q` whose opening quote has been read. -/
def pyBody (q : Char) : Nat → Name → Option (Name × Name)
  | 0, _ => none
  | _ + 1, [] => none
  | n + 1, c :: t =>
    if c = q then some ([], t)
    else if c = '\\' then
      match pyEscape t with
      | none => none
      | some (x, t') => (pyBody q n t').map fun r => (x :: r.1, r.2)
    else if c = '\n' then none
    else (pyBody q n t).map fun r => (c :: r.1, r.2)

/-- A Python string literal at the beginning of a text: its value and what follows. -/
def pyLiteral (s : Name) : Option (Name × Name) :=
  match s with
  | q :: t => if q = '\'' ∨ q = '"' then pyBody q (t.length + 1) t else none
  | [] => none

/-- Text that stands for itself in JSON. -/
def Plain (s : Name) : Prop := ∀ c ∈ s, c ≠ '"' ∧ c ≠ '\\' ∧ 32 ≤ c.toNat

/-- The placeholder occurs in the text, once. -/
def Once (pat pre post : Name) : Prop := ¬ pat <:+: pre ++ pat.dropLast ∧ ¬ pat <:+: post

/-- The notebook calls a function with the path: a reader of the JSON text that stands between `pre` and `post` finds the code
`before`, a Python string literal with the value `path`, and `after`. -/
def Calls (notebook pre before path after post : Name) : Prop :=
  ∃ text lit, notebook = pre ++ text ∧ jsonString text = some (before ++ lit ++ after, post) ∧
    pyLiteral (lit ++ after) = some (path, after)

/-- A text stands for another one up to the closing quote of a JSON string. -/
def Encodes (json value : Name) : Prop := ∀ n post, json.length < n → jsonBody n (json ++ '"' :: post) = some (value, post)

/-! ## Reading JSON -/

theorem jsonBody_append (u t : Name) (h : ∀ c ∈ u, c ≠ '"' ∧ 32 ≤ c.toNat) (n : Nat) :
    jsonBody (u.length + n) (doubleBackslash u ++ t) = (jsonBody n t).map fun r => (u ++ r.1, r.2) := by
  induction u with
  | nil =>
    simp [doubleBackslash]
  | cons c u ih =>
    have ih' := ih fun x hx => h x (List.mem_cons_of_mem _ hx)
    obtain ⟨h1, h2⟩ := h c List.mem_cons_self
    rw [show (c :: u).length + n = u.length + n + 1 by simp; omega]
    by_cases hc : c = '\\'
    · subst hc
      have : doubleBackslash ('\\' :: u) ++ t = '\\' :: '\\' :: (doubleBackslash u ++ t) := by
        simp [doubleBackslash]
      rw [this]
      conv_lhs => unfold jsonBody
      simp [jsonEscape, ih', Function.comp_def]
    · have : doubleBackslash (c :: u) ++ t = c :: (doubleBackslash u ++ t) := by
        simp [doubleBackslash, hc]
      rw [this]
      conv_lhs => unfold jsonBody
      simp [h1, hc, Nat.not_lt.mpr h2, ih', Function.comp_def]

theorem double_append (a b : Name) : doubleBackslash (a ++ b) = doubleBackslash a ++ doubleBackslash b := by
  simp [doubleBackslash, List.flatMap_append]

theorem double_plain (s : Name) (h : Plain s) : doubleBackslash s = s := by
  induction s with
  | nil => rfl
  | cons c s ih =>
    have := (h c List.mem_cons_self).2.1
    have ih' := ih fun x hx => h x (List.mem_cons_of_mem _ hx)
    unfold doubleBackslash at ih' ⊢
    rw [List.flatMap_cons, if_neg this, ih']
    rfl

theorem double_length (s : Name) : s.length ≤ (doubleBackslash s).length := by
  induction s with
  | nil => simp
  | cons c s ih =>
    unfold doubleBackslash at ih ⊢
    rw [List.flatMap_cons, List.length_append, List.length_cons]
    have : 1 ≤ (if c = '\\' then ['\\', '\\'] else [c]).length := by split <;> simp
    omega

/-- A text with doubled backslashes followed by an encoded one is read as both. -/
theorem jsonString_append (u tJ t r : Name) (h : ∀ c ∈ u, c ≠ '"' ∧ 32 ≤ c.toNat) (ht : Encodes tJ t) :
    jsonString ('"' :: (doubleBackslash u ++ (tJ ++ '"' :: r))) = some (u ++ t, r) := by
  have := double_length u
  change jsonBody ((doubleBackslash u ++ (tJ ++ '"' :: r)).length + 1) (doubleBackslash u ++ (tJ ++ '"' :: r)) = _
  obtain ⟨m, hm, hlt⟩ : ∃ m, (doubleBackslash u ++ (tJ ++ '"' :: r)).length + 1 = u.length + m ∧ tJ.length < m :=
    ⟨(doubleBackslash u ++ (tJ ++ '"' :: r)).length + 1 - u.length, by simp only [List.length_append]; omega, by
      simp only [List.length_append, List.length_cons]; omega⟩
  rw [hm, jsonBody_append u _ h, ht m r hlt]
  rfl

theorem encodes_nil : Encodes [] [] := by
  intro n post hn
  obtain ⟨m, rfl⟩ : ∃ m, n = m + 1 := ⟨n - 1, by simp at hn; omega⟩
  simp [jsonBody]

theorem encodes_plain {s : Name} (h : Plain s) : Encodes s s := by
  intro n post hn
  obtain ⟨m, rfl⟩ : ∃ m, n = s.length + m := ⟨n - s.length, by omega⟩
  have := jsonBody_append s ('"' :: post) (fun x hx => ⟨(h x hx).1, (h x hx).2.2⟩) m
  rw [double_plain s h] at this
  rw [this, show jsonBody m ('"' :: post) = some ([], post) from encodes_nil m post (by simp; omega)]
  simp

/-- A line of code that ends with a comma and a line break, as in the template for two products. -/
theorem encodes_comma : Encodes [',', '\\', 'n'] [',', '\n'] := by
  intro n post hn
  obtain ⟨m, rfl⟩ : ∃ m, n = m + 1 + 1 + 1 := ⟨n - 3, by simp at hn; omega⟩
  simp [jsonBody, jsonEscape]

/-! ## Hexadecimal numbers -/

theorem hexVal_digit (d : Nat) (h : d < 16) : hexVal (hexDigit d) = some d := by
  revert d
  decide +kernel

theorem hexRead_append (a b : Name) : ∀ v w, hexRead v a = some w → hexRead v (a ++ b) = hexRead w b := by
  induction a with
  | nil => intro v w h; cases h; rfl
  | cons c a ih =>
    intro v w h
    rw [List.cons_append]
    rw [hexRead] at h ⊢
    cases hc : hexVal c with
    | none => rw [hc] at h; cases h
    | some d =>
      rw [hc] at h
      exact ih _ _ h

theorem hexRead_hex (w : Nat) : ∀ n v, hexRead v (hex w n) = some (v * 16 ^ w + n % 16 ^ w) := by
  induction w with
  | zero => intro n v; simp [hex, hexRead, Nat.mod_one]
  | succ w ih =>
    intro n v
    unfold hex
    rw [hexRead_append _ _ v _ (ih (n / 16) v)]
    unfold hexRead
    rw [hexVal_digit _ (Nat.mod_lt _ (by norm_num))]
    simp only [Option.bind_some, hexRead, Option.some.injEq]
    have : n % 16 ^ (w + 1) = n % 16 + 16 * (n / 16 % 16 ^ w) := by
      rw [pow_succ, mul_comm, Nat.mod_mul]
    rw [this, pow_succ]
    ring

theorem hex_length (w n : Nat) : (hex w n).length = w := by
  induction w generalizing n with
  | zero => rfl
  | succ w ih => unfold hex; simp [ih]

theorem hexDigit_mem (d : Nat) (h : d < 16) : hexDigit d ∈ "0123456789abcdef".toList := by
  revert d
  decide +kernel

theorem hex_mem (w n : Nat) (c : Char) (h : c ∈ hex w n) : c ∈ "0123456789abcdef".toList := by
  induction w generalizing n with
  | zero => cases h
  | succ w ih =>
    unfold hex at h
    rcases List.mem_append.mp h with h | h
    · exact ih _ h
    · rw [List.mem_singleton] at h
      rw [h]
      exact hexDigit_mem _ (Nat.mod_lt _ (by norm_num))

theorem hexChar_hex (w : Nat) (c : Char) (h : c.toNat < 16 ^ w) (r : Name) : hexChar w (hex w c.toNat ++ r) = some (c, r) := by
  unfold hexChar
  rw [if_neg (by rw [List.length_append, hex_length]; omega)]
  have e1 : (hex w c.toNat ++ r).take w = hex w c.toNat := by
    rw [List.take_append_of_le_length (hex_length w _).ge, List.take_of_length_le (hex_length w _).le]
  have e2 : (hex w c.toNat ++ r).drop w = r := by
    rw [List.drop_append_of_le_length (hex_length w _).ge, List.drop_of_length_le (hex_length w _).le, List.nil_append]
  rw [e1, e2, hexRead_hex]
  simp only [Option.map_some, zero_mul, zero_add, Nat.mod_eq_of_lt h, Char.ofNat_toNat]

/-! ## Reading the literal -/

theorem toNat_lt (c : Char) : c.toNat < 16 ^ 8 := by
  have h := c.valid
  have : c.toNat < 1114112 := by
    rcases h with h | h
    · have : c.toNat < 55296 := h
      omega
    · exact h.2
  omega

/-- One character of the path is read back. -/
theorem pyBody_char (printable : Char → Bool) (q : Char) (hq : q = '\'' ∨ q = '"') (c : Char) (n : Nat) (r : Name) :
    pyBody q (n + 1) (reprChar printable q c ++ r) = (pyBody q n r).map fun p => (c :: p.1, p.2) := by
  have hqs : q ≠ '\\' := by rcases hq with rfl | rfl <;> decide
  have esc : ∀ t x t', pyEscape t = some (x, t') → pyBody q (n + 1) ('\\' :: t) = (pyBody q n t').map fun p => (x :: p.1, p.2) := by
    intro t x t' h
    rw [pyBody, if_neg (Ne.symm hqs), if_pos rfl, h]
  have hexEsc : ∀ k e, e = 'x' ∧ k = 2 ∨ e = 'u' ∧ k = 4 ∨ e = 'U' ∧ k = 8 → c.toNat < 16 ^ k →
      pyBody q (n + 1) (['\\', e] ++ hex k c.toNat ++ r) = (pyBody q n r).map fun p => (c :: p.1, p.2) := by
    intro k e h hlt
    apply esc
    have hh := hexChar_hex k c hlt r
    rcases h with ⟨rfl, rfl⟩ | ⟨rfl, rfl⟩ | ⟨rfl, rfl⟩ <;> simpa [pyEscape] using hh
  unfold reprChar
  by_cases h1 : c = q ∨ c = '\\'
  · rw [if_pos h1]
    apply esc
    have : c = '\'' ∨ c = '"' ∨ c = '\\' := by
      rcases h1 with rfl | rfl
      · rcases hq with rfl | rfl <;> simp
      · simp
    change pyEscape (c :: r) = _
    rw [pyEscape, if_pos this]
  rw [if_neg h1]
  by_cases h2 : c = '\t'
  · rw [if_pos h2]
    apply esc
    subst h2
    simp [pyEscape]
  rw [if_neg h2]
  by_cases h3 : c = '\n'
  · rw [if_pos h3]
    apply esc
    subst h3
    simp [pyEscape]
  rw [if_neg h3]
  by_cases h4 : c = '\r'
  · rw [if_pos h4]
    apply esc
    subst h4
    simp [pyEscape]
  rw [if_neg h4]
  push Not at h1
  have raw : pyBody q (n + 1) ([c] ++ r) = (pyBody q n r).map fun p => (c :: p.1, p.2) := by
    simp only [List.cons_append, List.nil_append]
    rw [pyBody, if_neg h1.1, if_neg h1.2, if_neg h3]
  by_cases h5 : c.toNat < 32 ∨ c.toNat = 127
  · rw [if_pos h5]
    exact hexEsc 2 'x' (.inl ⟨rfl, rfl⟩) (by omega)
  rw [if_neg h5]
  by_cases h6 : c.toNat < 127
  · rw [if_pos h6]
    exact raw
  rw [if_neg h6]
  by_cases h7 : printable c = true
  · rw [if_pos h7]
    exact raw
  rw [if_neg h7]
  by_cases h8 : c.toNat < 256
  · rw [if_pos h8]
    exact hexEsc 2 'x' (.inl ⟨rfl, rfl⟩) (by omega)
  rw [if_neg h8]
  by_cases h9 : c.toNat < 65536
  · rw [if_pos h9]
    exact hexEsc 4 'u' (.inr (.inl ⟨rfl, rfl⟩)) (by omega)
  rw [if_neg h9]
  exact hexEsc 8 'U' (.inr (.inr ⟨rfl, rfl⟩)) (toNat_lt c)

theorem pyBody_repr (printable : Char → Bool) (q : Char) (hq : q = '\'' ∨ q = '"') (s r : Name) :
    ∀ n, s.length < n → pyBody q n (s.flatMap (reprChar printable q) ++ q :: r) = some (s, r) := by
  induction s with
  | nil =>
    intro n hn
    obtain ⟨m, rfl⟩ : ∃ m, n = m + 1 := ⟨n - 1, by simp at hn; omega⟩
    simp [pyBody]
  | cons c s ih =>
    intro n hn
    obtain ⟨m, rfl⟩ : ∃ m, n = m + 1 := ⟨n - 1, by simp at hn; omega⟩
    rw [List.flatMap_cons, List.append_assoc, pyBody_char printable q hq, ih m (by simp at hn; omega)]
    rfl

theorem reprQuote_cases (s : Name) : reprQuote s = '\'' ∨ reprQuote s = '"' := by
  unfold reprQuote
  split
  · exact .inr rfl
  · exact .inl rfl

theorem reprChar_length (printable : Char → Bool) (q c : Char) : 1 ≤ (reprChar printable q c).length := by
  unfold reprChar
  repeat' split
  all_goals simp

/-- `repr` is read back as the string, whatever it contains. -/
theorem pyLiteral_repr (printable : Char → Bool) (s r : Name) : pyLiteral (pyRepr printable s ++ r) = some (s, r) := by
  unfold pyLiteral pyRepr
  simp only [List.cons_append, List.append_assoc, List.nil_append]
  rw [if_pos (reprQuote_cases s)]
  apply pyBody_repr printable _ (reprQuote_cases s)
  have : ∀ l : Name, l.length ≤ (l.flatMap (reprChar printable (reprQuote s))).length := by
    intro l
    induction l with
    | nil => simp
    | cons c l ih =>
      rw [List.flatMap_cons, List.length_append, List.length_cons]
      have := reprChar_length printable (reprQuote s) c
      omega
  have := this s
  rw [List.length_append]
  omega

/-! ## Replacing -/

theorem replaceAux_none (pat new : Name) : ∀ (s : Name) (n : Nat), ¬ pat <:+: s → replaceAux pat new n s = s := by
  intro s
  induction s with
  | nil => intro n _; cases n <;> rfl
  | cons c s ih =>
    intro n h
    cases n with
    | zero => rfl
    | succ n =>
      unfold replaceAux
      rw [List.infix_cons_iff, not_or] at h
      rw [if_neg (by simpa using h.1), ih n h.2]

theorem replaceAux_once (pat new post : Name) (hne : pat ≠ []) : ∀ (pre : Name) (n : Nat), ¬ pat <:+: pre ++ pat.dropLast →
    ¬ pat <:+: post → pre.length < n → replaceAux pat new n (pre ++ pat ++ post) = pre ++ new ++ post := by
  intro pre
  induction pre with
  | nil =>
    intro n _ h2 hn
    obtain ⟨m, rfl⟩ : ∃ m, n = m + 1 := ⟨n - 1, by omega⟩
    obtain ⟨c, t, rfl⟩ := List.exists_cons_of_ne_nil hne
    simp only [List.nil_append, List.cons_append]
    rw [replaceAux, if_pos (by
      rw [List.isPrefixOf_iff_prefix]
      exact ⟨post, by simp⟩)]
    have : ((c :: (t ++ post)).drop (c :: t).length) = post := by simp
    rw [this, replaceAux_none _ _ _ _ h2]
  | cons c pre ih =>
    intro n h1 h2 hn
    obtain ⟨m, rfl⟩ : ∃ m, n = m + 1 := ⟨n - 1, by omega⟩
    have hpre : ¬ pat <+: (c :: pre) ++ pat ++ post := by
      intro hp
      apply h1
      apply List.IsPrefix.isInfix
      have hx : (c :: pre) ++ pat.dropLast <+: (c :: pre) ++ pat ++ post := by
        rw [List.append_assoc]
        exact (List.prefix_append_right_inj _).mpr ((List.dropLast_prefix pat).trans (List.prefix_append _ _))
      refine List.prefix_of_prefix_length_le hp hx ?_
      simp
      omega
    simp only [List.cons_append] at hpre ⊢
    rw [replaceAux, if_neg (by simpa using hpre)]
    rw [List.cons_append, List.infix_cons_iff, not_or] at h1
    have := ih m h1.2 h2 (by simp at hn; omega)
    rw [this]

theorem replace_once (pat new pre post : Name) (hne : pat ≠ []) (h : Once pat pre post) :
    replace pat new (pre ++ pat ++ post) = pre ++ new ++ post := by
  unfold replace
  apply replaceAux_once pat new post hne pre _ h.1 h.2
  simp
  omega

/-! ## Lemmas on the text of a path -/

theorem reprChar_safe (printable : Char → Bool) (c x : Char) (hx : x ∈ reprChar printable '\'' c) (hc : c ≠ '"') :
    x ≠ '"' ∧ 32 ≤ x.toNat := by
  have hexs : ∀ e k n, (e = 'x' ∨ e = 'u' ∨ e = 'U') → x ∈ ['\\', e] ++ hex k n → x ≠ '"' ∧ 32 ≤ x.toNat := by
    intro e k n he h
    rcases List.mem_append.mp h with h | h
    · rcases he with rfl | rfl | rfl <;> (simp at h; rcases h with rfl | rfl <;> decide)
    · have := hex_mem _ _ _ h
      revert this
      have hall : ∀ y ∈ "0123456789abcdef".toList, y ≠ '"' ∧ 32 ≤ y.toNat := by decide +kernel
      exact hall x
  unfold reprChar at hx
  split at hx
  · rename_i h
    simp only [List.mem_cons, List.not_mem_nil, or_false] at hx
    rcases hx with rfl | rfl
    · decide
    · rcases h with rfl | rfl <;> decide
  split at hx
  · simp at hx; rcases hx with rfl | rfl <;> decide
  split at hx
  · simp at hx; rcases hx with rfl | rfl <;> decide
  split at hx
  · simp at hx; rcases hx with rfl | rfl <;> decide
  split at hx
  · exact hexs _ _ _ (.inl rfl) hx
  split at hx
  · rw [List.mem_singleton] at hx
    subst hx
    exact ⟨hc, by omega⟩
  split at hx
  · rw [List.mem_singleton] at hx
    subst hx
    exact ⟨hc, by omega⟩
  split at hx
  · exact hexs _ _ _ (.inl rfl) hx
  split at hx
  · exact hexs _ _ _ (.inr (.inl rfl)) hx
  · exact hexs _ _ _ (.inr (.inr rfl)) hx

theorem repr_safe (printable : Char → Bool) (s : Name) (h : '"' ∉ s) : ∀ x ∈ s.flatMap (reprChar printable '\''), x ≠ '"' ∧ 32 ≤ x.toNat := by
  intro x hx
  obtain ⟨c, hc, hx⟩ := List.mem_flatMap.mp hx
  exact reprChar_safe printable c x hx fun e => h (e ▸ hc)

theorem plain_safe {s : Name} (h : Plain s) : ∀ x ∈ s, x ≠ '"' ∧ 32 ≤ x.toNat := fun x hx => ⟨(h x hx).1, (h x hx).2.2⟩

/-! ## C86 -/

/-- **C86**: for a path without quotes the notebook calls the function with exactly that path. -/
theorem text_calls_partial (printable : Char → Bool) (pre before afterJ after post path : Name) (hb : Plain before)
    (ha : Encodes afterJ after) (h1 : '\'' ∉ path) (h2 : '"' ∉ path) :
    Calls (pre ++ '"' :: before ++ pathText printable path ++ (afterJ ++ '"' :: post)) pre before path after post := by
  have hq : reprQuote path = '\'' := by
    unfold reprQuote
    rw [if_neg fun h => h1 h.1]
  refine ⟨'"' :: (doubleBackslash (before ++ pyRepr printable path) ++ (afterJ ++ '"' :: post)), pyRepr printable path, ?_, ?_, ?_⟩
  · rw [double_append, double_plain _ hb]
    unfold pathText
    simp
  · apply jsonString_append _ _ _ _ _ ha
    intro c hc
    rw [List.mem_append] at hc
    rcases hc with hc | hc
    · exact plain_safe hb c hc
    · unfold pyRepr at hc
      rw [hq] at hc
      simp only [List.mem_cons, List.cons_append, List.mem_append, List.not_mem_nil, or_false] at hc
      rcases hc with rfl | hc | rfl
      · decide
      · exact repr_safe printable path h2 c hc
      · decide
  · exact pyLiteral_repr printable path after

/-- **C86 is violated**: for a path that contains a single or double quote the JSON string ends before the path does, so that the
notebook does not call the function with the path. -/
theorem text_calls_violated (printable : Char → Bool) (pre before afterJ after post path : Name) (hb : Plain before)
    (h : '\'' ∈ path ∨ '"' ∈ path) :
    ¬ Calls (pre ++ '"' :: before ++ pathText printable path ++ (afterJ ++ '"' :: post)) pre before path after post := by
  rintro ⟨text, lit, htext, hjson, -⟩
  have htext : text = '"' :: before ++ pathText printable path ++ (afterJ ++ '"' :: post) := by
    have := htext
    simp only [List.append_assoc, List.cons_append, List.append_cancel_left_eq] at this
    simp only [List.append_assoc, List.cons_append]
    exact this.symm
  -- the text up to the first quote of the path
  obtain ⟨u, v, huv, hu⟩ : ∃ u v, before ++ pathText printable path = doubleBackslash u ++ '"' :: v ∧ (∀ c ∈ u, c ≠ '"' ∧ 32 ≤ c.toNat) := by
    by_cases h2 : '"' ∈ path
    · have hq : reprQuote path = '\'' := by
        unfold reprQuote
        rw [if_neg fun h => h.2 h2]
      obtain ⟨a, b, rfl, ha⟩ := List.append_of_mem h2 |>.elim fun _ _ => List.eq_append_cons_of_mem h2
      refine ⟨before ++ '\'' :: a.flatMap (reprChar printable '\''), doubleBackslash (b.flatMap (reprChar printable '\'') ++ ['\'']), ?_, ?_⟩
      · unfold pathText pyRepr
        rw [hq, double_append before, double_plain _ hb]
        have : reprChar printable '\'' '"' = ['"'] := by
          simp [reprChar]
        simp only [List.flatMap_append, List.flatMap_cons, this]
        simp [doubleBackslash, List.flatMap_append]
      · intro c hc
        rw [List.mem_append, List.mem_cons] at hc
        rcases hc with hc | rfl | hc
        · exact plain_safe hb c hc
        · decide
        · exact repr_safe printable a ha c hc
    · have h1 : '\'' ∈ path := h.resolve_right h2
      have hq : reprQuote path = '"' := by
        unfold reprQuote
        rw [if_pos ⟨h1, h2⟩]
      refine ⟨before, doubleBackslash (path.flatMap (reprChar printable '"') ++ ['"']), ?_, plain_safe hb⟩
      unfold pathText pyRepr
      rw [hq, double_plain _ hb]
      simp [doubleBackslash, List.flatMap_append]
  have e : text = '"' :: (doubleBackslash u ++ ([] ++ '"' :: (v ++ (afterJ ++ '"' :: post)))) := by
    rw [htext]
    have : ('"' :: before ++ pathText printable path : Name) = '"' :: (doubleBackslash u ++ '"' :: v) := by
      rw [← huv]
      rfl
    rw [this]
    simp
  rw [e, jsonString_append u _ _ _ hu encodes_nil] at hjson
  have : v ++ (afterJ ++ '"' :: post) = post := by
    have := congrArg Prod.snd (Option.some.inj hjson)
    exact this
  have := congrArg List.length this
  simp at this
  omega

end Dedop.Notebook
