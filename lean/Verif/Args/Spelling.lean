import Verif.Args.Context

/-!
# All ways to write an option have the same effect (C166)
-/
namespace Dedop.Args

/-! ## Specification -/

/-- A short name: a dash and a letter (or digit), as in `-w`. -/
def Short (n : Word) : Prop := n.length = 2 ∧ n.head? = some '-' ∧ n.tail ≠ ['-'] ∧ n.tail ≠ ['=']

/-- A long name or a beginning of one: two dashes and more, without an equals sign, as in `--workspace`. -/
def Long (n : Word) : Prop := ['-', '-'] <+: n ∧ n ≠ dd ∧ '=' ∉ n

instance (n : Word) : Decidable (Short n) := by unfold Short; infer_instance
instance (n : Word) : Decidable (Long n) := by unfold Long; infer_instance

/-- The options have short and long names and all names differ. -/
def Parser.Tidy (p : Parser) : Prop :=
  (p.opts.flatMap (·.names)).Nodup ∧ ∀ o ∈ p.opts, ∀ n ∈ o.names, Short n ∨ Long n

instance (p : Parser) : Decidable p.Tidy := by unfold Parser.Tidy; infer_instance

/-- The word calls an option: it is one of its names, or the beginning of a long name of it and of no other name. -/
def Calls (p : Parser) (w : Word) (o : Opt) : Prop :=
  o ∈ p.opts ∧ (w ∈ o.names ∨ (Long w ∧ ∃ n ∈ o.names, w <+: n ∧ ∀ o' ∈ p.opts, ∀ n' ∈ o'.names, w <+: n' → n' = n))

/-- The words give the value to the option: `--workspace x`, `--work x`, `-w x`, `--workspace=x`, `--work=x`, `-w=x`, `-wx`. -/
inductive Gives (p : Parser) (o : Opt) (v : Word) : List Word → Prop
  | apart {w : Word} : Calls p w o → Plain v → Gives p o v [w, v]
  | equals {w : Word} : Calls p w o → Gives p o v [w ++ '=' :: v]
  | joined {c : Char} : o ∈ p.opts → ['-', c] ∈ o.names → v ≠ [] → v.head? ≠ some '=' → Gives p o v ['-' :: c :: v]

/-! ## What the words are taken for -/

theorem strings_names (p : Parser) : p.strings.map (·.1) = p.opts.flatMap (·.names) := by
  unfold Parser.strings
  rw [List.map_flatMap]
  congr 1
  funext o
  rw [List.map_map]
  exact List.map_id _

theorem mem_unique {α β : Type} : ∀ (l : List (α × β)), (l.map (·.1)).Nodup → ∀ x ∈ l, ∀ y ∈ l, x.1 = y.1 → x = y
  | [], _, x, hx, _, _, _ => absurd hx (by simp)
  | a :: l, h, x, hx, y, hy, e => by
    simp only [List.map_cons, List.nodup_cons] at h
    rcases List.mem_cons.mp hx with rfl | hx' <;> rcases List.mem_cons.mp hy with rfl | hy'
    · rfl
    · exact absurd (e ▸ List.mem_map_of_mem hy') h.1
    · exact absurd (e.symm ▸ List.mem_map_of_mem hx') h.1
    · exact mem_unique l h.2 x hx' y hy' e

/-- Only one element passes. -/
theorem filterMap_one {α β γ : Type} (f : α × β → Option γ) : ∀ (l : List (α × β)), (l.map (·.1)).Nodup → ∀ x ∈ l, ∀ c, f x = some c →
    (∀ y ∈ l, y.1 ≠ x.1 → f y = none) → l.filterMap f = [c]
  | [], _, x, hx, _, _, _ => absurd hx (by simp)
  | a :: l, h, x, hx, c, hc, hn => by
    simp only [List.map_cons, List.nodup_cons] at h
    rcases List.mem_cons.mp hx with rfl | hx'
    · have : l.filterMap f = [] := by
        rw [List.filterMap_eq_nil_iff]
        intro y hy
        refine hn y (by simp [hy]) ?_
        rintro e
        exact h.1 (e ▸ List.mem_map_of_mem hy)
      rw [List.filterMap_cons, hc, this]
    · have ha : f a = none := hn a (by simp) (by
        rintro e
        exact h.1 (e ▸ List.mem_map_of_mem hx'))
      rw [List.filterMap_cons, ha]
      exact filterMap_one f l h.2 x hx' c hc fun y hy => hn y (by simp [hy])

theorem lookup_name (p : Parser) (hp : p.Tidy) (o : Opt) (ho : o ∈ p.opts) (n : Word) (hn : n ∈ o.names) : p.lookup n = some o := by
  have hmem : (n, o) ∈ p.strings := (mem_strings p _).mpr ⟨ho, hn⟩
  cases h : p.lookup n with
  | none => exact absurd rfl (lookup_none p n h _ hmem)
  | some o' =>
    obtain ⟨h1, h2⟩ := lookup_some p n o' h
    have := mem_unique p.strings (by rw [strings_names]; exact hp.1) _ hmem (n, o') ((mem_strings p _).mpr ⟨h1, h2⟩) rfl
    rw [(Prod.mk.inj this).2]

theorem lookup_not (p : Parser) (w : Word) (h : ∀ o ∈ p.opts, w ∉ o.names) : p.lookup w = none := by
  cases hl : p.lookup w with
  | none => rfl
  | some o => exact absurd (lookup_some p w o hl).2 (h o (lookup_some p w o hl).1)

theorem name_noEq (p : Parser) (hp : p.Tidy) (o : Opt) (ho : o ∈ p.opts) (n : Word) (hn : n ∈ o.names) : '=' ∉ n := by
  rcases hp.2 o ho n hn with h | h
  · obtain ⟨h1, h2, h3, h4⟩ := h
    match n, h1 with
    | [a, b], _ =>
      simp only [List.head?_cons, Option.some.injEq] at h2
      simp only [List.tail_cons, ne_eq, List.cons.injEq, and_true] at h4
      subst h2
      simp only [List.mem_cons, List.not_mem_nil, or_false, not_or]
      exact ⟨by decide, fun e => h4 e.symm⟩
  · exact h.2.2

theorem name_ne_dd (p : Parser) (hp : p.Tidy) (o : Opt) (ho : o ∈ p.opts) (n : Word) (hn : n ∈ o.names) : n ≠ dd := by
  rintro rfl
  rcases hp.2 o ho _ hn with h | h
  · exact h.2.2.1 rfl
  · exact h.2.1 rfl

theorem name_dash (p : Parser) (hp : p.Tidy) (o : Opt) (ho : o ∈ p.opts) (n : Word) (hn : n ∈ o.names) : ∃ c r, n = '-' :: c :: r := by
  rcases hp.2 o ho n hn with h | h
  · obtain ⟨h1, h2, _⟩ := h
    match n, h1 with
    | [a, b], _ =>
      simp only [List.head?_cons, Option.some.injEq] at h2
      subst h2
      exact ⟨b, [], rfl⟩
  · obtain ⟨t, ht⟩ := h.1
    exact ⟨'-', t, ht.symm⟩

theorem splitEq_at (w v : Word) (hw : '=' ∉ w) : splitEq (w ++ '=' :: v) = some (w, v) := by
  unfold splitEq
  rw [if_pos (by simp)]
  have h1 : (w ++ '=' :: v).takeWhile (· != '=') = w := by
    induction w with
    | nil => simp
    | cons c w ih =>
      simp only [List.mem_cons, not_or] at hw
      have : (c != '=') = true := by simpa [bne_iff_ne] using fun e => hw.1 e.symm
      rw [List.cons_append, List.takeWhile_cons, if_pos this, ih hw.2]
  have h2 : (w ++ '=' :: v).dropWhile (· != '=') = '=' :: v := by
    clear h1
    induction w with
    | nil => simp
    | cons c w ih =>
      simp only [List.mem_cons, not_or] at hw
      have : (c != '=') = true := by simpa [bne_iff_ne] using fun e => hw.1 e.symm
      rw [List.cons_append, List.dropWhile_cons, if_pos this, ih hw.2]
  rw [h1, h2]
  rfl

theorem splitEq_none (w : Word) (hw : '=' ∉ w) : splitEq w = none := by
  unfold splitEq
  rw [if_neg hw]

/-- Proof helper: an abbreviation is no name itself. -/
theorem tuples_long (p : Parser) (hp : p.Tidy) (w : Word) (hw : Long w) (ex : Option Word) (o : Opt) (ho : o ∈ p.opts) (n : Word) (hn : n ∈ o.names)
    (hpre : w <+: n) (hu : ∀ o' ∈ p.opts, ∀ n' ∈ o'.names, w <+: n' → n' = n) :
    tuples p (w ++ (match ex with | none => [] | some v => '=' :: v)) = [(n, o, ex.map fun v => (true, v))] := by
  obtain ⟨⟨t, rfl⟩, h2, h3⟩ := hw
  have hmem : (n, o) ∈ p.strings := (mem_strings p _).mpr ⟨ho, hn⟩
  have key : ∀ e : Option (Bool × Word), (p.strings.filter fun x => (['-', '-'] ++ t).isPrefixOf x.1).map (fun x => (x.1, x.2, e)) = [(n, o, e)] := by
    intro e
    rw [← List.filterMap_eq_map, List.filterMap_filter]
    apply filterMap_one _ _ (by rw [strings_names]; exact hp.1) (n, o) hmem
    · simp only [List.isPrefixOf_iff_prefix]
      rw [if_pos hpre]; rfl
    · rintro ⟨n', o'⟩ hy hne
      obtain ⟨h4, h5⟩ := (mem_strings p _).mp hy
      simp only [List.isPrefixOf_iff_prefix]
      rw [if_neg]
      intro h6
      exact hne (hu o' h4 n' h5 h6)
  unfold tuples
  cases ex with
  | none =>
    dsimp only
    rw [List.append_nil, if_pos (by rfl), splitEq_none _ h3]
    exact key none
  | some v =>
    dsimp only
    rw [if_pos (by rfl), splitEq_at _ v h3]
    exact key (some (true, v))

theorem word_calls (p : Parser) (hp : p.Tidy) (w : Word) (o : Opt) (h : Calls p w o) :
    w ≠ dd ∧ '=' ∉ w ∧ ∃ n, parseOptional p w = .ok (.opt n (some o) none) := by
  obtain ⟨ho, h⟩ := h
  rcases h with h | ⟨hl, n, hn, hpre, hu⟩
  · refine ⟨name_ne_dd p hp o ho w h, name_noEq p hp o ho w h, w, ?_⟩
    obtain ⟨c, r, rfl⟩ := name_dash p hp o ho w h
    rw [parseOptional, if_neg (by simp), lookup_name p hp o ho _ h]
  · refine ⟨hl.2.1, hl.2.2, ?_⟩
    cases hlk : p.lookup w with
    | some o' =>
      obtain ⟨h1, h2⟩ := lookup_some p w o' hlk
      have e := hu o' h1 w h2 (List.prefix_refl w)
      subst e
      rw [lookup_name p hp o ho _ hn] at hlk
      obtain ⟨t, rfl⟩ := hl.1
      have hlk' := lookup_name p hp o ho _ hn
      refine ⟨['-', '-'] ++ t, ?_⟩
      rw [List.cons_append] at hlk' ⊢
      rw [parseOptional, if_neg (by simp), hlk']
    | none =>
      have ht := tuples_long p hp w hl none o ho n hn hpre hu
      simp only [List.append_nil, Option.map_none] at ht
      have hsp := splitEq_none w hl.2.2
      obtain ⟨t, rfl⟩ := hl.1
      refine ⟨n, ?_⟩
      rw [List.cons_append] at hlk hsp ht ⊢
      rw [parseOptional, if_neg (by simp), hlk]
      dsimp only
      rw [if_neg (by simp), hsp]
      dsimp only
      rw [abbreviated, ht]

theorem word_equals (p : Parser) (hp : p.Tidy) (w : Word) (o : Opt) (h : Calls p w o) (v : Word) :
    w ++ '=' :: v ≠ dd ∧ ∃ n, parseOptional p (w ++ '=' :: v) = .ok (.opt n (some o) (some (true, v))) := by
  obtain ⟨_, heq, _⟩ := word_calls p hp w o h
  have hsp := splitEq_at w v heq
  have hnot : p.lookup (w ++ '=' :: v) = none := by
    apply lookup_not
    intro o' ho' hn'
    exact name_noEq p hp o' ho' _ hn' (by simp)
  obtain ⟨ho, h⟩ := h
  refine ⟨by
    intro e
    have : '=' ∈ dd := by rw [← e]; simp
    exact absurd this (by decide), ?_⟩
  have hd : ∃ c r, w = '-' :: c :: r := by
    rcases h with h | ⟨hl, _⟩
    · exact name_dash p hp o ho w h
    · obtain ⟨t, ht⟩ := hl.1
      exact ⟨'-', t, ht.symm⟩
  have start : parseOptional p (w ++ '=' :: v) = match p.lookup w with
      | some o => .ok (.opt w (some o) (some (true, v)))
      | none => abbreviated p (w ++ '=' :: v) := by
    obtain ⟨c, r, rfl⟩ := hd
    simp only [List.cons_append] at hsp hnot ⊢
    rw [parseOptional, if_neg (by simp), hnot]
    dsimp only
    rw [if_neg (by simp), hsp]
    dsimp only
    generalize p.lookup ('-' :: c :: r) = u
    cases u <;> rfl
  rw [start]
  rcases h with h | ⟨hl, n, hn, hpre, hu⟩
  · exact ⟨w, by rw [lookup_name p hp o ho w h]⟩
  · cases hlk : p.lookup w with
    | some o' =>
      obtain ⟨h1, h2⟩ := lookup_some p w o' hlk
      have e := hu o' h1 w h2 (List.prefix_refl w)
      subst e
      rw [lookup_name p hp o ho _ hn] at hlk
      obtain rfl := Option.some.inj hlk
      exact ⟨_, rfl⟩
    | none =>
      have ht := tuples_long p hp w hl (some v) o ho n hn hpre hu
      simp only [Option.map_some] at ht
      refine ⟨n, ?_⟩
      dsimp only
      rw [abbreviated, ht]

/-- Proof helper: what a word with a short name and a rest is taken for. -/
def restOf : Word → Option (Bool × Word)
  | [] => none
  | '=' :: y => some (true, y)
  | r => some (false, r)

theorem short_dash (p : Parser) (hp : p.Tidy) (o : Opt) (ho : o ∈ p.opts) (c : Char) (hn : ['-', c] ∈ o.names) : c ≠ '-' ∧ c ≠ '=' := by
  rcases hp.2 o ho _ hn with h | h
  · obtain ⟨_, _, h3, h4⟩ := h
    simp only [List.tail_cons, ne_eq, List.cons.injEq, and_true] at h3 h4
    exact ⟨h3, h4⟩
  · obtain ⟨h1, h2, _⟩ := h
    obtain ⟨t, ht⟩ := h1
    simp only [List.cons_append, List.nil_append, List.cons.injEq, true_and] at ht
    exact absurd (by rw [← ht.1]; rfl) h2

theorem word_short (p : Parser) (hp : p.Tidy) (o : Opt) (ho : o ∈ p.opts) (c : Char) (hn : ['-', c] ∈ o.names) (v : Word) :
    '-' :: c :: v ≠ dd ∧ parseOptional p ('-' :: c :: v) = .ok (.opt ['-', c] (some o) (restOf v)) := by
  obtain ⟨hc, hce⟩ := short_dash p hp o ho c hn
  refine ⟨by intro e; simp only [dd, List.cons.injEq] at e; exact hc e.2.1, ?_⟩
  have hlen : ∀ (t : Word), t ≠ [] → p.lookup ('-' :: c :: t) = none := by
    intro t ht
    apply lookup_not
    intro o' ho' hn'
    rcases hp.2 o' ho' _ hn' with h | h
    · have := h.1
      simp only [List.length_cons] at this
      exact ht (List.length_eq_zero_iff.mp (by omega))
    · obtain ⟨⟨t', ht'⟩, _⟩ := h
      simp only [List.cons_append, List.nil_append, List.cons.injEq, true_and] at ht'
      exact hc ht'.1.symm
  have habbr : ∀ (t : Word), t ≠ [] → abbreviated p ('-' :: c :: t) = .ok (.opt ['-', c] (some o) (some (false, t))) := by
    intro t ht
    have : tuples p ('-' :: c :: t) = [(['-', c], o, some (false, t))] := by
      unfold tuples
      rw [if_neg (by simpa using hc)]
      apply filterMap_one _ _ (by rw [strings_names]; exact hp.1) (['-', c], o) ((mem_strings p _).mpr ⟨ho, hn⟩)
      · rw [if_pos (by rfl)]; rfl
      · rintro ⟨n', o'⟩ hy hne
        obtain ⟨h4, h5⟩ := (mem_strings p _).mp hy
        rw [if_neg (by simpa using hne), if_neg]
        rw [List.isPrefixOf_iff_prefix]
        rintro ⟨s, hs⟩
        rcases hp.2 o' h4 n' h5 with h | h
        · have := h.1
          dsimp only at hs
          rw [← hs] at this
          simp only [List.length_append, List.length_cons] at this
          exact ht (List.length_eq_zero_iff.mp (by omega))
        · obtain ⟨⟨t', ht'⟩, _⟩ := h
          dsimp only at hs
          rw [← hs] at ht'
          simp only [List.cons_append, List.nil_append, List.cons.injEq, true_and] at ht'
          exact hc ht'.1.symm
    rw [abbreviated, this]
  cases v with
  | nil =>
    rw [parseOptional, if_neg (by simp), lookup_name p hp o ho _ hn]
    rfl
  | cons d v =>
    rw [parseOptional, if_neg (by simp), hlen (d :: v) (by simp)]
    dsimp only
    rw [if_neg (by simp)]
    by_cases hd : d = '='
    · subst hd
      have := splitEq_at ['-', c] v (by simp only [List.mem_cons, List.not_mem_nil, or_false, not_or]; exact ⟨by decide, fun e => hce e.symm⟩)
      simp only [List.cons_append, List.nil_append] at this
      rw [this]
      dsimp only
      rw [lookup_name p hp o ho _ hn]
      rfl
    · have hr : restOf (d :: v) = some (false, d :: v) := by
        unfold restOf
        split
        · simp at *
        · rename_i h; simp only [List.cons.injEq] at h; exact absurd h.1 hd
        · rfl
      rw [hr]
      cases hs : splitEq ('-' :: c :: d :: v) with
      | none => exact habbr _ (by simp)
      | some ab =>
        obtain ⟨a, b⟩ := ab
        dsimp only
        have ha : a = '-' :: c :: d :: v.takeWhile (· != '=') := by
          unfold splitEq at hs
          split at hs
          · simp only [Option.some.injEq, Prod.mk.injEq] at hs
            rw [← hs.1]
            have h1 : ('-' != '=') = true := by decide
            have h2 : (c != '=') = true := by simpa [bne_iff_ne] using hce
            have h3 : (d != '=') = true := by simpa [bne_iff_ne] using hd
            rw [List.takeWhile_cons, if_pos h1, List.takeWhile_cons, if_pos h2, List.takeWhile_cons, if_pos h3]
          · simp at hs
        rw [ha, hlen _ (by simp)]
        exact habbr _ (by simp)

/-! ## Words in a line -/

theorem classify_before (p : Parser) : ∀ (before : List Word) (_ : dd ∉ before),
    (∃ e, ∀ rest, classify p (before ++ rest) = .error e) ∨
    (∃ B, ∀ rest, classify p (before ++ rest) = (classify p rest).map (B ++ ·))
  | [], _ => Or.inr ⟨[], fun rest => by
      rw [List.nil_append]
      cases classify p rest <;> rfl⟩
  | w :: before, hw => by
    simp only [List.mem_cons, not_or] at hw
    have h1 : ∀ rest, classify p (w :: before ++ rest) = match parseOptional p w with
        | .error e => .error e
        | .ok s => match classify p (before ++ rest) with
          | .error e => .error e
          | .ok l => .ok ((w, s) :: l) := by
      intro rest
      rw [List.cons_append, classify, if_neg (fun e => hw.1 e.symm)]
      generalize parseOptional p w = u
      cases u with
      | error e => rfl
      | ok s =>
        dsimp only
        generalize classify p (before ++ rest) = u
        cases u <;> rfl
    cases hp : parseOptional p w with
    | error e => exact Or.inl ⟨e, fun rest => by rw [h1, hp]⟩
    | ok s =>
      rcases classify_before p before hw.2 with ⟨e, he⟩ | ⟨B, hB⟩
      · exact Or.inl ⟨e, fun rest => by rw [h1, hp, he]⟩
      · refine Or.inr ⟨(w, s) :: B, fun rest => ?_⟩
        rw [h1, hp, hB]
        cases classify p rest <;> rfl

theorem classify_one (p : Parser) (w : Word) (hw : w ≠ dd) (s : Sym) (h : parseOptional p w = .ok s) (rest : List Word) :
    classify p ([w] ++ rest) = (classify p rest).map ([(w, s)] ++ ·) := by
  rw [List.singleton_append, classify, if_neg hw, h]
  cases classify p rest <;> rfl

theorem classify_two (p : Parser) (w : Word) (hw : w ≠ dd) (s : Sym) (h : parseOptional p w = .ok s) (v : Word) (hv : v ≠ dd) (s' : Sym)
    (h' : parseOptional p v = .ok s') (rest : List Word) :
    classify p ([w, v] ++ rest) = (classify p rest).map ([(w, s), (v, s')] ++ ·) := by
  have := classify_one p v hv s' h' rest
  rw [List.singleton_append] at this
  rw [List.cons_append, List.singleton_append, classify, if_neg hw, h, this]
  cases classify p rest <;> rfl

/-- Parts of a line that are read alike can replace each other. -/
theorem parse_alike (p : Parser) (xs ys : List Word) (x y : Word × Sym) (X Y : List (Word × Sym)) (hx : x.2.isOpt = true) (hy : y.2.isOpt = true)
    (hX : ∀ rest, classify p (xs ++ rest) = (classify p rest).map (x :: X ++ ·)) (hY : ∀ rest, classify p (ys ++ rest) = (classify p rest).map (y :: Y ++ ·))
    (H : ∀ A poss ns e f f', (x :: X ++ A).length < f → (y :: Y ++ A).length < f' →
      loop p f ⟨x :: X ++ A, poss, ns, e⟩ = loop p f' ⟨y :: Y ++ A, poss, ns, e⟩)
    (before after : List Word) (hb : dd ∉ before) : parse p (before ++ xs ++ after) = parse p (before ++ ys ++ after) := by
  unfold parse
  rw [List.append_assoc, List.append_assoc]
  rcases classify_before p before hb with ⟨e, he⟩ | ⟨B, hB⟩
  · rw [he, he]
  · rw [hB, hB, hX, hY]
    cases classify p after with
    | error e => rfl
    | ok A =>
      simp only [Except.map]
      have := loop_context p x y hx hy (X ++ A) (Y ++ A) (fun poss ns e f f' => H A poss ns e f f') B.length B le_rfl p.poss p.defaults []
        ((B ++ (x :: X ++ A)).length + 1) ((B ++ (y :: Y ++ A)).length + 1) (by simp) (by simp)
      simp only [List.cons_append] at this ⊢
      rw [this]

/-- **C166.**  The names of an option and their unambiguous beginnings can replace each other, whatever stands before and after. -/
theorem names_alike (p : Parser) (hp : p.Tidy) (o : Opt) (w w' : Word) (h : Calls p w o) (h' : Calls p w' o) (before after : List Word) (hb : dd ∉ before) :
    parse p (before ++ [w] ++ after) = parse p (before ++ [w'] ++ after) := by
  obtain ⟨h1, _, n, h2⟩ := word_calls p hp w o h
  obtain ⟨h1', _, n', h2'⟩ := word_calls p hp w' o h'
  refine parse_alike p [w] [w'] _ _ [] [] rfl rfl (classify_one p w h1 _ h2) (classify_one p w' h1' _ h2') ?_ before after hb
  intro A poss ns e f f' hf hf'
  obtain ⟨f, rfl⟩ : ∃ g, f = g + 1 := ⟨f - 1, by omega⟩
  obtain ⟨f', rfl⟩ : ∃ g, f' = g + 1 := ⟨f' - 1, by omega⟩
  rw [List.cons_append, List.cons_append, loop_head p f _ rfl, loop_head p f' _ rfl]
  simp only [List.cons_append, List.nil_append, List.length_cons] at hf hf'
  simp only [consumeOpt, cluster, List.nil_append]
  cases o.arity.count (A.map (·.2)) with
  | none => rfl
  | some k =>
    dsimp only
    cases actAll ns [(o, (A.take k).map (·.1))] with
    | error e => rfl
    | ok ns' => exact loop_any_fuel p f f' _ (by simp; omega) (by simp; omega)

theorem plain_arg (p : Parser) (v : Word) (hv : Plain v) : parseOptional p v = .ok .arg := by
  cases v with
  | nil => rfl
  | cons c r =>
    rw [parseOptional, if_pos]
    intro e; exact hv (by simp [e])

theorem gives_syms (p : Parser) (hp : p.Tidy) (o : Opt) (hone : o.arity = .one) (v : Word) (ws : List Word) (h : Gives p o v ws) :
    ∃ (x : Word × Sym) (X : List (Word × Sym)), x.2.isOpt = true ∧ (∀ rest, classify p (ws ++ rest) = (classify p rest).map (x :: X ++ ·)) ∧
      ∀ A poss ns e, consumeOpt p ⟨x :: X ++ A, poss, ns, e⟩ = .ok ⟨A, poss, Function.update ns o.dest (.word v), e⟩ := by
  cases h with
  | @apart w hw hv =>
    obtain ⟨h1, _, n, h2⟩ := word_calls p hp w o hw
    refine ⟨_, _, rfl, classify_two p w h1 _ h2 v (plain_ne v hv) _ (plain_arg p v hv), ?_⟩
    intro A poss ns e
    simp [consumeOpt, cluster, hone, Arity.count, actAll, act, optValue]
  | @equals w hw =>
    obtain ⟨h1, n, h2⟩ := word_equals p hp w o hw v
    refine ⟨_, [], rfl, classify_one p _ h1 _ h2, ?_⟩
    intro A poss ns e
    simp [consumeOpt, cluster, hone, Arity.count, actAll, act, optValue]
  | @joined c ho hn hne heq =>
    obtain ⟨h1, h2⟩ := word_short p hp o ho c hn v
    have hr : restOf v = some (false, v) := by
      unfold restOf
      split
      · exact absurd rfl hne
      · exact absurd rfl heq
      · rfl
    rw [hr] at h2
    refine ⟨_, [], rfl, classify_one p _ h1 _ h2, ?_⟩
    intro A poss ns e
    simp [consumeOpt, cluster, hone, Arity.count, actAll, act, optValue]

/-- **C166.**  All ways to give a value to an option can replace each other, whatever stands before and after. -/
theorem values_alike (p : Parser) (hp : p.Tidy) (o : Opt) (hone : o.arity = .one) (v : Word) (ws ws' : List Word) (h : Gives p o v ws) (h' : Gives p o v ws')
    (before after : List Word) (hb : dd ∉ before) : parse p (before ++ ws ++ after) = parse p (before ++ ws' ++ after) := by
  obtain ⟨x, X, hx, hX, hc⟩ := gives_syms p hp o hone v ws h
  obtain ⟨y, Y, hy, hY, hc'⟩ := gives_syms p hp o hone v ws' h'
  refine parse_alike p ws ws' x y X Y hx hy hX hY ?_ before after hb
  intro A poss ns e f f' hf hf'
  obtain ⟨f, rfl⟩ : ∃ g, f = g + 1 := ⟨f - 1, by omega⟩
  obtain ⟨f', rfl⟩ : ∃ g, f' = g + 1 := ⟨f' - 1, by omega⟩
  rw [List.cons_append, List.cons_append, loop_head p f _ hx, loop_head p f' _ hy, ← List.cons_append, ← List.cons_append, hc, hc']
  simp only [List.cons_append, List.length_cons, List.length_append] at hf hf'
  exact loop_any_fuel p f f' _ (by dsimp only; omega) (by dsimp only; omega)

theorem cluster_any_fuel (p : Parser) (following : List (Word × Sym)) : ∀ (f f' : Nat) (name : Word) (o : Opt) (ex : Option (Bool × Word)),
    (∀ x ∈ ex, x.2.length < f) → 0 < f → (∀ x ∈ ex, x.2.length < f') → 0 < f' → cluster p following f name o ex = cluster p following f' name o ex
  | 0, _, _, _, _, _, h, _, _ => absurd h (by omega)
  | _, 0, _, _, _, _, _, _, h => absurd h (by omega)
  | f + 1, f' + 1, name, o, none, _, _, _, _ => by rw [cluster, cluster]
  | f + 1, f' + 1, name, o, some (eq, x), hx, _, hx', _ => by
    have hlen := hx _ rfl
    have hlen' := hx' _ rfl
    dsimp only at hlen hlen'
    rw [cluster.eq_def, cluster.eq_def p following (f' + 1)]
    dsimp only
    split
    · split
      · rename_i c t
        simp only [List.length_cons] at hlen hlen'
        split
        · split
          · rfl
          · split
            · rename_i o' _
              have key : ∀ rest : Option (Bool × Word), (∀ x ∈ rest, x.2.length ≤ t.length) → ((match cluster p following f ['-', c] o' rest with
                  | .error e => .error e
                  | .ok k => .ok { k with acts := (o, []) :: k.acts }) : Except Err Cluster) =
                  (match cluster p following f' ['-', c] o' rest with
                  | .error e => .error e
                  | .ok k => .ok { k with acts := (o, []) :: k.acts }) := by
                intro rest hr
                rw [cluster_any_fuel p following f f' ['-', c] o' rest (fun x hx => by have := hr x hx; omega) (by omega)
                  (fun x hx => by have := hr x hx; omega) (by omega)]
              apply key
              intro y hy
              split at hy
              · simp at hy
              · simp only [Option.mem_def, Option.some.injEq] at hy
                subst hy
                simp
              · simp only [Option.mem_def, Option.some.injEq] at hy
                subst hy
                simp
            · rfl
        · rfl
      · rfl
    · rfl
    · rfl

/-- **C166.**  Switches can be joined: `-s` followed by another option with a short name (with its value or not, itself joined or not) can be
written as one word. -/
theorem switches_joined (p : Parser) (hp : p.Tidy) (o o' : Opt) (c c' : Char) (ho : o ∈ p.opts) (hn : ['-', c] ∈ o.names) (hflag : o.arity = .flag)
    (ho' : o' ∈ p.opts) (hn' : ['-', c'] ∈ o'.names) (r : Word) (before after : List Word) (hb : dd ∉ before) :
    parse p (before ++ ['-' :: c :: c' :: r] ++ after) = parse p (before ++ [['-', c], '-' :: c' :: r] ++ after) := by
  obtain ⟨hc', hce'⟩ := short_dash p hp o' ho' c' hn'
  obtain ⟨h1, h2⟩ := word_short p hp o ho c hn (c' :: r)
  obtain ⟨h3, h4⟩ := word_short p hp o ho c hn []
  obtain ⟨h5, h6⟩ := word_short p hp o' ho' c' hn' r
  have hr : restOf (c' :: r) = some (false, c' :: r) := by
    unfold restOf
    split
    · simp at *
    · rename_i h; simp only [List.cons.injEq] at h; exact absurd h.1 hce'
    · rfl
  rw [hr] at h2
  refine parse_alike p _ _ _ _ [] _ rfl rfl (classify_one p _ h1 _ h2) (classify_two p _ h3 _ h4 _ h5 _ h6) ?_ before after hb
  intro A poss ns e f f' hf hf'
  simp only [List.cons_append, List.nil_append, List.length_cons] at hf hf'
  obtain ⟨f, rfl⟩ : ∃ g, f = g + 1 := ⟨f - 1, by omega⟩
  obtain ⟨f', rfl⟩ : ∃ g, f' = g + 1 + 1 := ⟨f' - 2, by omega⟩
  have hlook := lookup_name p hp o' ho' _ hn'
  simp only [List.cons_append, List.nil_append]
  rw [loop_head p f _ rfl, loop_head p (f' + 1) _ rfl]
  have e1 : consumeOpt p ⟨(['-', c], .opt ['-', c] (some o) (restOf [])) :: ('-' :: c' :: r, .opt ['-', c'] (some o') (restOf r)) :: A, poss, ns, e⟩ =
      .ok ⟨('-' :: c' :: r, .opt ['-', c'] (some o') (restOf r)) :: A, poss, Function.update ns o.dest (.flag true), e⟩ := by
    simp [consumeOpt, restOf, cluster, hflag, Arity.count, actAll, act]
  rw [e1]
  dsimp only
  rw [loop_head p f' _ rfl]
  have hfuel : ∀ x ∈ restOf r, x.2.length ≤ r.length := by
    intro x hx
    unfold restOf at hx
    split at hx
    · simp at hx
    · simp only [Option.mem_def, Option.some.injEq] at hx; subst hx; simp
    · simp only [Option.mem_def, Option.some.injEq] at hx; subst hx; simp
  have e2 : cluster p A (('-' :: c :: c' :: r).length + 1) ['-', c] o (some (false, c' :: r)) =
      match cluster p A (('-' :: c' :: r).length + 1) ['-', c'] o' (restOf r) with
      | .error e => .error e
      | .ok k => .ok { k with acts := (o, []) :: k.acts } := by
    rw [cluster_any_fuel p A (('-' :: c' :: r).length + 1) ('-' :: c :: c' :: r).length ['-', c'] o' (restOf r)
      (fun x hx => by have := hfuel x hx; simp; omega) (by simp) (fun x hx => by have := hfuel x hx; simp; omega) (by simp)]
    rw [cluster.eq_def]
    simp only [hflag, Arity.count]
    obtain ⟨hcd, _⟩ := short_dash p hp o ho c hn
    rw [if_pos (by simpa using hcd), if_neg (by simpa using hc'), hlook]
    rfl
  simp only [consumeOpt]
  rw [e2]
  cases cluster p A (('-' :: c' :: r).length + 1) ['-', c'] o' (restOf r) with
  | error e => rfl
  | ok k =>
    dsimp only
    have e3 : actAll ns ((o, []) :: k.acts) = actAll (Function.update ns o.dest (.flag true)) k.acts := by
      simp [actAll, act, hflag]
    rw [e3]
    cases actAll (Function.update ns o.dest (.flag true)) k.acts with
    | error e => rfl
    | ok ns' => exact loop_any_fuel p f f' _ (by simp; omega) (by simp; omega)

/-- **C166.**  The options of every command have short and long names, all different. -/
theorem commands_tidy : ∀ c ∈ commands, c.parser.Tidy := by decide +kernel

/-! ## Examples -/

-- `-sqwW`, `-s -q --work=W` and others are the same for `run`
example (before after : List Word) (hb : dd ∉ before) :
    parse cmdRun.parser (before ++ ["-w".toList, "W".toList] ++ after) = parse cmdRun.parser (before ++ ["--work=W".toList] ++ after) :=
  values_alike cmdRun.parser (by decide +kernel) workspaceOpt rfl "W".toList _ _
    (.apart ⟨by decide +kernel, Or.inl (by decide +kernel)⟩ (by unfold Plain; decide +kernel))
    (.equals (w := "--work".toList) ⟨by decide +kernel, Or.inr ⟨by decide +kernel, "--workspace".toList, by decide +kernel, by decide +kernel, by decide +kernel⟩⟩)
    before after hb

example (before after : List Word) (hb : dd ∉ before) :
    parse cmdRun.parser (before ++ ["-sqwW".toList] ++ after) = parse cmdRun.parser (before ++ ["-s".toList, "-qwW".toList] ++ after) :=
  switches_joined cmdRun.parser (by decide +kernel) (option "-s" "--skip-l1bs" "skip_l1bs" .flag) quietOpt 's' 'q' (by decide +kernel) (by decide +kernel) rfl
    (by decide +kernel) (by decide +kernel) "wW".toList before after hb

example (before after : List Word) (hb : dd ∉ before) :
    parse cmdRun.parser (before ++ ["-i".toList] ++ after) = parse cmdRun.parser (before ++ ["--in".toList] ++ after) :=
  names_alike cmdRun.parser (by decide +kernel) (option "-i" "--inputs" "inputs" .many) _ _
    ⟨by decide +kernel, Or.inl (by decide +kernel)⟩
    ⟨by decide +kernel, Or.inr ⟨by decide +kernel, "--inputs".toList, by decide +kernel, by decide +kernel, by decide +kernel⟩⟩ before after hb

-- where two long names begin alike, the beginning of both calls none
example : ¬ Calls outCompare.parser "--work".toList workspaceOpt := by
  rintro ⟨_, h | ⟨_, n, hn, hpre, hu⟩⟩
  · exact absurd h (by decide +kernel)
  · have h1 := hu workspaceOpt (by decide +kernel) "--workspace".toList (by decide +kernel) (by decide +kernel)
    have h2 := hu (option "-W" "--workspace-2" "workspace_name_2" .one) (by decide +kernel) "--workspace-2".toList (by decide +kernel) (by decide +kernel)
    rw [← h1] at h2
    exact absurd h2 (by decide +kernel)

end Dedop.Args
