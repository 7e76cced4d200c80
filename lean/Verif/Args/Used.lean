import Verif.Args.Lines

/-!
# What a command gets from its line (C161): every word is used
-/
namespace Dedop.Args

/-! ## Specification -/

/-- The words an option takes. -/
def Opt.Takes (o : Opt) (ws : List Word) : Prop :=
  match o.arity with
  | .flag => ws = []
  | .one => ∃ w, ws = [w]
  | .many => True
  | .help => False

/-- A word means the name of an option: it is that name or a beginning of it and of no other name. -/
def Means (p : Parser) (w n : Word) (o : Opt) : Prop :=
  o ∈ p.opts ∧ n ∈ o.names ∧ (w = n ∨ (w <+: n ∧ ∀ o' ∈ p.opts, ∀ n' ∈ o'.names, w <+: n' → n' = n))

/-- A word with the words that follow it spells these options with these words:
`--workspace x`, `--workspace=x`, `-wx`, `-sq`. -/
inductive Spells (p : Parser) : Word → List Word → List (Opt × List Word) → Prop
  | name {w n : Word} {o : Opt} {ws : List Word} : Means p w n o → o.Takes ws → Spells p w ws [(o, ws)]
  | equals {a n x : Word} {o : Opt} : Means p a n o → o.Takes [x] → Spells p (a ++ '=' :: x) [] [(o, [x])]
  | joined {c : Char} {x : Word} {o : Opt} : o ∈ p.opts → ['-', c] ∈ o.names → x ≠ [] → o.Takes [x] → Spells p ('-' :: c :: x) [] [(o, [x])]
  | flag {c : Char} {r : Word} {o : Opt} {ws : List Word} {acts : List (Opt × List Word)} :
      o ∈ p.opts → ['-', c] ∈ o.names → o.Takes [] → r ≠ [] → Spells p ('-' :: r) ws acts → Spells p ('-' :: c :: r) ws ((o, []) :: acts)

/-- A piece of a line: a word with options and the words taken by the last of them, or the words of a positional argument. -/
inductive Piece where
  | opt (w : Word) (ws : List Word) (acts : List (Opt × List Word))
  | name (q : Pos) (ws : List Word)

/-- The words of a piece. -/
def Piece.words : Piece → List Word
  | .opt w ws _ => w :: ws
  | .name _ ws => ws

/-- The words without the separator `--`. -/
def real (ws : List Word) : List Word := ws.filter (· ≠ dd)

/-- The piece is a proper one. -/
def Piece.Legit (p : Parser) : Piece → Prop
  | .opt w ws acts => Spells p w ws acts
  | .name q ws => match q.nargs with
    | .one => (real ws).length = 1
    | .opt => (real ws).length ≤ 1
    | .star => True
    | .plus => 1 ≤ (real ws).length

/-- The positional argument of a piece. -/
def Piece.pos : Piece → Option Pos
  | .opt .. => none
  | .name q _ => some q

/-- What a piece sets. -/
def Piece.sets : Piece → List (String × Value)
  | .opt _ _ acts => acts.map optSets
  | .name q ws => [nameSets (q, real ws)]

/-! ## What a word is taken for -/

/-- Proof helper: what a word is taken for is right. -/
def SymOk (p : Parser) (w : Word) : Sym → Prop
  | .opt name (some o) none => Means p w name o
  | .opt name (some o) (some (true, x)) => ∃ a, w = a ++ '=' :: x ∧ Means p a name o
  | .opt name (some o) (some (false, x)) => ∃ c, name = ['-', c] ∧ w = '-' :: c :: x ∧ x ≠ [] ∧ o ∈ p.opts ∧ name ∈ o.names
  | _ => True

theorem mem_strings (p : Parser) (x : Word × Opt) : x ∈ p.strings ↔ x.2 ∈ p.opts ∧ x.1 ∈ x.2.names := by
  obtain ⟨n, o⟩ := x
  simp only [Parser.strings, List.mem_flatMap, List.mem_map, Prod.mk.injEq]
  constructor
  · rintro ⟨o', h1, n', h2, rfl, rfl⟩; exact ⟨h1, h2⟩
  · rintro ⟨h1, h2⟩; exact ⟨o, h1, n, h2, rfl, rfl⟩

theorem lookup_some (p : Parser) (w : Word) (o : Opt) (h : p.lookup w = some o) : o ∈ p.opts ∧ w ∈ o.names := by
  rw [Parser.lookup, Option.map_eq_some_iff] at h
  obtain ⟨⟨n, o'⟩, h, rfl⟩ := h
  have h1 := List.mem_of_find?_eq_some h
  have h2 := List.find?_some h
  simp only [beq_iff_eq] at h2
  subst h2
  exact (mem_strings p _).mp h1

theorem lookup_none (p : Parser) (w : Word) (h : p.lookup w = none) : ∀ x ∈ p.strings, x.1 ≠ w := by
  rw [Parser.lookup, Option.map_eq_none_iff, List.find?_eq_none] at h
  intro x hx
  simpa using h x hx

theorem split_at : ∀ w : Word, '=' ∈ w → w = w.takeWhile (· != '=') ++ '=' :: (w.dropWhile (· != '=')).tail
  | [], h => by simp at h
  | c :: w, h => by
    by_cases e : c = '='
    · subst e; simp
    · have e' : (c != '=') = true := by simpa using e
      rw [List.takeWhile_cons, List.dropWhile_cons, e', if_pos rfl, if_pos rfl, List.cons_append]
      congr 1
      exact split_at w (by
        rcases List.mem_cons.mp h with h | h
        · exact absurd h.symm e
        · exact h)

theorem splitEq_some (w a b : Word) (h : splitEq w = some (a, b)) : w = a ++ '=' :: b := by
  unfold splitEq at h
  split at h
  · rename_i hm
    simp only [Option.some.injEq, Prod.mk.injEq] at h
    obtain ⟨rfl, rfl⟩ := h
    exact split_at w hm
  · simp at h

/-- Proof helper: exactly one name begins with the word. -/
theorem means_of (p : Parser) (w n : Word) (o : Opt)
    (h : (p.strings.filter fun x => w.isPrefixOf x.1) = [(n, o)]) : Means p w n o := by
  have hm : (n, o) ∈ p.strings.filter fun x => w.isPrefixOf x.1 := by rw [h]; simp
  rw [List.mem_filter, mem_strings] at hm
  refine ⟨hm.1.1, hm.1.2, Or.inr ⟨List.isPrefixOf_iff_prefix.mp hm.2, ?_⟩⟩
  intro o' ho' n' hn' hp
  have : (n', o') ∈ p.strings.filter fun x => w.isPrefixOf x.1 := by
    rw [List.mem_filter, mem_strings]
    exact ⟨⟨ho', hn'⟩, List.isPrefixOf_iff_prefix.mpr hp⟩
  rw [h] at this
  simp at this
  exact this.1

theorem map_single {α β : Type} (f : α → β) (l : List α) (b : β) (h : l.map f = [b]) : ∃ a, l = [a] ∧ f a = b := by
  match l, h with
  | [a], h => exact ⟨a, rfl, by simpa using h⟩
  | [], h => simp at h
  | _ :: _ :: _, h => simp at h

theorem abbreviated_ok (p : Parser) (w : Word) (r : Char) (t : Word) (hw : w = '-' :: r :: t) (hl : p.lookup w = none) (s : Sym)
    (h : abbreviated p w = .ok s) : SymOk p w s := by
  unfold abbreviated at h
  split at h
  · simp at h
  · rename_i x hx
    simp only [Except.ok.injEq] at h
    subst h
    obtain ⟨n, o, e⟩ := x
    unfold tuples at hx
    by_cases hd : w.tail.head? = some '-'
    · rw [if_pos hd] at hx
      cases hsp : splitEq w with
      | some ab =>
        obtain ⟨a, b⟩ := ab
        rw [hsp] at hx
        dsimp only at hx
        obtain ⟨y, h1, h2⟩ := map_single _ _ _ hx
        simp only [Prod.mk.injEq] at h2
        obtain ⟨rfl, rfl, rfl⟩ := h2
        exact ⟨a, splitEq_some w a b hsp, means_of p a _ _ h1⟩
      | none =>
        rw [hsp] at hx
        dsimp only at hx
        obtain ⟨y, h1, h2⟩ := map_single _ _ _ hx
        simp only [Prod.mk.injEq] at h2
        obtain ⟨rfl, rfl, rfl⟩ := h2
        exact means_of p w _ _ h1
    · rw [if_neg hd] at hx
      have hm : (n, o, e) ∈ p.strings.filterMap fun x =>
          if x.1 = w.take 2 then some (x.1, x.2, some (false, w.drop 2))
          else if w.isPrefixOf x.1 then some (x.1, x.2, none) else none := by rw [hx]; simp
      rw [List.mem_filterMap] at hm
      obtain ⟨⟨n', o'⟩, hmem, hy⟩ := hm
      dsimp only at hy
      split at hy
      · rename_i h2
        simp only [Option.some.injEq, Prod.mk.injEq] at hy
        obtain ⟨rfl, rfl, rfl⟩ := hy
        have hmem' := (mem_strings p _).mp hmem
        have h3 := lookup_none p w hl _ hmem
        subst hw
        refine ⟨r, h2, rfl, ?_, hmem'.1, hmem'.2⟩
        rintro (e : t = [])
        subst e
        exact h3 h2
      · split at hy
        · rename_i h1 h2
          simp only [Option.some.injEq, Prod.mk.injEq] at hy
          obtain ⟨rfl, rfl, rfl⟩ := hy
          have hmem' := (mem_strings p _).mp hmem
          refine ⟨hmem'.1, hmem'.2, Or.inr ⟨List.isPrefixOf_iff_prefix.mp h2, ?_⟩⟩
          intro o2 ho2 n2 hn2 hp2
          have : ∃ z, z ∈ [((n', o', none) : Word × Opt × Option (Bool × Word))] ∧ z.1 = n2 := by
            rw [← hx]
            by_cases h5 : n2 = w.take 2
            · refine ⟨(n2, o2, some (false, w.drop 2)), ?_, rfl⟩
              rw [List.mem_filterMap]
              exact ⟨(n2, o2), (mem_strings p _).mpr ⟨ho2, hn2⟩, by simp [h5]⟩
            · refine ⟨(n2, o2, none), ?_, rfl⟩
              rw [List.mem_filterMap]
              refine ⟨(n2, o2), (mem_strings p _).mpr ⟨ho2, hn2⟩, ?_⟩
              dsimp only
              rw [if_neg h5, if_pos (List.isPrefixOf_iff_prefix.mpr hp2)]
          obtain ⟨z, hz, rfl⟩ := this
          simp at hz
          rw [hz]
        · simp at hy
  · split at h
    · simp only [Except.ok.injEq] at h; subst h; trivial
    · split at h
      · simp only [Except.ok.injEq] at h; subst h; trivial
      · simp only [Except.ok.injEq] at h; subst h; trivial

theorem abbreviated_dash (p : Parser) (w : Word) : abbreviated p w ≠ .ok .dash := by
  unfold abbreviated
  split
  · simp
  · simp
  · split
    · simp
    · split <;> simp

theorem parseOptional_ok (p : Parser) (w : Word) (s : Sym) (h : parseOptional p w = .ok s) : SymOk p w s ∧ s ≠ .dash := by
  unfold parseOptional at h
  split at h
  · simp only [Except.ok.injEq] at h; subst h; exact ⟨trivial, by simp⟩
  · rename_i c rest
    split at h
    · simp only [Except.ok.injEq] at h; subst h; exact ⟨trivial, by simp⟩
    · rename_i hc
      have hc : c = '-' := by simpa using hc
      subst hc
      cases hl : p.lookup ('-' :: rest) with
      | some o =>
        rw [hl] at h
        simp only [Except.ok.injEq] at h
        subst h
        have := lookup_some p _ _ hl
        exact ⟨⟨this.1, this.2, Or.inl rfl⟩, by simp⟩
      | none =>
        rw [hl] at h
        dsimp only at h
        split at h
        · simp only [Except.ok.injEq] at h; subst h; exact ⟨trivial, by simp⟩
        · rename_i hr
          obtain ⟨r, t, rfl⟩ : ∃ r t, rest = r :: t := by
            cases rest with
            | nil => exact absurd rfl hr
            | cons r t => exact ⟨r, t, rfl⟩
          have habb : abbreviated p ('-' :: r :: t) = .ok s → SymOk p ('-' :: r :: t) s ∧ s ≠ .dash := by
            intro h
            refine ⟨abbreviated_ok p _ r t rfl hl s h, ?_⟩
            rintro rfl
            exact abbreviated_dash p _ h
          cases hsp : splitEq ('-' :: r :: t) with
          | none => rw [hsp] at h; exact habb h
          | some ab =>
            obtain ⟨a, b⟩ := ab
            rw [hsp] at h
            dsimp only at h
            cases hl2 : p.lookup a with
            | none => rw [hl2] at h; exact habb h
            | some o =>
              rw [hl2] at h
              simp only [Except.ok.injEq] at h
              subst h
              have := lookup_some p _ _ hl2
              exact ⟨⟨a, splitEq_some _ _ _ hsp, this.1, this.2, Or.inl rfl⟩, by simp⟩

/-! ## The options of one word -/

theorem spells_takes (p : Parser) (w : Word) (ws : List Word) (acts : List (Opt × List Word)) (h : Spells p w ws acts) :
    ∀ x ∈ acts, x.1.Takes x.2 := by
  induction h with
  | name _ h => simpa using h
  | equals _ h => simpa using h
  | joined _ _ _ h => simpa using h
  | flag _ _ h _ _ ih => exact List.forall_mem_cons.mpr ⟨h, ih⟩

theorem cluster_sound (p : Parser) (following : List (Word × Sym)) : ∀ (fuel : Nat) (name : Word) (o : Opt) (explicit : Option (Bool × Word)) (w : Word)
    (k : Cluster), SymOk p w (.opt name (some o) explicit) → cluster p following fuel name o explicit = .ok k → k.extra = [] →
    (∀ x ∈ k.acts, x.1.arity ≠ .help) →
    Spells p w ((following.take k.taken).map (·.1)) k.acts ∧ k.taken ≤ following.length ∧ ∀ x ∈ following.take k.taken, x.2 = .arg
  | 0, _, _, _, _, _, _, h, _, _ => by simp [cluster] at h
  | fuel + 1, name, o, none, w, k, hs, h, he, hh => by
    rw [cluster] at h
    cases hc : o.arity.count (following.map (·.2)) with
    | none => rw [hc] at h; simp at h
    | some n =>
      rw [hc] at h
      simp only [Except.ok.injEq] at h
      subst h
      have hh' : o.arity ≠ .help := hh (o, (following.take n).map (·.1)) (by simp)
      have key : o.Takes ((following.take n).map (·.1)) ∧ n ≤ following.length ∧ ∀ x ∈ following.take n, x.2 = .arg := by
        cases ha : o.arity with
        | flag =>
          rw [ha] at hc
          simp [Arity.count] at hc
          subst hc
          simp [Opt.Takes, ha]
        | help => exact absurd ha hh'
        | one =>
          rw [ha] at hc
          match following, hc with
          | (v, .arg) :: rest, hc =>
            simp [Arity.count] at hc
            subst hc
            simp [Opt.Takes, ha]
          | [], hc => simp [Arity.count] at hc
          | (_, .dash) :: _, hc => simp [Arity.count] at hc
          | (_, .opt ..) :: _, hc => simp [Arity.count] at hc
        | many =>
          rw [ha] at hc
          simp only [Arity.count, Option.some.injEq] at hc
          subst hc
          refine ⟨by simp [Opt.Takes, ha], ?_, ?_⟩
          · have := (List.takeWhile_sublist isArg (l := following.map (·.2))).length_le
            simpa using this
          · have : ∀ l : List (Word × Sym), ∀ x ∈ l.take ((l.map (·.2)).takeWhile isArg).length, x.2 = .arg := by
              intro l
              induction l with
              | nil => simp
              | cons y l ih =>
                obtain ⟨v, s⟩ := y
                cases s with
                | arg =>
                  rw [List.map_cons, List.takeWhile_cons, if_pos (show isArg Sym.arg = true from rfl), List.length_cons, List.take_succ_cons]
                  exact List.forall_mem_cons.mpr ⟨rfl, ih⟩
                | dash => simp [isArg]
                | opt => simp [isArg]
            exact this following
      exact ⟨.name hs key.1, key.2⟩
  | fuel + 1, name, o, some (eq, x), w, k, hs, h, he, hh => by
    rw [cluster.eq_def] at h
    dsimp only at h
    have single : ∀ k', Except.ok (ε := Err) (⟨[(o, [x])], 0, []⟩ : Cluster) = .ok k' → o.Takes [x] →
        Spells p w ((following.take k'.taken).map (·.1)) k'.acts ∧ k'.taken ≤ following.length ∧ ∀ y ∈ following.take k'.taken, y.2 = .arg := by
      intro k' hk ht
      simp only [Except.ok.injEq] at hk
      subst hk
      refine ⟨?_, by simp, by simp⟩
      cases eq with
      | true => obtain ⟨a, rfl, hm⟩ := hs; exact .equals hm ht
      | false => obtain ⟨c, rfl, rfl, hx, h1, h2⟩ := hs; exact .joined h1 h2 hx ht
    have deep : o.arity.count [.arg] = some 0 →
        Spells p w ((following.take k.taken).map (·.1)) k.acts ∧ k.taken ≤ following.length ∧ ∀ y ∈ following.take k.taken, y.2 = .arg := by
      intro hz
      rw [hz] at h
      cases x with
      | nil => simp at h
      | cons c r =>
        split at h
        rotate_left
        · rename_i h0 heq
          simp only [Option.some.injEq] at heq
          exact absurd heq.symm h0
        · simp at h
        dsimp only at h
        split at h
        · split at h
          · simp at h
          · rename_i hne
            push Not at hne
            have heq : eq = false := by simpa using hne.1
            subst heq
            obtain ⟨c0, rfl, rfl, hx, h1, h2⟩ := hs
            cases hl : p.lookup ['-', c] with
            | none =>
              rw [hl] at h
              simp only [Except.ok.injEq] at h
              subst h
              simp at he
            | some o' =>
              rw [hl] at h
              dsimp only at h
              have hl' := lookup_some p _ _ hl
              have main : ∀ rest, SymOk p ('-' :: c :: r) (.opt ['-', c] (some o') rest) →
                  (match cluster p following fuel ['-', c] o' rest with
                   | .error e => .error e
                   | .ok k => .ok { k with acts := (o, []) :: k.acts }) = Except.ok k →
                  Spells p ('-' :: c0 :: c :: r) ((following.take k.taken).map (·.1)) k.acts ∧ k.taken ≤ following.length ∧
                    ∀ y ∈ following.take k.taken, y.2 = .arg := by
                intro rest hso hcl
                cases hk : cluster p following fuel ['-', c] o' rest with
                | error e => rw [hk] at hcl; simp at hcl
                | ok k0 =>
                  rw [hk] at hcl
                  simp only [Except.ok.injEq] at hcl
                  subst hcl
                  have ih := cluster_sound p following fuel _ _ _ _ _ hso hk he (fun y hy => hh y (by simp [hy]))
                  have ho : o.Takes [] := by
                    have hh' : o.arity ≠ .help := hh (o, []) (by simp)
                    cases ha : o.arity <;> simp [Opt.Takes, ha] <;> simp [ha, Arity.count, isArg] at hz hh'
                  exact ⟨.flag h1 h2 ho (by simp) ih.1, ih.2⟩
              refine main _ ?_ h
              split
              · exact ⟨hl'.1, hl'.2, Or.inl rfl⟩
              · exact ⟨['-', c], rfl, hl'.1, hl'.2, Or.inl rfl⟩
              · rename_i hne1 _
                exact ⟨c, rfl, rfl, hne1, hl'.1, hl'.2⟩
        · simp at h
    cases ha : o.arity with
    | one => rw [ha] at h; exact single k (by simpa [Arity.count] using h) (by simp [Opt.Takes, ha])
    | many => rw [ha, show Arity.many.count [.arg] = some 1 from rfl] at h; exact single k h (by simp [Opt.Takes, ha])
    | flag => exact deep (by rw [ha]; rfl)
    | help => exact deep (by rw [ha]; rfl)

theorem actAll_sound : ∀ (acts : List (Opt × List Word)) (ns ns' : Ns), actAll ns acts = .ok ns' →
    (∀ x ∈ acts, x.1.arity ≠ .help) ∧ ((∀ x ∈ acts, x.1.Takes x.2) → ns' = assign ns (acts.map optSets))
  | [], ns, ns', h => by simp [actAll] at h; subst h; simp [assign]
  | (o, ws) :: acts, ns, ns', h => by
    rw [actAll] at h
    cases ha : act ns o ws with
    | error e => rw [ha] at h; simp at h
    | ok ns1 =>
      rw [ha] at h
      have ih := actAll_sound acts ns1 ns' h
      have hne : o.arity ≠ .help := by intro e; simp [act, e] at ha
      refine ⟨List.forall_mem_cons.mpr ⟨hne, ih.1⟩, ?_⟩
      intro ht
      have ht := List.forall_mem_cons.mp ht
      rw [ih.2 ht.2, List.map_cons]
      have : ns1 = assign ns [optSets (o, ws)] := by
        have h1 := ht.1
        cases har : o.arity with
        | help => exact absurd har hne
        | flag => simp [act, har] at ha; simp [← ha, assign, optSets, har]
        | one =>
          simp only [Opt.Takes, har] at h1
          obtain ⟨w, hw⟩ := h1
          subst hw
          simp [act, har, optValue] at ha; simp [← ha, assign, optSets, har]
        | many => simp [act, har, optValue] at ha; simp [← ha, assign, optSets, har]
      rw [this]
      simp [assign]


/-! ## Positional arguments -/

/-- Proof helper: the letters match the pieces of a pattern. -/
def ItemsOk : List Item → List Sym → Prop
  | [], l => l = []
  | i :: is, l => ∃ a b, l = a ++ b ∧ (∀ s ∈ a, i.ok s = true) ∧ i.lo ≤ a.length ∧ (∀ h, i.hi = some h → a.length ≤ h) ∧ ItemsOk is b

theorem lengths_ok (i : Item) (l : List Sym) (n : Nat) (h : n ∈ i.lengths l) :
    n ≤ l.length ∧ (∀ s ∈ l.take n, i.ok s = true) ∧ i.lo ≤ n ∧ ∀ h, i.hi = some h → n ≤ h := by
  unfold Item.lengths at h
  rw [List.mem_reverse, List.mem_range'_1] at h
  have hm : n ≤ (l.takeWhile i.ok).length := by
    cases hh : i.hi with
    | none => rw [hh] at h; dsimp only at h; omega
    | some b => rw [hh] at h; dsimp only at h; omega
  refine ⟨hm.trans (List.takeWhile_sublist _).length_le, ?_, h.1, ?_⟩
  · intro s hs
    have h1 : l.take n <+: l.takeWhile i.ok := by
      have e : l.take n = (l.takeWhile i.ok).take n := by
        conv_lhs => rw [← List.takeWhile_append_dropWhile (p := i.ok) (l := l)]
        rw [List.take_append_of_le_length hm]
      rw [e]; exact List.take_prefix _ _
    have h2 := h1.subset hs
    exact List.all_eq_true.mp List.all_takeWhile s h2
  · intro b hb
    rw [hb] at h
    dsimp only at h
    omega

theorem matchGroup_sound {β : Type} : ∀ (is : List Item) (l : List Sym) (K : Nat → List Sym → Option β) (r : β), matchGroup is l K = some r →
    ∃ n, n ≤ l.length ∧ ItemsOk is (l.take n) ∧ K n (l.drop n) = some r
  | [], l, K, r, h => ⟨0, by omega, by simp [ItemsOk], by simpa [matchGroup] using h⟩
  | i :: is, l, K, r, h => by
    rw [matchGroup] at h
    obtain ⟨n, hn, h⟩ := List.exists_of_findSome?_eq_some h
    obtain ⟨m, hm, hi, hk⟩ := matchGroup_sound is (l.drop n) _ r h
    obtain ⟨h1, h2, h3, h4⟩ := lengths_ok i l n hn
    rw [List.length_drop] at hm
    refine ⟨n + m, by omega, ⟨l.take n, (l.drop n).take m, by rw [List.take_add], h2, by simpa [h1] using h3, ?_, hi⟩, ?_⟩
    · intro b hb
      have := h4 b hb
      simpa [h1] using this
    · rw [← List.drop_drop]; exact hk

/-- Proof helper: the letters of a positional argument. -/
def GroupOk (n : NArgs) (l : List Sym) : Prop :=
  (∀ s ∈ l, s.isOpt = false) ∧
  (match n with
   | .one => (l.filter isArg).length = 1
   | .opt => (l.filter isArg).length ≤ 1
   | .star => True
   | .plus => 1 ≤ (l.filter isArg).length)

theorem dash_filter (l : List Sym) (h : ∀ s ∈ l, isDash s = true) : l.filter isArg = [] := by
  rw [List.filter_eq_nil_iff]
  intro s hs
  have := h s hs
  cases s <;> simp_all [isDash, isArg]

theorem arg_filter (l : List Sym) (h : ∀ s ∈ l, isArg s = true) : l.filter isArg = l := by
  rw [List.filter_eq_self]; exact h

theorem dash_opt (s : Sym) (h : isDash s = true) : s.isOpt = false := by cases s <;> simp_all [isDash, Sym.isOpt]
theorem arg_opt (s : Sym) (h : isArg s = true) : s.isOpt = false := by cases s <;> simp_all [isArg, Sym.isOpt]
theorem both_opt (s : Sym) (h : (isArg s || isDash s) = true) : s.isOpt = false := by cases s <;> simp_all [isArg, isDash, Sym.isOpt]

theorem group_ok (n : NArgs) (l : List Sym) (h : ItemsOk n.items l) : GroupOk n l := by
  cases n with
  | one =>
    obtain ⟨a, _, rfl, ha, -, -, b, _, rfl, hb, hb1, hb2, c, _, rfl, hc, -, -, h⟩ := h
    simp only [ItemsOk] at h
    subst h
    have hb2 := hb2 1 rfl
    dsimp only at hb1
    refine ⟨?_, ?_⟩
    · intro s hs
      simp only [List.append_nil, List.mem_append] at hs
      rcases hs with hs | hs | hs
      · exact dash_opt _ (ha s hs)
      · exact arg_opt _ (hb s hs)
      · exact dash_opt _ (hc s hs)
    · simp [dash_filter a ha, arg_filter b hb, dash_filter c hc]; omega
  | opt =>
    obtain ⟨a, _, rfl, ha, -, -, b, _, rfl, hb, hb1, hb2, c, _, rfl, hc, -, -, h⟩ := h
    simp only [ItemsOk] at h
    subst h
    have hb2 := hb2 1 rfl
    refine ⟨?_, ?_⟩
    · intro s hs
      simp only [List.append_nil, List.mem_append] at hs
      rcases hs with hs | hs | hs
      · exact dash_opt _ (ha s hs)
      · exact arg_opt _ (hb s hs)
      · exact dash_opt _ (hc s hs)
    · simp [dash_filter a ha, arg_filter b hb, dash_filter c hc]; omega
  | star =>
    obtain ⟨a, _, rfl, ha, -, -, b, _, rfl, hb, -, -, h⟩ := h
    simp only [ItemsOk] at h
    subst h
    refine ⟨?_, trivial⟩
    intro s hs
    simp only [List.append_nil, List.mem_append] at hs
    rcases hs with hs | hs
    · exact dash_opt _ (ha s hs)
    · exact both_opt _ (hb s hs)
  | plus =>
    obtain ⟨a, _, rfl, ha, -, -, b, _, rfl, hb, hb1, -, c, _, rfl, hc, -, -, h⟩ := h
    simp only [ItemsOk] at h
    subst h
    dsimp only at hb1
    refine ⟨?_, ?_⟩
    · intro s hs
      simp only [List.append_nil, List.mem_append] at hs
      rcases hs with hs | hs | hs
      · exact dash_opt _ (ha s hs)
      · exact arg_opt _ (hb s hs)
      · exact both_opt _ (hc s hs)
    · simp [dash_filter a ha, arg_filter b hb]; omega

/-- Proof helper: the groups match one after the other. -/
def GroupsOk : List NArgs → List Nat → List Sym → Prop
  | [], [], _ => True
  | g :: gs, n :: ns, l => n ≤ l.length ∧ GroupOk g (l.take n) ∧ GroupsOk gs ns (l.drop n)
  | _, _, _ => False

theorem matchGroups_sound : ∀ (gs : List NArgs) (l : List Sym) (cs : List Nat), matchGroups gs l = some cs → GroupsOk gs cs l
  | [], l, cs, h => by simp [matchGroups] at h; subst h; trivial
  | g :: gs, l, cs, h => by
    rw [matchGroups] at h
    obtain ⟨n, hn, hi, hk⟩ := matchGroup_sound _ _ _ _ h
    rw [Option.map_eq_some_iff] at hk
    obtain ⟨cs', hk, rfl⟩ := hk
    exact ⟨hn, group_ok g _ hi, matchGroups_sound gs _ _ hk⟩

theorem matchPartial_sound (gs : List NArgs) (l : List Sym) : ∃ i, GroupsOk (gs.take i) (matchPartial gs l) l := by
  unfold matchPartial
  cases h : (List.range (gs.length + 1)).reverse.findSome? fun i => matchGroups (gs.take i) l with
  | none => exact ⟨0, by simp [GroupsOk]⟩
  | some cs =>
    obtain ⟨i, _, h⟩ := List.exists_of_findSome?_eq_some h
    exact ⟨i, matchGroups_sound _ _ _ h⟩


/-! ## The loop -/

/-- Proof helper: what the words are taken for is right; the separator is the word `--` and occurs once. -/
structure Inv (p : Parser) (l : List (Word × Sym)) : Prop where
  ok : ∀ x ∈ l, SymOk p x.1 x.2
  dash : ∀ x ∈ l, x.2 = .dash ↔ x.1 = dd

theorem Inv.sub {p : Parser} {l l' : List (Word × Sym)} (h : Inv p l) (hs : ∀ x ∈ l', x ∈ l) : Inv p l' :=
  ⟨fun x hx => h.ok x (hs x hx), fun x hx => h.dash x (hs x hx)⟩

theorem real_args (p : Parser) : ∀ (l : List (Word × Sym)), Inv p l → (∀ x ∈ l, x.2.isOpt = false) →
    (real (l.map (·.1))).length = ((l.map (·.2)).filter isArg).length
  | [], _, _ => rfl
  | (w, s) :: l, h, hn => by
    have ih := real_args p l (h.sub fun x hx => by simp [hx]) (fun x hx => hn x (by simp [hx]))
    have hd := h.dash (w, s) (by simp)
    dsimp only at hd
    rw [real] at ih ⊢
    cases s with
    | arg =>
      have : w ≠ dd := fun e => by have := hd.mpr e; simp at this
      rw [List.map_cons, List.map_cons, List.filter_cons_of_pos (by simpa using this), List.filter_cons_of_pos (show isArg Sym.arg = true from rfl),
        List.length_cons, List.length_cons, ih]
    | dash =>
      have : w = dd := hd.mp rfl
      simp [isArg, this] at ih ⊢
      exact ih
    | opt n o e => have := hn (w, .opt n o e) (by simp); simp [Sym.isOpt] at this

/-- Proof helper: an option nobody declared. -/
def Unknown : Sym → Prop
  | .opt _ none _ => True
  | _ => False

theorem unknown_opt (s : Sym) (h : s.isOpt = false) : ¬ Unknown s := by cases s <;> simp_all [Sym.isOpt, Unknown]

theorem erase_real : ∀ (ws : List Word), ws.count dd ≤ 1 → ws.erase dd = real ws
  | [], _ => rfl
  | w :: ws, h => by
    by_cases e : w = dd
    · subst e
      rw [List.count_cons_self] at h
      have h0 : ws.count dd = 0 := by omega
      rw [List.erase_cons_head, real, List.filter_cons_of_neg (by simp)]
      rw [List.count_eq_zero] at h0
      symm
      rw [List.filter_eq_self]
      intro v hv
      simp only [ne_eq, decide_not, Bool.not_eq_eq_eq_not, Bool.not_true, decide_eq_false_iff_not]
      rintro rfl; exact h0 hv
    · rw [List.count_cons_of_ne (by simpa using e)] at h
      rw [List.erase_cons_tail (by simpa using e), real, List.filter_cons_of_pos (by simpa using e), erase_real ws h]
      rfl

theorem posValue_ok (q : Pos) (ws : List Word) (hc : ws.count dd ≤ 1) (p : Parser) (hl : (Piece.name q ws).Legit p) :
    (q.dest, posValue q.nargs ws) = nameSets (q, real ws) := by
  unfold posValue nameSets
  rw [erase_real ws hc]
  simp only [Piece.Legit] at hl
  cases hq : q.nargs <;> simp only [hq] at hl ⊢
  · obtain ⟨w, hw⟩ := List.length_eq_one_iff.mp hl
    rw [hw]
  · match real ws, hl with
    | [], _ => rfl
    | [w], _ => rfl
    | _ :: _ :: _, hl => simp at hl

theorem give_sound (p : Parser) : ∀ (qs : List Pos) (cs : List Nat) (l : List (Word × Sym)) (env : Ns) (i : Nat),
    Inv p l → (l.map (·.1)).count dd ≤ 1 → GroupsOk ((qs.map (·.nargs)).take i) cs (l.map (·.2)) →
    ∃ (m : Nat) (pieces : List Piece), m ≤ l.length ∧ (∀ x ∈ l.take m, x.2.isOpt = false) ∧
      (givePos qs cs l env).1 = l.drop m ∧ pieces.flatMap Piece.words = (l.take m).map (·.1) ∧
      (∀ x ∈ pieces, x.Legit p) ∧ pieces.filterMap Piece.pos ++ (givePos qs cs l env).2.1 = qs ∧
      (givePos qs cs l env).2.2 = assign env (pieces.flatMap Piece.sets)
  | qs, [], l, env, _, _, _, _ => ⟨0, [], by omega, by simp, by cases qs <;> simp [givePos], by simp, by simp, by cases qs <;> simp [givePos],
      by cases qs <;> simp [givePos, assign]⟩
  | [], _ :: _, _, _, _, _, _, h => by simp [GroupsOk] at h
  | q :: qs, n :: cs, l, env, i, hi, hc, hg => by
    cases i with
    | zero => simp [GroupsOk] at hg
    | succ i =>
      simp only [List.map_cons, List.take_succ_cons, GroupsOk, List.length_map, ← List.map_take, ← List.map_drop] at hg
      obtain ⟨hn, hgo, hrest⟩ := hg
      rw [List.map_take] at hrest
      have hcd : ((l.drop n).map (·.1)).count dd ≤ 1 := by
        refine le_trans ?_ hc
        exact ((List.drop_sublist n l).map _).count_le _
      have hct : ((l.take n).map (·.1)).count dd ≤ 1 := by
        refine le_trans ?_ hc
        exact ((List.take_sublist n l).map _).count_le _
      have hit : Inv p (l.take n) := hi.sub fun x hx => List.mem_of_mem_take hx
      obtain ⟨m, pieces, h1, h2, h3, h4, h5, h6, h7⟩ :=
        give_sound p qs cs (l.drop n) (Function.update env q.dest (posValue q.nargs ((l.take n).map (·.1)))) i
          (hi.sub fun x hx => List.mem_of_mem_drop hx) hcd hrest
      have hno : ∀ x ∈ l.take n, x.2.isOpt = false := fun x hx => hgo.1 x.2 (List.mem_map_of_mem hx)
      have hlegit : (Piece.name q ((l.take n).map (·.1))).Legit p := by
        have := hgo.2
        simp only [Piece.Legit, real_args p _ hit hno]
        exact this
      rw [List.length_drop] at h1
      refine ⟨n + m, .name q ((l.take n).map (·.1)) :: pieces, by omega, ?_, ?_, ?_, ?_, ?_, ?_⟩
      · intro x hx
        rw [List.take_add, List.mem_append] at hx
        exact hx.elim (hno x) (h2 x)
      · rw [givePos, h3, List.drop_drop]
      · rw [List.flatMap_cons, h4, List.take_add, List.map_append]; rfl
      · exact List.forall_mem_cons.mpr ⟨hlegit, h5⟩
      · rw [givePos]
        simp only [List.filterMap_cons, Piece.pos, List.cons_append, h6]
      · rw [givePos, h7, List.flatMap_cons, Piece.sets, ← posValue_ok q _ hct p hlegit]
        simp [assign]

theorem consumePos_sound (p : Parser) (s : St) (hi : Inv p s.todo) (hc : (s.todo.map (·.1)).count dd ≤ 1) :
    ∃ (m : Nat) (pieces : List Piece), m ≤ s.todo.length ∧ (∀ x ∈ s.todo.take m, x.2.isOpt = false) ∧
      (consumePos s).todo = s.todo.drop m ∧ (consumePos s).extras = s.extras ∧ pieces.flatMap Piece.words = (s.todo.take m).map (·.1) ∧
      (∀ x ∈ pieces, x.Legit p) ∧ pieces.filterMap Piece.pos ++ (consumePos s).poss = s.poss ∧
      (consumePos s).ns = assign s.ns (pieces.flatMap Piece.sets) := by
  obtain ⟨i, hg⟩ := matchPartial_sound (s.poss.map (·.nargs)) (s.todo.map (·.2))
  obtain ⟨m, pieces, h1, h2, h3, h4, h5, h6, h7⟩ := give_sound p s.poss _ s.todo s.ns i hi hc hg
  exact ⟨m, pieces, h1, h2, h3, rfl, h4, h5, h6, h7⟩

/-- Proof helper: from one state to a later one the words are used up by the pieces. -/
structure Between (p : Parser) (s s' : St) (pieces : List Piece) : Prop where
  words : s.todo.map (·.1) = pieces.flatMap Piece.words ++ s'.todo.map (·.1)
  legit : ∀ x ∈ pieces, x.Legit p
  poss : pieces.filterMap Piece.pos ++ s'.poss = s.poss
  ns : s'.ns = assign s.ns (pieces.flatMap Piece.sets)
  sub : ∀ x ∈ s'.todo, x ∈ s.todo
  known : ∀ x ∈ s.todo, Unknown x.2 → x ∈ s'.todo

theorem Between.trans {p : Parser} {a b c : St} {u v : List Piece} (h : Between p a b u) (h' : Between p b c v) : Between p a c (u ++ v) where
  words := by rw [h.words, h'.words, List.flatMap_append, List.append_assoc]
  legit := by
    intro x hx
    rcases List.mem_append.mp hx with hx | hx
    · exact h.legit x hx
    · exact h'.legit x hx
  poss := by rw [List.filterMap_append, List.append_assoc, h'.poss, h.poss]
  ns := by rw [h'.ns, h.ns, List.flatMap_append]; simp [assign]
  sub := fun x hx => h.sub x (h'.sub x hx)
  known := fun x hx hu => h'.known x (h.known x hx hu) hu

theorem between_pos (p : Parser) (s : St) (hi : Inv p s.todo) (hc : (s.todo.map (·.1)).count dd ≤ 1) :
    ∃ pieces, Between p s (consumePos s) pieces ∧ (consumePos s).extras = s.extras ∧
      ∀ x ∈ s.todo, x.2.isOpt = true → x ∈ (consumePos s).todo := by
  obtain ⟨m, pieces, h1, h2, h3, h4, h5, h6, h7, h8⟩ := consumePos_sound p s hi hc
  refine ⟨pieces, ⟨?_, h6, h7, h8, ?_, ?_⟩, h4, ?_⟩
  · rw [h5, h3, ← List.map_append, List.take_append_drop]
  · intro x hx; rw [h3] at hx; exact List.mem_of_mem_drop hx
  · intro x hx hu
    rw [← List.take_append_drop m s.todo, List.mem_append] at hx
    rw [h3]
    rcases hx with hx | hx
    · exact absurd hu (unknown_opt _ (h2 x hx))
    · exact hx
  · intro x hx hu
    rw [← List.take_append_drop m s.todo, List.mem_append] at hx
    rw [h3]
    rcases hx with hx | hx
    · rw [h2 x hx] at hu; simp at hu
    · exact hx

theorem consumeOpt_sound (p : Parser) (s s' : St) (hi : Inv p s.todo) (hh : ∃ x r, s.todo = x :: r ∧ x.2.isOpt = true) (h : consumeOpt p s = .ok s')
    (he : s'.extras = []) : ∃ pieces, Between p s s' pieces ∧ s.extras = [] := by
  obtain ⟨⟨w, sy⟩, following, htodo, hopt⟩ := hh
  cases sy with
  | arg => simp [Sym.isOpt] at hopt
  | dash => simp [Sym.isOpt] at hopt
  | opt name o explicit =>
    unfold consumeOpt at h
    rw [htodo] at h
    dsimp only at h
    cases o with
    | none =>
      simp only [Except.ok.injEq] at h
      subst h
      simp at he
    | some o =>
      dsimp only at h
      cases hk : cluster p following (w.length + 1) name o explicit with
      | error e => rw [hk] at h; simp at h
      | ok k =>
        rw [hk] at h
        dsimp only at h
        cases ha : actAll s.ns k.acts with
        | error e => rw [ha] at h; simp at h
        | ok ns =>
          rw [ha] at h
          simp only [Except.ok.injEq] at h
          subst h
          simp only [List.append_eq_nil_iff] at he
          obtain ⟨he1, he2⟩ := he
          have hact := actAll_sound _ _ _ ha
          obtain ⟨hs, ht, harg⟩ := cluster_sound p following _ _ _ _ w k (hi.ok (w, .opt name (some o) explicit) (by rw [htodo]; simp)) hk he2 hact.1
          refine ⟨[.opt w ((following.take k.taken).map (·.1)) k.acts], ⟨?_, ?_, ?_, ?_, ?_, ?_⟩, he1⟩
          · rw [htodo]
            simp only [List.map_cons, List.flatMap_cons, List.flatMap_nil, List.append_nil, Piece.words, List.cons_append]
            rw [← List.map_append, List.take_append_drop]
          · simpa [Piece.Legit] using hs
          · simp [Piece.pos]
          · simp only [List.flatMap_cons, List.flatMap_nil, List.append_nil, Piece.sets]
            exact hact.2 (spells_takes p _ _ _ hs)
          · intro x hx
            rw [htodo]
            exact List.mem_cons_of_mem _ (List.mem_of_mem_drop hx)
          · intro x hx hu
            rw [htodo] at hx
            rcases List.mem_cons.mp hx with rfl | hx
            · simp [Unknown] at hu
            · rw [← List.take_append_drop k.taken following, List.mem_append] at hx
              rcases hx with hx | hx
              · have := harg x hx
                rw [this] at hu
                simp [Unknown] at hu
              · exact hx

theorem consumeOpt_todo (p : Parser) (s s' : St) (h : consumeOpt p s = .ok s') : s'.todo.Sublist s.todo := by
  unfold consumeOpt at h
  split at h
  · rename_i w name o explicit following htodo
    rw [htodo]
    split at h
    · simp only [Except.ok.injEq] at h
      subst h
      exact List.sublist_cons_self _ _
    · split at h
      · simp at h
      · split at h
        · simp at h
        · simp only [Except.ok.injEq] at h
          subst h
          exact (List.drop_sublist _ _).trans (List.sublist_cons_self _ _)
  · simp only [Except.ok.injEq] at h
    subst h
    exact List.Sublist.refl _

theorem loop_sound (p : Parser) : ∀ (fuel : Nat) (s s' : St), Inv p s.todo → (s.todo.map (·.1)).count dd ≤ 1 → loop p fuel s = .ok s' → s'.extras = [] →
    ∃ pieces, Between p s s' pieces ∧ s.extras = [] ∧ (∀ x ∈ s'.todo, x.2.isOpt = false)
  | 0, _, _, _, _, h, _ => by simp [loop] at h
  | fuel + 1, s, s', hi, hc, h, he => by
    rw [loop] at h
    by_cases hany : (s.todo.any fun x => x.2.isOpt) = true
    · rw [if_pos hany] at h
      dsimp only at h
      -- the names before the next option
      obtain ⟨t, ps, hps, hte, hto, ht⟩ : ∃ t ps, Between p s t ps ∧ t.extras = s.extras ∧ (∀ x ∈ s.todo, x.2.isOpt = true → x ∈ t.todo) ∧
          (if (s.todo.head?.any fun x => x.2.isOpt) = true then s else consumePos s) = t := by
        by_cases hh : (s.todo.head?.any fun x => x.2.isOpt) = true
        · rw [if_pos hh]
          exact ⟨s, [], ⟨by simp, by simp, by simp, by simp [assign], fun x hx => hx, fun x hx _ => hx⟩, rfl, fun x hx _ => hx, rfl⟩
        · rw [if_neg hh]
          obtain ⟨ps, h1, h2, h3⟩ := between_pos p s hi hc
          exact ⟨_, ps, h1, h2, h3, rfl⟩
      rw [ht] at h
      have hit : Inv p t.todo := hi.sub hps.sub
      have hct : (t.todo.map (·.1)).count dd ≤ 1 := by
        rw [hps.words, List.count_append] at hc; omega
      split at h
      · obtain ⟨pieces, h1, h2, h3⟩ := loop_sound p fuel t s' hit hct h he
        exact ⟨_, hps.trans h1, by rw [← hte]; exact h2, h3⟩
      · cases hco : consumeOpt p { t with
            extras := t.extras ++ (t.todo.takeWhile fun x => !x.2.isOpt).map (·.1), todo := t.todo.dropWhile fun x => !x.2.isOpt } with
        | error e => rw [hco] at h; simp at h
        | ok u =>
          rw [hco] at h
          dsimp only at h
          have hne : (t.todo.dropWhile fun x => !x.2.isOpt) ≠ [] := by
            intro e
            obtain ⟨x, hx, hxo⟩ := List.any_eq_true.mp hany
            have h1 := hto x hx hxo
            have h2 : (t.todo.takeWhile fun x => !x.2.isOpt) = t.todo := by
              conv_rhs => rw [← List.takeWhile_append_dropWhile (p := fun x : Word × Sym => !x.2.isOpt) (l := t.todo), e, List.append_nil]
            rw [← h2] at h1
            have := List.all_eq_true.mp List.all_takeWhile x h1
            simp [hxo] at this
          have hhead : ∃ x r, (t.todo.dropWhile fun x => !x.2.isOpt) = x :: r ∧ x.2.isOpt = true := by
            refine ⟨_, _, (List.cons_head_tail hne).symm, ?_⟩
            have := List.head_dropWhile_not (fun x : Word × Sym => !x.2.isOpt) hne
            simpa using this
          have hiv : Inv p (t.todo.dropWhile fun x => !x.2.isOpt) := hit.sub fun x hx => (List.dropWhile_sublist _).subset hx
          have hut : u.todo.Sublist t.todo := (consumeOpt_todo p _ _ hco).trans (List.dropWhile_sublist _)
          obtain ⟨pieces, h1, h2, h3⟩ := loop_sound p fuel u s' (hit.sub fun x hx => hut.subset hx)
            (((hut.map (·.1)).count_le dd).trans hct) h he
          obtain ⟨ps2, h4, h5⟩ := consumeOpt_sound p _ u hiv hhead hco h2
          simp only [List.append_eq_nil_iff, List.map_eq_nil_iff] at h5
          have hsame : (t.todo.dropWhile fun x => !x.2.isOpt) = t.todo := by
            conv_rhs => rw [← List.takeWhile_append_dropWhile (p := fun x : Word × Sym => !x.2.isOpt) (l := t.todo), h5.2, List.nil_append]
          have h6 : Between p t u ps2 := by
            refine ⟨?_, h4.legit, h4.poss, h4.ns, ?_, ?_⟩
            · have := h4.words
              rw [show (({ t with
                extras := t.extras ++ (t.todo.takeWhile fun x => !x.2.isOpt).map (·.1), todo := t.todo.dropWhile fun x => !x.2.isOpt } : St).todo) =
                  t.todo from hsame] at this
              exact this
            · exact fun x hx => hut.subset hx
            · intro x hx hu
              exact h4.known x (by rw [hsame]; exact hx) hu
          exact ⟨_, hps.trans (h6.trans h1), by rw [← hte]; exact h5.1, h3⟩
    · rw [if_neg hany] at h
      simp only [Except.ok.injEq] at h
      subst h
      refine ⟨[], ⟨by simp, by simp, by simp, by simp [assign], fun x hx => hx, fun x hx _ => hx⟩, he, ?_⟩
      intro x hx
      simp only [List.any_eq_true, not_exists, not_and, Bool.not_eq_true] at hany
      exact hany x hx


theorem classify_inv (p : Parser) : ∀ (ws : List Word) (l : List (Word × Sym)), classify p ws = .ok l → ws.count dd ≤ 1 → Inv p l ∧ l.map (·.1) = ws
  | [], l, h, _ => by
    simp [classify] at h
    subst h
    exact ⟨⟨by simp, by simp⟩, rfl⟩
  | w :: ws, l, h, hc => by
    rw [classify] at h
    by_cases hw : w = dd
    · rw [if_pos hw] at h
      simp only [Except.ok.injEq] at h
      subst h
      subst hw
      rw [List.count_cons_self] at hc
      have h0 : ws.count dd = 0 := by omega
      rw [List.count_eq_zero] at h0
      refine ⟨⟨?_, ?_⟩, ?_⟩
      · rintro x hx
        rcases List.mem_cons.mp hx with rfl | hx
        · trivial
        · obtain ⟨v, _, rfl⟩ := List.mem_map.mp hx
          trivial
      · rintro x hx
        rcases List.mem_cons.mp hx with rfl | hx
        · simp
        · obtain ⟨v, hv, rfl⟩ := List.mem_map.mp hx
          simp only [reduceCtorEq, false_iff]
          rintro rfl; exact h0 hv
      · have := args_fst ws
        rw [args] at this
        rw [List.map_cons, this]
    · rw [if_neg hw] at h
      rw [List.count_cons_of_ne (by simpa using hw)] at hc
      cases hp : parseOptional p w with
      | error e => rw [hp] at h; simp at h
      | ok s =>
        rw [hp] at h
        dsimp only at h
        cases hr : classify p ws with
        | error e => rw [hr] at h; simp at h
        | ok l' =>
          rw [hr] at h
          simp only [Except.ok.injEq] at h
          subst h
          obtain ⟨ih, ihw⟩ := classify_inv p ws l' hr hc
          obtain ⟨h1, h2⟩ := parseOptional_ok p w s hp
          refine ⟨⟨List.forall_mem_cons.mpr ⟨h1, ih.ok⟩, List.forall_mem_cons.mpr ⟨?_, ih.dash⟩⟩, by simp [ihw]⟩
          exact ⟨fun e => absurd e h2, fun e => absurd e hw⟩

/-- Proof helper: an accepted line, piece by piece. -/
theorem parse_sound (p : Parser) (ws : List Word) (ns : Ns) (hc : ws.count dd ≤ 1) (h : parse p ws = .ok ns) :
    ∃ (l : List (Word × Sym)) (pieces : List Piece) (rest : List Pos), classify p ws = .ok l ∧ (∀ x ∈ l, ¬ Unknown x.2) ∧
      ws = pieces.flatMap Piece.words ∧ (∀ x ∈ pieces, x.Legit p) ∧ pieces.filterMap Piece.pos ++ rest = p.poss ∧ (∀ q ∈ rest, q.nargs = .opt) ∧
      ns = assign p.defaults (pieces.flatMap Piece.sets) := by
  rw [parse] at h
  cases hcl : classify p ws with
  | error e => rw [hcl] at h; simp at h
  | ok l =>
    rw [hcl] at h
    dsimp only at h
    obtain ⟨hi, hw⟩ := classify_inv p ws l hcl hc
    cases hl : loop p (l.length + 1) ⟨l, p.poss, p.defaults, []⟩ with
    | error e => rw [hl] at h; simp at h
    | ok s =>
      rw [hl] at h
      dsimp only at h
      by_cases hr : (consumePos s).poss.any Pos.required = true
      · rw [if_pos hr] at h; simp at h
      · rw [if_neg hr] at h
        by_cases he : (consumePos s).extras ++ (consumePos s).todo.map (·.1) = []
        · rw [if_pos he] at h
          simp only [Except.ok.injEq] at h
          subst h
          simp only [List.append_eq_nil_iff, List.map_eq_nil_iff] at he
          have hse : s.extras = [] := he.1
          obtain ⟨ps, h1, -, h3⟩ := loop_sound p _ _ s hi (by rw [hw]; exact hc) hl hse
          have hsc : (s.todo.map (·.1)).count dd ≤ 1 := by
            have := h1.words
            dsimp only at this
            rw [hw] at this
            rw [this, List.count_append] at hc
            omega
          obtain ⟨ps2, h4, -, -⟩ := between_pos p s (hi.sub h1.sub) hsc
          have hb := h1.trans h4
          refine ⟨l, ps ++ ps2, (consumePos s).poss, rfl, ?_, ?_, hb.legit, hb.poss, ?_, hb.ns⟩
          · intro x hx hu
            have := hb.known x hx hu
            rw [he.2] at this
            simp at this
          · have := hb.words
            rw [he.2] at this
            simpa [hw] using this
          · intro q hq
            simp only [List.any_eq_true, not_exists, not_and, Bool.not_eq_true] at hr
            simpa [Pos.required] using hr q hq
        · rw [if_neg he] at h; simp at h

/-- **C161.**  An accepted line consists of pieces: words with options and the words these take, and the words of the positional arguments in their
order; only optional ones may be left out.  What the command gets is what the pieces set; no word is ignored but the separator `--`. -/
theorem every_word_used (p : Parser) (ws : List Word) (ns : Ns) (hc : ws.count dd ≤ 1) (h : parse p ws = .ok ns) :
    ∃ (pieces : List Piece) (rest : List Pos), ws = pieces.flatMap Piece.words ∧ (∀ x ∈ pieces, x.Legit p) ∧
      pieces.filterMap Piece.pos ++ rest = p.poss ∧ (∀ q ∈ rest, q.nargs = .opt) ∧
      ns = assign p.defaults (pieces.flatMap Piece.sets) := by
  obtain ⟨_, pieces, rest, _, _, h⟩ := parse_sound p ws ns hc h
  exact ⟨pieces, rest, h⟩

/-- **C161.**  A word that begins with a dash, is neither an option nor a beginning of one, is no number and has no space is accepted nowhere
on the line before `--`: a name or a file with such a name is refused, not taken for something else. -/
theorem dash_word_refused (p : Parser) (before after : List Word) (hb : dd ∉ before) (hc : after.count dd ≤ 1) (c : Char) (r : Word) (h1 : c ≠ '-')
    (h2 : ∀ o ∈ p.opts, ∀ n ∈ o.names, ¬ ['-', c] <+: n) (h3 : ' ' ∉ c :: r) (h4 : '=' ∉ c :: r)
    (h5 : negativeNumber ('-' :: c :: r) = false) (ns : Ns) :
    parse p (before ++ ('-' :: c :: r) :: after) ≠ .ok ns := by
  have hs : ∀ x ∈ p.strings, ¬ ['-', c] <+: x.1 := by
    intro x hx
    have := (mem_strings p x).mp hx
    exact h2 _ this.1 _ this.2
  have hl : p.lookup ('-' :: c :: r) = none := by
    rw [Parser.lookup, Option.map_eq_none_iff, List.find?_eq_none]
    intro x hx
    simp only [beq_iff_eq]
    intro e
    exact hs x hx ⟨r, by rw [e]; rfl⟩
  have ht : tuples p ('-' :: c :: r) = [] := by
    rw [tuples, if_neg (by simpa using h1), List.filterMap_eq_nil_iff]
    intro x hx
    have e1 : x.1 ≠ List.take 2 ('-' :: c :: r) := by
      intro e
      exact hs x hx ⟨[], by rw [e]; rfl⟩
    have e2 : ('-' :: c :: r).isPrefixOf x.1 = false := by
      rw [Bool.eq_false_iff]
      intro e
      rw [List.isPrefixOf_iff_prefix] at e
      obtain ⟨t, ht⟩ := e
      exact hs x hx ⟨r ++ t, by rw [← ht]; rfl⟩
    rw [if_neg e1, e2]; rfl
  have hsp : splitEq ('-' :: c :: r) = none := by
    rw [splitEq, if_neg]
    intro h
    rcases List.mem_cons.mp h with h | h
    · simp at h
    · exact h4 h
  have hsp2 : ' ' ∉ ('-' :: c :: r) := by
    intro h
    rcases List.mem_cons.mp h with h | h
    · simp at h
    · exact h3 h
  have hne : '-' :: c :: r ≠ dd := by simp [dd, h1]
  have hpo : parseOptional p ('-' :: c :: r) = .ok (.opt ('-' :: c :: r) none none) := by
    rw [parseOptional, if_neg (by simp), hl]
    dsimp only
    rw [if_neg (by simp), hsp]
    dsimp only
    rw [abbreviated, ht]
    dsimp only
    rw [if_neg (by simp [h5]), if_neg hsp2]
  intro h
  have hcount : (before ++ ('-' :: c :: r) :: after).count dd ≤ 1 := by
    rw [List.count_append, List.count_eq_zero.mpr hb, List.count_cons_of_ne (by simpa using hne)]
    omega
  obtain ⟨l, _, _, hcl, hk, _⟩ := parse_sound p _ ns hcount h
  have : ∀ (before : List Word) (l : List (Word × Sym)), dd ∉ before → classify p (before ++ ('-' :: c :: r) :: after) = .ok l →
      ('-' :: c :: r, Sym.opt ('-' :: c :: r) none none) ∈ l := by
    intro before
    induction before with
    | nil =>
      intro l _ hcl
      rw [List.nil_append, classify, if_neg hne, hpo] at hcl
      dsimp only at hcl
      cases hr : classify p after with
      | error e => rw [hr] at hcl; simp at hcl
      | ok l' =>
        rw [hr] at hcl
        simp only [Except.ok.injEq] at hcl
        subst hcl
        simp
    | cons b before ih =>
      intro l hb hcl
      rw [List.mem_cons, not_or] at hb
      rw [List.cons_append, classify, if_neg (Ne.symm hb.1)] at hcl
      cases hp : parseOptional p b with
      | error e => rw [hp] at hcl; simp at hcl
      | ok s =>
        rw [hp] at hcl
        dsimp only at hcl
        cases hr : classify p (before ++ ('-' :: c :: r) :: after) with
        | error e => rw [hr] at hcl; simp at hcl
        | ok l' =>
          rw [hr] at hcl
          simp only [Except.ok.injEq] at hcl
          subst hcl
          exact List.mem_cons_of_mem _ (ih l' hb.2 hr)
  exact hk _ (this before l hb hcl) trivial


theorem cluster_fuel (p : Parser) (following : List (Word × Sym)) : ∀ (fuel : Nat) (name : Word) (o : Opt) (explicit : Option (Bool × Word)),
    (∀ x ∈ explicit, x.2.length < fuel) → 0 < fuel → cluster p following fuel name o explicit ≠ .error .fuel
  | 0, _, _, _, _, h => absurd h (by omega)
  | fuel + 1, name, o, none, _, _ => by
    rw [cluster]
    cases o.arity.count (following.map (·.2)) <;> simp
  | fuel + 1, name, o, some (eq, x), hx, _ => by
    rw [cluster.eq_def]
    dsimp only
    split
    · split
      · rename_i c r
        split
        · split
          · simp
          · split
            · rename_i o' _
              have hlen := hx (eq, c :: r) rfl
              simp only [List.length_cons] at hlen
              have : ∀ rest, (∀ x ∈ rest, x.2.length < fuel) →
                  (match cluster p following fuel ['-', c] o' rest with
                   | .error e => .error e
                   | .ok k => .ok { k with acts := (o, []) :: k.acts }) ≠ Except.error (α := Cluster) Err.fuel := by
                intro rest hrest
                have ih := cluster_fuel p following fuel ['-', c] o' rest hrest (by omega)
                cases hk : cluster p following fuel ['-', c] o' rest with
                | error e =>
                  rw [hk] at ih
                  simpa using ih
                | ok k => simp
              apply this
              intro y hy
              split at hy
              · simp at hy
              · simp only [Option.mem_def, Option.some.injEq] at hy
                subst hy
                simp only [List.length_cons] at hlen
                dsimp only
                omega
              · simp only [Option.mem_def, Option.some.injEq] at hy
                subst hy
                dsimp only
                omega
            · simp
        · simp
      · simp
    · simp
    · simp

theorem act_fuel : ∀ (acts : List (Opt × List Word)) (ns : Ns), actAll ns acts ≠ .error .fuel
  | [], ns => by simp [actAll]
  | (o, ws) :: acts, ns => by
    rw [actAll]
    cases ha : act ns o ws with
    | error e =>
      simp only [ne_eq, Except.error.injEq]
      rintro rfl
      unfold act at ha
      split at ha <;> simp at ha
    | ok ns' => exact act_fuel acts ns'

theorem consumeOpt_fuel (p : Parser) (s : St) (hi : ∀ x ∈ s.todo, SymOk p x.1 x.2) : consumeOpt p s ≠ .error .fuel := by
  unfold consumeOpt
  split
  · rename_i w name o explicit following htodo
    split
    · simp
    · rename_i o
      have hso := hi (w, .opt name (some o) explicit) (by rw [htodo]; simp)
      have := cluster_fuel p following (w.length + 1) name o explicit (by
        intro x hx
        obtain ⟨eq, x⟩ := x
        simp only [Option.mem_def] at hx
        subst hx
        cases eq with
        | true => obtain ⟨a, ha, _⟩ := hso; dsimp only at ha ⊢; rw [ha]; simp; omega
        | false => obtain ⟨c, _, hw, _⟩ := hso; dsimp only at hw ⊢; rw [hw]; simp; omega) (by omega)
      cases hk : cluster p following (w.length + 1) name o explicit with
      | error e => rw [hk] at this; simpa using this
      | ok k =>
        dsimp only
        have := act_fuel k.acts s.ns
        cases ha : actAll s.ns k.acts with
        | error e => rw [ha] at this; simpa using this
        | ok ns => simp
  · simp

theorem consumePos_todo (s : St) : (consumePos s).todo.Sublist s.todo := by
  have : ∀ (qs : List Pos) (cs : List Nat) (l : List (Word × Sym)) (env : Ns), (givePos qs cs l env).1.Sublist l := by
    intro qs
    induction qs with
    | nil => intro cs l env; cases cs <;> exact List.Sublist.refl _
    | cons q qs ih =>
      intro cs l env
      cases cs with
      | nil => exact List.Sublist.refl _
      | cons n cs => exact (ih cs _ _).trans (List.drop_sublist _ _)
  exact this _ _ _ _

theorem consumeOpt_rest (p : Parser) (s s' : St) (x : Word × Sym) (r : List (Word × Sym)) (hs : s.todo = x :: r) (hx : x.2.isOpt = true)
    (h : consumeOpt p s = .ok s') : s'.todo.Sublist r := by
  unfold consumeOpt at h
  split at h
  · rename_i w name o explicit following htodo
    rw [hs] at htodo
    obtain ⟨rfl, rfl⟩ := List.cons.inj htodo
    split at h
    · simp only [Except.ok.injEq] at h
      subst h
      exact List.Sublist.refl _
    · split at h
      · simp at h
      · split at h
        · simp at h
        · simp only [Except.ok.injEq] at h
          subst h
          exact List.drop_sublist _ _
  · rename_i hno
    obtain ⟨w, sy⟩ := x
    cases sy with
    | arg => simp [Sym.isOpt] at hx
    | dash => simp [Sym.isOpt] at hx
    | opt name o explicit => exact absurd hs (hno w name o explicit r)

theorem loop_fuel (p : Parser) : ∀ (fuel : Nat) (s : St), (∀ x ∈ s.todo, SymOk p x.1 x.2) → s.todo.length < fuel → loop p fuel s ≠ .error .fuel
  | 0, _, _, h => absurd h (by omega)
  | fuel + 1, s, hi, hl => by
    rw [loop]
    by_cases hany : (s.todo.any fun x => x.2.isOpt) = true
    · rw [if_pos hany]
      dsimp only
      obtain ⟨t, hts, ht⟩ : ∃ t : St, t.todo.Sublist s.todo ∧ (if (s.todo.head?.any fun x => x.2.isOpt) = true then s else consumePos s) = t := by
        split
        · exact ⟨s, List.Sublist.refl _, rfl⟩
        · exact ⟨_, consumePos_todo s, rfl⟩
      rw [ht]
      split
      · exact loop_fuel p fuel t (fun x hx => hi x (hts.subset hx)) (by omega)
      · have hsub : (t.todo.dropWhile fun x => !x.2.isOpt).Sublist s.todo := (List.dropWhile_sublist _).trans hts
        have hco := consumeOpt_fuel p { t with
            extras := t.extras ++ (t.todo.takeWhile fun x => !x.2.isOpt).map (·.1), todo := t.todo.dropWhile fun x => !x.2.isOpt }
          (fun x hx => hi x (hsub.subset hx))
        cases hc : consumeOpt p { t with
            extras := t.extras ++ (t.todo.takeWhile fun x => !x.2.isOpt).map (·.1), todo := t.todo.dropWhile fun x => !x.2.isOpt } with
        | error e => rw [hc] at hco; simpa using hco
        | ok u =>
          dsimp only
          have hut := consumeOpt_todo p _ _ hc
          refine loop_fuel p fuel u (fun x hx => hi x (hsub.subset (hut.subset hx))) ?_
          -- the option itself is used up
          cases hd : (t.todo.dropWhile fun x => !x.2.isOpt) with
          | nil =>
            have h1 := hut.length_le
            simp only [hd, List.length_nil] at h1
            obtain ⟨x, hx, _⟩ := List.any_eq_true.mp hany
            have := List.length_pos_of_mem hx
            omega
          | cons x r =>
            have hx : x.2.isOpt = true := by
              have h1 : (t.todo.dropWhile fun x => !x.2.isOpt) ≠ [] := by rw [hd]; simp
              have := List.head_dropWhile_not (fun x : Word × Sym => !x.2.isOpt) h1
              simp only [hd, List.head_cons] at this
              simpa using this
            have h1 := (consumeOpt_rest p _ _ x r hd hx hc).length_le
            have h2 := hsub.length_le
            rw [hd, List.length_cons] at h2
            omega
    · rw [if_neg hany]; simp


/-- The parser always comes to an end (the `fuel` of the model is enough). -/
theorem parse_ends (p : Parser) (ws : List Word) (hc : ws.count dd ≤ 1) : parse p ws ≠ .error .fuel := by
  have hcf : ∀ ws : List Word, classify p ws ≠ .error .fuel := by
    intro ws
    induction ws with
    | nil => simp [classify]
    | cons w ws ih =>
      rw [classify]
      split
      · simp
      · cases hp : parseOptional p w with
        | error e =>
          have : e = .ambiguous := by
            unfold parseOptional abbreviated at hp
            repeat' (split at hp)
            all_goals simp_all
          simp [this]
        | ok s =>
          dsimp only
          cases hr : classify p ws with
          | error e => rw [hr] at ih; simpa using ih
          | ok l => simp
  rw [parse]
  cases hcl : classify p ws with
  | error e => have := hcf ws; rw [hcl] at this; simpa using this
  | ok l =>
    dsimp only
    have hi := (classify_inv p ws l hcl hc).1
    have hl := loop_fuel p (l.length + 1) ⟨l, p.poss, p.defaults, []⟩ hi.ok (by simp)
    cases hlo : loop p (l.length + 1) ⟨l, p.poss, p.defaults, []⟩ with
    | error e => rw [hlo] at hl; simpa using hl
    | ok s =>
      dsimp only
      split
      · simp
      · split <;> simp

/-- A line for `run` with an abbreviation, joined short options and a value after an equals sign. -/
def runLine : List Word := line ["--work=W", "-sq", "-cdefault", "-i", "a.nc", "b.nc"]

-- the hypotheses are met and the attributes are as given
example : (parse cmdRun.parser runLine).toOption.map (fun ns =>
      [ns "workspace_name", ns "skip_l1bs", ns "quiet", ns "config_name", ns "inputs", ns "output_dir", ns "all_configs"]) =
    some [.word "W".toList, .flag true, .flag true, .word "default".toList, .words (line ["a.nc", "b.nc"]), .none, .flag false] := by
  decide +kernel

example : runLine.count dd ≤ 1 := by decide +kernel

-- the pieces of that line
example : ∃ pieces : List Piece, runLine = pieces.flatMap Piece.words ∧ ∀ x ∈ pieces, x.Legit cmdRun.parser := by
  obtain ⟨ns, h⟩ : ∃ ns, parse cmdRun.parser runLine = .ok ns := by
    cases h : parse cmdRun.parser runLine with
    | ok ns => exact ⟨ns, rfl⟩
    | error e =>
      have : (parse cmdRun.parser runLine).toOption.isSome = true := by decide +kernel
      rw [h] at this
      simp [Except.toOption] at this
  obtain ⟨pieces, _, h1, h2, _⟩ := every_word_used cmdRun.parser runLine ns (by decide +kernel) h
  exact ⟨pieces, h1, h2⟩

-- a file whose name begins with a dash
example (ns : Ns) : parse inAdd.parser (line ["a.nc"] ++ "-x.nc".toList :: line ["b.nc"]) ≠ .ok ns :=
  dash_word_refused inAdd.parser (line ["a.nc"]) (line ["b.nc"]) (by decide +kernel) (by decide +kernel) 'x' ".nc".toList (by decide +kernel)
    (by decide +kernel) (by decide +kernel) (by decide +kernel) (by decide +kernel) ns

-- after the separator it is accepted
example : (parse inAdd.parser (line ["-q", "a.nc", "--", "-x.nc"])).toOption.map (fun ns => [ns "inputs", ns "quiet"]) =
    some [.words (line ["a.nc", "-x.nc"]), .flag true] := by decide +kernel

end Dedop.Args
