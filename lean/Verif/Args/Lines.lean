import Verif.Args.Table

/-!
# What a command gets from its line (C161): lines in the usual form
-/
namespace Dedop.Args

/-! ## Specification -/

/-- A word that does not begin with a dash. -/
def Plain (w : Word) : Prop := w.head? ≠ some '-'

/-- An option on the line: which, under which of its names, with which words. -/
structure Given where
  opt : Opt
  name : Word
  values : List Word

/-- The words of an option on the line. -/
def Given.words (g : Given) : List Word := g.name :: g.values

/-- The option belongs to the parser and has the words it takes. -/
def Given.Valid (p : Parser) (g : Given) : Prop :=
  g.opt ∈ p.opts ∧ g.name ∈ g.opt.names ∧ (∀ w ∈ g.values, Plain w) ∧
  (match g.opt.arity with
   | .flag => g.values = []
   | .one => ∃ w, g.values = [w]
   | .many => True
   | .help => False)

/-- What an option with these words sets: its attribute, to `True`, to the word or to the list of words. -/
def optSets (x : Opt × List Word) : String × Value :=
  (x.1.dest, match x.1.arity, x.2 with
    | .flag, _ => .flag true
    | .one, w :: _ => .word w
    | _, ws => .words ws)

/-- What the option on the line sets. -/
def Given.sets (g : Given) : String × Value := optSets (g.opt, g.values)

/-- The number of words that must be left for the positional arguments. -/
def needed : List Pos → Nat
  | [] => 0
  | q :: qs => (if q.nargs = .one ∨ q.nargs = .plus then 1 else 0) + needed qs

/-- How many names a positional argument takes when so many are to spare. -/
def takes (n : NArgs) (spare : Nat) : Nat :=
  match n with
  | .one | .opt => min 1 spare
  | .star | .plus => spare

/-- The names on the line are shared among the positional arguments in their order: each takes as many as it may and as the following ones can
spare.  `none` if there are too few or too many. -/
def share : List Pos → List Word → Option (List (Pos × List Word))
  | [], [] => some []
  | [], _ :: _ => none
  | q :: qs, ws =>
    let n := takes q.nargs (ws.length - needed qs)
    if (q.nargs = .one ∨ q.nargs = .plus) ∧ n = 0 then none
    else (share qs (ws.drop n)).map ((q, ws.take n) :: ·)

/-- What a positional argument sets. -/
def nameSets (x : Pos × List Word) : String × Value :=
  (x.1.dest, match x.1.nargs, x.2 with
    | .star, ws | .plus, ws => .words ws
    | _, w :: _ => .word w
    | _, [] => .none)

/-- The namespace after the settings, in their order. -/
def assign (ns : Ns) (l : List (String × Value)) : Ns := l.foldl (fun ns x => Function.update ns x.1 x.2) ns

/-- The names of the options begin with a dash and differ from each other. -/
def Parser.Good (p : Parser) : Prop :=
  ∀ o ∈ p.opts, ∀ n ∈ o.names, n.head? = some '-' ∧ n ≠ dd ∧ p.lookup n = some o

instance (p : Parser) : Decidable p.Good := by unfold Parser.Good; infer_instance

/-- No option takes any number of words. -/
def Parser.Definite (p : Parser) : Prop := ∀ o ∈ p.opts, o.arity ≠ .many

instance (p : Parser) : Decidable p.Definite := by unfold Parser.Definite; infer_instance

/-! ## Groups -/

/-- Letters at which the arguments end. -/
def Ends (l : List Sym) : Prop := ∀ s, l.head? = some s → s.isOpt = true

theorem takeWhile_args (ok : Sym → Bool) (h1 : ok .arg = true) (h2 : ∀ s, s.isOpt = true → ok s = false) (k : Nat) (l : List Sym) (hl : Ends l) :
    ((List.replicate k Sym.arg ++ l).takeWhile ok).length = k := by
  induction k with
  | zero =>
    cases l with
    | nil => rfl
    | cons s l => simp [h2 s (hl s rfl)]
  | succ k ih => simpa [List.replicate_succ, h1] using ih

theorem takeWhile_dash (k : Nat) (l : List Sym) (hl : Ends l) : ((List.replicate k Sym.arg ++ l).takeWhile isDash).length = 0 := by
  cases k with
  | zero =>
    cases l with
    | nil => rfl
    | cons s l =>
      have := hl s rfl
      cases s <;> simp [Sym.isOpt, isDash] at this ⊢
  | succ k => simp [List.replicate_succ, isDash]

theorem dash_lengths (k : Nat) (l : List Sym) (hl : Ends l) : Item.lengths ⟨isDash, 0, none⟩ (List.replicate k Sym.arg ++ l) = [0] := by
  unfold Item.lengths
  simp only [takeWhile_dash k l hl]
  rfl

theorem drop_args (k n : Nat) (h : n ≤ k) (l : List Sym) : (List.replicate k Sym.arg ++ l).drop n = List.replicate (k - n) Sym.arg ++ l := by
  rw [List.drop_append_of_le_length (by simpa using h), List.drop_replicate]

theorem isArg_opt (s : Sym) (h : s.isOpt = true) : isArg s = false := by cases s <;> simp_all [Sym.isOpt, isArg]

theorem either_opt (s : Sym) (h : s.isOpt = true) : (isArg s || isDash s) = false := by cases s <;> simp_all [Sym.isOpt, isArg, isDash]

variable {β : Type}

theorem group_one (k : Nat) (l : List Sym) (hl : Ends l) (K : Nat → List Sym → Option β) :
    matchGroup NArgs.one.items (List.replicate k .arg ++ l) K =
      if 1 ≤ k then K 1 (List.replicate (k - 1) .arg ++ l) else none := by
  simp only [NArgs.items, matchGroup, dash_lengths k l hl, List.findSome?_cons, List.findSome?_nil, List.drop_zero]
  have e : Item.lengths ⟨isArg, 1, some 1⟩ (List.replicate k Sym.arg ++ l) = if 1 ≤ k then [1] else [] := by
    unfold Item.lengths
    simp only [takeWhile_args isArg rfl isArg_opt k l hl]
    by_cases h : 1 ≤ k
    · simp [h]
    · have : k = 0 := by omega
      subst this; rfl
  rw [e]
  by_cases h : 1 ≤ k
  · rw [if_pos h, if_pos h]
    simp only [List.findSome?_cons, List.findSome?_nil, drop_args k 1 h, dash_lengths (k - 1) l hl, List.drop_zero]
    cases K _ _ <;> rfl
  · rw [if_neg h, if_neg h]; rfl

theorem group_opt (k : Nat) (l : List Sym) (hl : Ends l) (K : Nat → List Sym → Option β) :
    matchGroup NArgs.opt.items (List.replicate k .arg ++ l) K =
      if 1 ≤ k then (K 1 (List.replicate (k - 1) .arg ++ l)).or (K 0 (List.replicate k .arg ++ l)) else K 0 (List.replicate k .arg ++ l) := by
  simp only [NArgs.items, matchGroup, dash_lengths k l hl, List.findSome?_cons, List.findSome?_nil, List.drop_zero]
  have e : Item.lengths ⟨isArg, 0, some 1⟩ (List.replicate k Sym.arg ++ l) = if 1 ≤ k then [1, 0] else [0] := by
    unfold Item.lengths
    simp only [takeWhile_args isArg rfl isArg_opt k l hl]
    by_cases h : 1 ≤ k
    · simp [h, List.range']
    · have : k = 0 := by omega
      subst this; rfl
  rw [e]
  by_cases h : 1 ≤ k
  · rw [if_pos h, if_pos h]
    simp only [List.findSome?_cons, List.findSome?_nil, drop_args k 1 h, List.drop_zero, dash_lengths (k - 1) l hl, dash_lengths k l hl]
    cases K 1 (List.replicate (k - 1) .arg ++ l) <;> cases K 0 (List.replicate k .arg ++ l) <;> rfl
  · rw [if_neg h, if_neg h]
    simp only [List.findSome?_cons, List.findSome?_nil, List.drop_zero, dash_lengths k l hl]
    cases K 0 (List.replicate k .arg ++ l) <;> rfl

theorem group_star (k : Nat) (l : List Sym) (hl : Ends l) (K : Nat → List Sym → Option β) :
    matchGroup NArgs.star.items (List.replicate k .arg ++ l) K =
      (List.range' 0 (k + 1)).reverse.findSome? fun n => K n (List.replicate (k - n) .arg ++ l) := by
  simp only [NArgs.items, matchGroup, dash_lengths k l hl, List.findSome?_cons, List.findSome?_nil, List.drop_zero]
  have e : Item.lengths ⟨fun s => isArg s || isDash s, 0, none⟩ (List.replicate k Sym.arg ++ l) = (List.range' 0 (k + 1)).reverse := by
    unfold Item.lengths
    simp only [takeWhile_args (fun s => isArg s || isDash s) rfl either_opt k l hl]
    rfl
  rw [e]
  have : ∀ (ns : List Nat), (∀ n ∈ ns, n ≤ k) →
      (match ns.findSome? fun n => K (0 + (n + 0)) ((List.replicate k Sym.arg ++ l).drop n) with | some b => some b | none => none) =
        ns.findSome? fun n => K n (List.replicate (k - n) .arg ++ l) := by
    intro ns hns
    have : (ns.findSome? fun n => K (0 + (n + 0)) ((List.replicate k Sym.arg ++ l).drop n)) =
        ns.findSome? fun n => K n (List.replicate (k - n) .arg ++ l) := by
      induction ns with
      | nil => rfl
      | cons n ns ih =>
        rw [List.findSome?_cons, List.findSome?_cons, drop_args k n (hns n (by simp)), ih (fun m hm => hns m (by simp [hm]))]
        simp
    rw [this]
    cases ns.findSome? fun n => K n (List.replicate (k - n) .arg ++ l) <;> rfl
  exact this _ (by intro n hn; simp at hn; omega)

theorem group_plus (k : Nat) (l : List Sym) (hl : Ends l) (K : Nat → List Sym → Option β) :
    matchGroup NArgs.plus.items (List.replicate k .arg ++ l) K =
      if 1 ≤ k then (List.range' 0 k).reverse.findSome? fun n => K (1 + n) (List.replicate (k - 1 - n) .arg ++ l) else none := by
  simp only [NArgs.items, matchGroup, dash_lengths k l hl, List.findSome?_cons, List.findSome?_nil, List.drop_zero]
  have e : Item.lengths ⟨isArg, 1, some 1⟩ (List.replicate k Sym.arg ++ l) = if 1 ≤ k then [1] else [] := by
    unfold Item.lengths
    simp only [takeWhile_args isArg rfl isArg_opt k l hl]
    by_cases h : 1 ≤ k
    · simp [h]
    · have : k = 0 := by omega
      subst this; rfl
  rw [e]
  by_cases h : 1 ≤ k
  · rw [if_pos h, if_pos h]
    simp only [List.findSome?_cons, List.findSome?_nil, drop_args k 1 h]
    have e2 : Item.lengths ⟨fun s => isArg s || isDash s, 0, none⟩ (List.replicate (k - 1) Sym.arg ++ l) = (List.range' 0 k).reverse := by
      unfold Item.lengths
      simp only [takeWhile_args (fun s => isArg s || isDash s) rfl either_opt (k - 1) l hl]
      rw [show k - 1 + 1 - 0 = k by omega]
    rw [e2]
    have : ∀ (ns : List Nat), (∀ n ∈ ns, n ≤ k - 1) →
        (ns.findSome? fun n => K (0 + (1 + (n + 0))) ((List.replicate (k - 1) Sym.arg ++ l).drop n)) =
        ns.findSome? fun n => K (1 + n) (List.replicate (k - 1 - n) .arg ++ l) := by
      intro ns hns
      induction ns with
      | nil => rfl
      | cons n ns ih =>
        rw [List.findSome?_cons, List.findSome?_cons, drop_args (k - 1) n (hns n (by simp)), ih (fun m hm => hns m (by simp [hm]))]
        simp
    rw [this _ (by intro n hn; simp at hn; omega)]
    cases List.findSome? _ (List.range' 0 k).reverse <;> rfl
  · rw [if_neg h, if_neg h]; rfl

theorem findSome_top (f : Nat → Option β) (g : Nat → β) (m : Nat) :
    ∀ k, m < k → (∀ n < k, f n = if n ≤ m then some (g n) else none) → (List.range' 0 k).reverse.findSome? f = some (g m)
  | 0, h, _ => absurd h (by omega)
  | k + 1, h, hf => by
    rw [List.range'_1_concat, List.reverse_append]
    simp only [Nat.zero_add, List.reverse_singleton, List.singleton_append, List.findSome?_cons]
    by_cases e : m = k
    · subst e
      rw [hf m (by omega), if_pos le_rfl]
    · rw [hf k (by omega), if_neg (by omega)]
      exact findSome_top f g m k (by omega) (fun n hn => hf n (by omega))

theorem findSome_none (f : Nat → Option β) (l : List Nat) (hf : ∀ n ∈ l, f n = none) : l.findSome? f = none := by
  rw [List.findSome?_eq_none_iff]; exact hf

/-- Proof helper: the words that must be left for the groups. -/
def need : List NArgs → Nat
  | [] => 0
  | .one :: gs | .plus :: gs => 1 + need gs
  | .opt :: gs | .star :: gs => need gs

/-- Proof helper: the words the groups take. -/
def counts : List NArgs → Nat → List Nat
  | [], _ => []
  | .one :: gs, k => 1 :: counts gs (k - 1)
  | .opt :: gs, k => min 1 (k - need gs) :: counts gs (k - min 1 (k - need gs))
  | .star :: gs, k => (k - need gs) :: counts gs (need gs)
  | .plus :: gs, k => (k - need gs) :: counts gs (need gs)

theorem groups_args (l : List Sym) (hl : Ends l) : ∀ (gs : List NArgs) (k : Nat),
    matchGroups gs (List.replicate k .arg ++ l) = if need gs ≤ k then some (counts gs k) else none
  | [], k => by simp [matchGroups, need, counts]
  | .one :: gs, k => by
    rw [matchGroups, group_one k l hl, groups_args l hl gs, need, counts]
    by_cases h : 1 ≤ k
    · rw [if_pos h]
      by_cases h' : need gs ≤ k - 1
      · rw [if_pos h', if_pos (by omega)]; rfl
      · rw [if_neg h', if_neg (by omega)]; rfl
    · rw [if_neg h, if_neg (by omega)]
  | .opt :: gs, k => by
    rw [matchGroups, group_opt k l hl, groups_args l hl gs, groups_args l hl gs, need, counts]
    by_cases h : 1 ≤ k
    · by_cases h' : need gs ≤ k - 1
      · have h2 : need gs ≤ k := by omega
        rw [show min 1 (k - need gs) = 1 by omega]
        simp [h, h', h2]
      · rw [show min 1 (k - need gs) = 0 by omega]
        by_cases h2 : need gs ≤ k <;> simp [h, h', h2]
    · rw [show min 1 (k - need gs) = 0 by omega]
      by_cases h2 : need gs ≤ k <;> simp [h, h2]
  | .star :: gs, k => by
    rw [matchGroups, group_star k l hl, need, counts]
    by_cases h : need gs ≤ k
    · rw [if_pos h, findSome_top _ (fun n => n :: counts gs (k - n)) (k - need gs) (k + 1) (by omega)]
      · rw [show k - (k - need gs) = need gs by omega]
      · intro n hn
        rw [groups_args l hl gs]
        by_cases h' : need gs ≤ k - n
        · rw [if_pos h', if_pos (by omega)]; rfl
        · rw [if_neg h', if_neg (by omega)]; rfl
    · rw [if_neg h, findSome_none]
      intro n hn
      rw [groups_args l hl gs, if_neg (by omega)]; rfl
  | .plus :: gs, k => by
    rw [matchGroups, group_plus k l hl, need, counts]
    by_cases h : 1 ≤ k
    · rw [if_pos h]
      by_cases h1 : 1 + need gs ≤ k
      · rw [if_pos h1, findSome_top _ (fun n => (1 + n) :: counts gs (k - 1 - n)) (k - 1 - need gs) k (by omega)]
        · rw [show 1 + (k - 1 - need gs) = k - need gs by omega, show k - 1 - (k - 1 - need gs) = need gs by omega]
        · intro n hn
          rw [groups_args l hl gs]
          by_cases h' : need gs ≤ k - 1 - n
          · rw [if_pos h', if_pos (by omega)]; rfl
          · rw [if_neg h', if_neg (by omega)]; rfl
      · rw [if_neg h1, findSome_none]
        intro n hn
        rw [groups_args l hl gs, if_neg (by omega)]; rfl
    · rw [if_neg h, if_neg (by omega)]

theorem partial_args (l : List Sym) (hl : Ends l) (gs : List NArgs) (k : Nat) (h : need gs ≤ k) :
    matchPartial gs (List.replicate k .arg ++ l) = counts gs k := by
  unfold matchPartial
  rw [List.range_succ, List.reverse_append, List.reverse_singleton, List.singleton_append, List.findSome?_cons, List.take_length,
    groups_args l hl gs, if_pos h]
  rfl


/-! ## Names -/

/-- Proof helper: words taken for arguments. -/
def args (ws : List Word) : List (Word × Sym) := ws.map fun w => (w, .arg)

theorem args_snd (ws : List Word) : (args ws).map (·.2) = List.replicate ws.length .arg := by
  induction ws with
  | nil => rfl
  | cons w ws ih => simpa [args, List.replicate_succ] using ih

theorem args_fst (ws : List Word) : (args ws).map (·.1) = ws := by
  induction ws with
  | nil => rfl
  | cons w ws ih => simpa [args] using ih

theorem need_eq (qs : List Pos) : need (qs.map (·.nargs)) = needed qs := by
  induction qs with
  | nil => rfl
  | cons q qs ih =>
    rw [List.map_cons, needed]
    cases h : q.nargs <;> simp [need, ih]

theorem drop_names (ws : List Word) (n : Nat) (h : n ≤ ws.length) (tail : List (Word × Sym)) :
    (args ws ++ tail).drop n = args (ws.drop n) ++ tail := by
  rw [List.drop_append_of_le_length (by simpa [args] using h)]
  simp [args]

theorem take_names (ws : List Word) (n : Nat) (h : n ≤ ws.length) (tail : List (Word × Sym)) :
    ((args ws ++ tail).take n).map (·.1) = ws.take n := by
  rw [List.take_append_of_le_length (by simpa [args] using h)]
  rw [show (args ws).take n = args (ws.take n) by simp [args], args_fst]

theorem plain_ne (w : Word) (h : Plain w) : w ≠ dd := by
  rintro rfl; exact h rfl

theorem erase_plain (ws : List Word) (h : ∀ w ∈ ws, Plain w) : ws.erase dd = ws :=
  List.erase_of_not_mem fun h' => plain_ne _ (h _ h') rfl

theorem give_any (tail : List (Word × Sym)) : ∀ (qs : List Pos) (ws : List Word) (env : Ns), needed qs ≤ ws.length →
    ∃ left env', givePos qs (counts (qs.map (·.nargs)) ws.length) (args ws ++ tail) env = (args left ++ tail, [], env')
  | [], ws, env, _ => ⟨ws, env, rfl⟩
  | q :: qs, ws, env, h => by
    rw [needed] at h
    rw [List.map_cons]
    cases e : q.nargs <;> simp only [e, counts, givePos, need_eq] <;> simp [e] at h
    · rw [drop_names ws 1 (by omega), show ws.length - 1 = (ws.drop 1).length by simp]
      exact give_any tail qs _ _ (by simp; omega)
    · rw [drop_names ws _ (by omega), show ws.length - min 1 (ws.length - needed qs) = (ws.drop (min 1 (ws.length - needed qs))).length by simp]
      exact give_any tail qs _ _ (by simp; omega)
    · rw [drop_names ws _ (by omega), show counts (qs.map (·.nargs)) (needed qs) = counts (qs.map (·.nargs)) (ws.drop (ws.length - needed qs)).length by
        rw [List.length_drop]; congr 1; omega]
      exact give_any tail qs _ _ (by simp; omega)
    · rw [drop_names ws _ (by omega), show counts (qs.map (·.nargs)) (needed qs) = counts (qs.map (·.nargs)) (ws.drop (ws.length - needed qs)).length by
        rw [List.length_drop]; congr 1; omega]
      exact give_any tail qs _ _ (by simp; omega)

theorem share_needed : ∀ (qs : List Pos) (ws : List Word) (sh), share qs ws = some sh → needed qs ≤ ws.length
  | [], _, _, _ => by simp [needed]
  | q :: qs, ws, sh, h => by
    rw [share] at h
    split at h
    · simp at h
    · rename_i h1
      rw [Option.map_eq_some_iff] at h
      obtain ⟨sh', h2, _⟩ := h
      have := share_needed qs _ _ h2
      rw [needed]
      rw [List.length_drop] at this
      cases e : q.nargs <;> simp [e, takes] at h1 this ⊢ <;> omega

theorem give_share (tail : List (Word × Sym)) : ∀ (qs : List Pos) (ws : List Word) (env : Ns) (sh), share qs ws = some sh → (∀ w ∈ ws, Plain w) →
    givePos qs (counts (qs.map (·.nargs)) ws.length) (args ws ++ tail) env = (tail, [], assign env (sh.map nameSets))
  | [], [], env, sh, h, _ => by
    simp [share] at h; subst h; rfl
  | [], _ :: _, _, _, h, _ => by simp [share] at h
  | q :: qs, ws, env, sh, h, hw => by
    have hn := share_needed _ _ _ h
    rw [share] at h
    split at h
    · simp at h
    · rename_i h1
      rw [Option.map_eq_some_iff] at h
      obtain ⟨sh', h2, rfl⟩ := h
      rw [needed] at hn
      rw [List.map_cons, List.map_cons]
      have hp : ∀ n, ∀ w ∈ ws.drop n, Plain w := fun n w hm => hw w (List.mem_of_mem_drop hm)
      have ht : ∀ n, (ws.take n).erase dd = ws.take n := fun n => erase_plain _ fun w hm => hw w (List.mem_of_mem_take hm)
      have ih := fun env => give_share tail qs _ env _ h2 (hp _)
      cases e : q.nargs <;> simp only [e, counts, givePos, need_eq] <;> simp only [e, takes] at h1 h2 ih hn ⊢
      · simp at hn h1
        have e1 : min 1 (ws.length - needed qs) = 1 := by omega
        simp only [e1] at ih ⊢
        rw [drop_names ws 1 (by omega), take_names ws 1 (by omega), show ws.length - 1 = (ws.drop 1).length by simp, ih]
        simp only [assign, List.foldl_cons, nameSets, e, posValue, ht]
        obtain ⟨w, r, rfl⟩ : ∃ w r, ws = w :: r := by
          cases ws with
          | nil => simp at hn
          | cons w r => exact ⟨w, r, rfl⟩
        rfl
      · simp at hn
        rw [drop_names ws _ (by omega), take_names ws _ (by omega),
          show ws.length - min 1 (ws.length - needed qs) = (ws.drop (min 1 (ws.length - needed qs))).length by simp, ih]
        simp only [assign, List.foldl_cons, nameSets, e, posValue, ht]
        rcases Nat.eq_zero_or_pos (ws.length - needed qs) with h0 | h0
        · simp [h0]
        · have e1 : min 1 (ws.length - needed qs) = 1 := by omega
          obtain ⟨w, r, rfl⟩ : ∃ w r, ws = w :: r := by
            cases ws with
            | nil => simp at h0
            | cons w r => exact ⟨w, r, rfl⟩
          simp only [e1]
          rfl
      · simp at hn
        rw [drop_names ws _ (by omega), take_names ws _ (by omega),
          show counts (qs.map (·.nargs)) (needed qs) = counts (qs.map (·.nargs)) (ws.drop (ws.length - needed qs)).length by
            rw [List.length_drop]; congr 1; omega, ih]
        simp only [assign, List.foldl_cons, nameSets, e, posValue, ht]
      · simp at hn
        rw [drop_names ws _ (by omega), take_names ws _ (by omega),
          show counts (qs.map (·.nargs)) (needed qs) = counts (qs.map (·.nargs)) (ws.drop (ws.length - needed qs)).length by
            rw [List.length_drop]; congr 1; omega, ih]
        simp only [assign, List.foldl_cons, nameSets, e, posValue, ht]

/-! ## What the words are taken for -/

/-- Proof helper: the words of an option on the line with what they are taken for. -/
def Given.syms (g : Given) : List (Word × Sym) := (g.name, .opt g.name (some g.opt) none) :: args g.values

theorem classify_args (p : Parser) (ws : List Word) (hw : ∀ w ∈ ws, Plain w) (rest : List Word) (l : List (Word × Sym))
    (h : classify p rest = .ok l) : classify p (ws ++ rest) = .ok (args ws ++ l) := by
  induction ws with
  | nil => simpa [args] using h
  | cons w ws ih =>
    have hp := hw w (by simp)
    rw [List.cons_append, classify, if_neg (plain_ne w hp)]
    have : parseOptional p w = .ok .arg := by
      cases w with
      | nil => rfl
      | cons c r =>
        rw [parseOptional, if_pos]
        intro e; exact hp (by simp [e])
    rw [this, ih (fun v hv => hw v (by simp [hv]))]
    rfl

theorem classify_given (p : Parser) (hp : p.Good) (g : Given) (hg : g.Valid p) (rest : List Word) (l : List (Word × Sym))
    (h : classify p rest = .ok l) : classify p (g.words ++ rest) = .ok (g.syms ++ l) := by
  obtain ⟨ho, hn, hv, _⟩ := hg
  obtain ⟨h1, h2, h3⟩ := hp _ ho _ hn
  rw [Given.words, List.cons_append, classify, if_neg h2]
  have : parseOptional p g.name = .ok (.opt g.name (some g.opt) none) := by
    cases e : g.name with
    | nil => rw [e] at h1; simp at h1
    | cons c r =>
      rw [e] at h1 h3
      rw [parseOptional, if_neg (by simpa using h1), h3]
  rw [this, classify_args p g.values hv rest l h]
  rfl

theorem classify_gives (p : Parser) (hp : p.Good) (gs : List Given) (hg : ∀ g ∈ gs, g.Valid p) (rest : List Word) (l : List (Word × Sym))
    (h : classify p rest = .ok l) : classify p (gs.flatMap Given.words ++ rest) = .ok (gs.flatMap Given.syms ++ l) := by
  induction gs with
  | nil => simpa using h
  | cons g gs ih =>
    rw [List.flatMap_cons, List.flatMap_cons, List.append_assoc, List.append_assoc]
    exact classify_given p hp g (hg g (by simp)) _ _ (ih fun x hx => hg x (by simp [hx]))

theorem classify_names (p : Parser) (ws : List Word) (hw : ∀ w ∈ ws, Plain w) : classify p ws = .ok (args ws) := by
  simpa using classify_args p ws hw [] [] rfl

/-! ## The loop -/

theorem args_noOpt (ws : List Word) : (args ws).any (fun x => x.2.isOpt) = false := by
  simp [args, Sym.isOpt]

theorem takeWhile_arg_syms (ws : List Word) (l : List (Word × Sym)) (h : Ends (l.map (·.2))) :
    (((args ws ++ l).map (·.2)).takeWhile isArg).length = ws.length := by
  rw [List.map_append, args_snd, takeWhile_args isArg rfl isArg_opt ws.length _ h]

/-- Proof helper: the names after the options are taken by none of the options. -/
def Free (p : Parser) (names : List Word) : Prop := names = [] ∨ p.Definite

theorem loop_given (p : Parser) (names : List Word) (hf : Free p names) : ∀ (gs : List Given) (fuel : Nat) (poss : List Pos) (ns : Ns) (e : List Word),
    (∀ g ∈ gs, g.Valid p) → gs.length < fuel →
    loop p fuel ⟨gs.flatMap Given.syms ++ args names, poss, ns, e⟩ = .ok ⟨args names, poss, assign ns (gs.map Given.sets), e⟩
  | _, 0, _, _, _, _, h => absurd h (by omega)
  | [], fuel + 1, poss, ns, e, _, _ => by
    rw [loop]
    simp only [List.flatMap_nil, List.nil_append, args_noOpt]
    rfl
  | g :: gs, fuel + 1, poss, ns, e, hg, hl => by
    have ih := loop_given p names hf gs fuel poss (assign ns [g.sets]) e (fun x hx => hg x (by simp [hx])) (by simpa using hl)
    obtain ⟨ho, hn, hv, ha⟩ := hg g (by simp)
    rw [loop]
    have e1 : (g :: gs).flatMap Given.syms ++ args names =
        (g.name, .opt g.name (some g.opt) none) :: (args g.values ++ (gs.flatMap Given.syms ++ args names)) := by
      rw [List.flatMap_cons, Given.syms]; simp
    rw [e1]
    have e2 : (((g.name, Sym.opt g.name (some g.opt) none) :: (args g.values ++ (gs.flatMap Given.syms ++ args names))).any
        fun x => x.2.isOpt) = true := by simp [Sym.isOpt]
    dsimp only
    rw [if_pos e2]
    simp only [if_true, List.head?_cons, Option.any_some, Sym.isOpt, lt_irrefl, if_false, Bool.not_true, List.takeWhile_cons, Bool.false_eq_true,
      List.dropWhile_cons, List.map_nil, List.append_nil]
    simp only [consumeOpt, cluster]
    have hd : (args g.values ++ (gs.flatMap Given.syms ++ args names)).drop g.values.length = gs.flatMap Given.syms ++ args names := by
      rw [List.drop_append_of_le_length (by simp [args])]; simp [args]
    have htk : ((args g.values ++ (gs.flatMap Given.syms ++ args names)).take g.values.length).map (·.1) = g.values := by
      rw [List.take_append_of_le_length (by simp [args])]
      rw [show (args g.values).take g.values.length = args g.values by simp [args], args_fst]
    have key : g.opt.arity.count ((args g.values ++ (gs.flatMap Given.syms ++ args names)).map (·.2)) = some g.values.length ∧
        actAll ns [(g.opt, g.values)] = .ok (assign ns [g.sets]) := by
      cases a : g.opt.arity with
      | flag =>
        rw [a] at ha
        simp only at ha
        simp [Arity.count, ha, actAll, act, a, assign, Given.sets, optSets]
      | one =>
        rw [a] at ha
        obtain ⟨w, hw⟩ := ha
        simp [Arity.count, hw, args, actAll, act, a, assign, Given.sets, optSets, optValue]
      | many =>
        refine ⟨?_, by simp [actAll, act, a, assign, Given.sets, optSets, optValue]⟩
        rw [Arity.count]
        congr 1
        apply takeWhile_arg_syms
        rcases hf with hf | hf
        · intro s hs
          subst hf
          cases gs with
          | nil => simp [args] at hs
          | cons g' gs =>
            simp [Given.syms] at hs
            rw [← hs]; rfl
        · exact absurd a (hf _ ho)
      | help => rw [a] at ha; exact ha.elim
    rw [key.1]
    simp only [htk, hd, key.2, List.append_nil]
    rw [ih]
    rfl

theorem consume_names (names : List Word) (poss : List Pos) (ns : Ns) (e : List Word) (tail : List (Word × Sym))
    (ht : Ends (tail.map (·.2))) (sh) (h : share poss names = some sh) (hw : ∀ w ∈ names, Plain w) :
    consumePos ⟨args names ++ tail, poss, ns, e⟩ = ⟨tail, [], assign ns (sh.map nameSets), e⟩ := by
  simp only [consumePos, List.map_append, args_snd]
  rw [partial_args _ ht _ _ (by rw [need_eq]; exact share_needed _ _ _ h), give_share tail _ _ _ _ h hw]

theorem ends_given (gs : List Given) : Ends ((gs.flatMap Given.syms).map (·.2)) := by
  intro s hs
  cases gs with
  | nil => simp at hs
  | cons g gs =>
    simp [Given.syms] at hs
    rw [← hs]; rfl

theorem given_length (gs : List Given) : gs.length ≤ (gs.flatMap Given.syms).length := by
  induction gs with
  | nil => simp
  | cons g gs ih => simp [Given.syms] at ih ⊢; omega


/-! ## Theorems -/

/-- **C161.**  Options first, then names: every option sets what it is given, the last one of several wins, and the names go to the positional
arguments in their order. -/
theorem options_then_names (p : Parser) (hp : p.Good) (gs : List Given) (hg : ∀ g ∈ gs, g.Valid p) (names : List Word)
    (hw : ∀ w ∈ names, Plain w) (hf : names = [] ∨ p.Definite) (sh) (hs : share p.poss names = some sh) :
    parse p (gs.flatMap Given.words ++ names) = .ok (assign p.defaults (gs.map Given.sets ++ sh.map nameSets)) := by
  rw [parse, classify_gives p hp gs hg names _ (classify_names p names hw)]
  dsimp only
  rw [loop_given p names hf gs _ _ _ _ hg (by have := given_length gs; simp at this ⊢; omega)]
  have := consume_names names p.poss (assign p.defaults (gs.map Given.sets)) [] [] (by intro s h; simp at h) sh hs hw
  rw [List.append_nil] at this
  dsimp only
  rw [this]
  simp [assign]

/-- **C161.**  Names first, then options. -/
theorem names_then_options (p : Parser) (hp : p.Good) (gs : List Given) (hg : ∀ g ∈ gs, g.Valid p) (names : List Word)
    (hw : ∀ w ∈ names, Plain w) (hne : names ≠ []) (sh) (hs : share p.poss names = some sh) :
    parse p (names ++ gs.flatMap Given.words) = .ok (assign p.defaults (sh.map nameSets ++ gs.map Given.sets)) := by
  cases hgs : gs with
  | nil =>
    have h2 : parse p names = .ok (assign p.defaults (sh.map nameSets)) := by
      rw [parse, classify_names p names hw]
      dsimp only
      rw [loop]
      dsimp only
      rw [if_neg (by rw [args_noOpt]; simp)]
      have := consume_names names p.poss p.defaults [] [] (by intro s h; simp at h) sh hs hw
      rw [List.append_nil] at this
      dsimp only
      rw [this]
      simp
    simpa using h2
  | cons g gs' =>
    rw [← hgs]
    have hc := classify_args p names hw _ _ (by simpa using classify_gives p hp gs hg [] [] rfl)
    rw [parse, hc]
    dsimp only
    obtain ⟨n, ns, rfl⟩ : ∃ n ns, names = n :: ns := by
      cases names with
      | nil => exact absurd rfl hne
      | cons n ns => exact ⟨n, ns, rfl⟩
    rw [loop]
    dsimp only
    rw [if_pos (by rw [hgs]; simp [Given.syms, Sym.isOpt])]
    have e1 : ((args (n :: ns) ++ gs.flatMap Given.syms).head?.any fun x => x.2.isOpt) = false := by simp [args, Sym.isOpt]
    rw [e1]
    simp only [Bool.false_eq_true, if_false]
    rw [consume_names (n :: ns) p.poss p.defaults [] _ (ends_given gs) sh hs hw]
    dsimp only
    rw [if_pos (by simp [args]; omega)]
    have := loop_given p [] (Or.inl rfl) gs (args (n :: ns) ++ gs.flatMap Given.syms).length [] (assign p.defaults (sh.map nameSets)) [] hg
      (by have := given_length gs; simp [args] at this ⊢; omega)
    simp only [args, List.map_nil, List.append_nil] at this
    simp only [args]
    rw [this]
    simp [consumePos, matchPartial, matchGroups, givePos, assign]

/-- **C161.**  Names on both sides of an option are refused, if at most one of the positional arguments must be given (as for all the commands). -/
theorem split_names_refused (p : Parser) (hp : p.Good) (gs : List Given) (hg : ∀ g ∈ gs, g.Valid p) (before after : List Word)
    (hb : ∀ w ∈ before, Plain w) (ha : ∀ w ∈ after, Plain w) (hne : before ≠ []) (hgne : gs ≠ []) (hae : after ≠ []) (hd : p.Definite)
    (hn : needed p.poss ≤ 1) :
    parse p (before ++ gs.flatMap Given.words ++ after) = .error .unrecognized := by
  have hc := classify_args p before hb _ _ (classify_gives p hp gs hg after _ (classify_names p after ha))
  rw [List.append_assoc, parse, hc]
  dsimp only
  have hl : 1 ≤ before.length := List.length_pos_iff.mpr hne
  have hends : Ends ((gs.flatMap Given.syms ++ args after).map (·.2)) := by
    cases gs with
    | nil => exact absurd rfl hgne
    | cons g gs => intro s hs; simp [Given.syms] at hs; rw [← hs]; rfl
  have hopt : ∀ l, ((args l ++ (gs.flatMap Given.syms ++ args after)).any fun x => x.2.isOpt) = true := by
    cases gs with
    | nil => exact absurd rfl hgne
    | cons g gs => intro l; simp [Given.syms, Sym.isOpt]
  -- after the first names no positional argument is left
  have hgive : ∃ left env, consumePos ⟨args before ++ (gs.flatMap Given.syms ++ args after), p.poss, p.defaults, []⟩ =
      ⟨args left ++ (gs.flatMap Given.syms ++ args after), [], env, []⟩ := by
    obtain ⟨left, env, h⟩ := give_any (gs.flatMap Given.syms ++ args after) p.poss before p.defaults (by omega)
    refine ⟨left, env, ?_⟩
    simp only [consumePos]
    rw [List.map_append, args_snd, partial_args _ hends _ _ (by rw [need_eq]; omega), h]
  obtain ⟨left, env, hgive⟩ := hgive
  -- words nobody wants are set aside, then the options are handled
  have e2 : ((gs.flatMap Given.syms ++ args after).head?.any fun x => x.2.isOpt) = true := by
    cases gs with
    | nil => exact absurd rfl hgne
    | cons g gs => simp [Given.syms, Sym.isOpt]
  have e4 : ∀ l : List Word, (args l ++ (gs.flatMap Given.syms ++ args after)).takeWhile (fun x => !x.2.isOpt) = args l := by
    intro l
    cases gs with
    | nil => exact absurd rfl hgne
    | cons g gs =>
      induction l with
      | nil => simp [args, Given.syms, Sym.isOpt]
      | cons v l ih => simpa [args, Sym.isOpt] using ih
  have e5 : ∀ l : List Word, (args l ++ (gs.flatMap Given.syms ++ args after)).dropWhile (fun x => !x.2.isOpt) =
      gs.flatMap Given.syms ++ args after := by
    intro l
    cases gs with
    | nil => exact absurd rfl hgne
    | cons g gs =>
      induction l with
      | nil => simp [args, Given.syms, Sym.isOpt]
      | cons v l ih => simpa [args, Sym.isOpt] using ih
  have e4' : (gs.flatMap Given.syms ++ args after).takeWhile (fun x => !x.2.isOpt) = [] := e4 []
  have e5' : (gs.flatMap Given.syms ++ args after).dropWhile (fun x => !x.2.isOpt) = gs.flatMap Given.syms ++ args after := e5 []
  have hstuck : ∀ (fuel : Nat) (l l' : List Word) (poss : List Pos) (env env' : Ns), gs.length < fuel + 1 → l ≠ [] → ¬ l'.length < l.length →
      consumePos ⟨args l ++ (gs.flatMap Given.syms ++ args after), poss, env, []⟩ =
        ⟨args l' ++ (gs.flatMap Given.syms ++ args after), [], env', []⟩ →
      ∃ r, loop p (fuel + 1) ⟨args l ++ (gs.flatMap Given.syms ++ args after), poss, env, []⟩ = .ok r ∧ r.poss = [] ∧ r.todo = args after := by
    intro fuel l l' poss env env' hfuel hl' hnl hcons
    have e1 : ((args l ++ (gs.flatMap Given.syms ++ args after)).head?.any fun x => x.2.isOpt) = false := by
      cases l with
      | nil => exact absurd rfl hl'
      | cons w l => simp [args, Sym.isOpt]
    have hstep := loop_given p after (Or.inr hd) gs (fuel + 1) [] env' l' hg hfuel
    refine ⟨⟨args after, [], assign env' (gs.map Given.sets), l'⟩, ?_, rfl, rfl⟩
    · rw [loop] at hstep ⊢
      dsimp only at hstep ⊢
      have hopt' : ((gs.flatMap Given.syms ++ args after).any fun x => x.2.isOpt) = true := hopt []
      rw [if_pos hopt'] at hstep
      rw [if_pos (hopt _), e1]
      rw [e2] at hstep
      simp only [Bool.false_eq_true, if_false, if_true] at hstep ⊢
      rw [hcons]
      dsimp only at hstep ⊢
      rw [if_neg (lt_irrefl _), e4', e5'] at hstep
      rw [if_neg (by simp [args]; omega), e4, e5, args_fst]
      simp only [List.map_nil, List.append_nil, List.nil_append] at hstep ⊢
      exact hstep
  have hrest : ∀ (fuel : Nat) (left : List Word) (env : Ns), gs.length < fuel + 1 → ∃ r,
      loop p (fuel + 1) ⟨args left ++ (gs.flatMap Given.syms ++ args after), [], env, []⟩ = .ok r ∧ r.poss = [] ∧ r.todo = args after := by
    intro fuel left env hfuel
    cases left with
    | nil => exact ⟨_, loop_given p after (Or.inr hd) gs (fuel + 1) [] env [] hg hfuel, rfl, rfl⟩
    | cons w left =>
      exact hstuck fuel (w :: left) (w :: left) [] env env hfuel (by simp) (lt_irrefl _)
        (by simp [consumePos, matchPartial, matchGroups, givePos])
  obtain ⟨r, hr⟩ : ∃ r, loop p ((args before ++ (gs.flatMap Given.syms ++ args after)).length + 1)
      ⟨args before ++ (gs.flatMap Given.syms ++ args after), p.poss, p.defaults, []⟩ = .ok r ∧ r.poss = [] ∧ r.todo = args after := by
    have hlen := given_length gs
    have hlen2 : (args before ++ (gs.flatMap Given.syms ++ args after)).length = before.length + ((gs.flatMap Given.syms).length + after.length) := by
      simp only [args, List.length_append, List.length_map]
    have hal : 1 ≤ after.length := List.length_pos_iff.mpr hae
    by_cases hlt : left.length < before.length
    · rw [loop]
      dsimp only
      rw [if_pos (hopt _)]
      have e1 : ((args before ++ (gs.flatMap Given.syms ++ args after)).head?.any fun x => x.2.isOpt) = false := by
        cases before with
        | nil => exact absurd rfl hne
        | cons b before => simp [args, Sym.isOpt]
      rw [e1]
      simp only [Bool.false_eq_true, if_false]
      rw [hgive]
      dsimp only
      rw [if_pos (by simp [args]; omega)]
      obtain ⟨n, hn⟩ : ∃ n, (args before ++ (gs.flatMap Given.syms ++ args after)).length = n + 1 :=
        Nat.exists_eq_succ_of_ne_zero (by omega)
      rw [hn]
      exact hrest n left env (by omega)
    · exact hstuck _ before left p.poss p.defaults env (by omega) hne hlt hgive
  rw [hr.1]
  dsimp only
  rw [show r = ⟨r.todo, r.poss, r.ns, r.extras⟩ from rfl, hr.2.1, hr.2.2]
  have : after ≠ [] := hae
  simp [consumePos, matchPartial, matchGroups, givePos, args, hae]


/-- **C161.**  The parser of every command meets the hypotheses above, requires at most one name and declares every attribute the command reads. -/
theorem commands_declared : ∀ c ∈ commands,
    c.parser.Good ∧ needed c.parser.poss ≤ 1 ∧ (c.parser.Definite ∨ c.parser.poss = []) ∧
    (∀ o ∈ c.parser.opts, ∀ q ∈ c.parser.poss, o.dest ≠ q.dest) ∧
    (∀ d ∈ c.reads, d ∈ c.parser.opts.map (·.dest) ++ c.parser.poss.map (·.dest)) := by
  decide +kernel

/-- The words of a line. -/
def line (l : List String) : List Word := l.map String.toList

/-- **C161, violated.**  An option for input files given twice: the files given first are ignored without a word
(while the two lists are accepted by the parser). -/
theorem repeated_inputs_violated :
    ∃ ns, parse cmdRun.parser (line ["-i", "a.nc", "-i", "b.nc"]) = .ok ns ∧ ns "inputs" = .words [("b.nc" : String).toList] :=
  ⟨_, options_then_names cmdRun.parser (by decide +kernel)
    [⟨option "-i" "--inputs" "inputs" .many, "-i".toList, line ["a.nc"]⟩, ⟨option "-i" "--inputs" "inputs" .many, "-i".toList, line ["b.nc"]⟩]
    (by simp [Given.Valid, Plain, line, option, cmdRun]) [] (by simp) (Or.inl rfl) [] rfl, by rfl⟩

/-- The option for the workspace under its short name. -/
def givenW (w : String) : Given := ⟨workspaceOpt, "-w".toList, [w.toList]⟩

theorem givenW_valid (p : Parser) (h : workspaceOpt ∈ p.opts) (w : String) (hw : Plain w.toList) : (givenW w).Valid p :=
  ⟨h, by simp [givenW, workspaceOpt, option], by simpa [givenW] using hw, by simp [givenW, workspaceOpt, option]⟩

-- `config copy -w W A B` and `config copy A B -w W`
example : ∃ ns, parse cfCopy.parser (line ["-w", "W", "A", "B"]) = .ok ns ∧
    ns "workspace_name" = .word "W".toList ∧ ns "config_name" = .word "A".toList ∧ ns "new_name" = .word "B".toList :=
  ⟨_, options_then_names cfCopy.parser (by decide +kernel) [givenW "W"]
    (by simpa using givenW_valid _ (by decide +kernel) "W" (by unfold Plain; decide +kernel)) (line ["A", "B"])
    (by unfold Plain; decide +kernel) (Or.inr (by decide +kernel)) _ rfl, by decide +kernel⟩

example : ∃ ns, parse cfCopy.parser (line ["A", "B", "-w", "W"]) = .ok ns ∧
    ns "workspace_name" = .word "W".toList ∧ ns "config_name" = .word "A".toList ∧ ns "new_name" = .word "B".toList :=
  ⟨_, names_then_options cfCopy.parser (by decide +kernel) [givenW "W"]
    (by simpa using givenW_valid _ (by decide +kernel) "W" (by unfold Plain; decide +kernel)) (line ["A", "B"])
    (by unfold Plain; decide +kernel) (by decide +kernel) _ rfl, by decide +kernel⟩

-- `config copy A -w W B`
example : parse cfCopy.parser (line ["A"] ++ [givenW "W"].flatMap Given.words ++ line ["B"]) = .error .unrecognized :=
  split_names_refused cfCopy.parser (by decide +kernel) [givenW "W"]
    (by simpa using givenW_valid _ (by decide +kernel) "W" (by unfold Plain; decide +kernel)) _ _
    (by unfold Plain; decide +kernel) (by unfold Plain; decide +kernel) (by decide +kernel) (by simp) (by decide +kernel) (by decide +kernel) (by decide +kernel)

-- one name for `config rename` is the new name, one name for `config copy` the old one
example : (share cfRename.parser.poss (line ["A"])).map (·.map nameSets) = some [("config_name", .none), ("new_name", .word "A".toList)] ∧
    (share cfCopy.parser.poss (line ["A"])).map (·.map nameSets) = some [("config_name", .word "A".toList), ("new_name", .none)] := by
  decide +kernel

end Dedop.Args
