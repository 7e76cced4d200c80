import Verif.Args.Used

/-!
# What follows an option does not depend on how the option was written (C166): the loop of the parser
-/
namespace Dedop.Args

/-! ## Groups end at the next option -/

theorem takeWhile_opt (f : Sym → Bool) (hf : ∀ s, s.isOpt = true → f s = false) (l : List Sym) (x : Sym) (hx : x.isOpt = true) (r : List Sym) :
    (l ++ x :: r).takeWhile f = l.takeWhile f := by
  induction l with
  | nil => simp [hf x hx]
  | cons s l ih => simp only [List.cons_append, List.takeWhile_cons, ih]

theorem lengths_opt (i : Item) (hf : ∀ s, s.isOpt = true → i.ok s = false) (l : List Sym) (x : Sym) (hx : x.isOpt = true) (r : List Sym) :
    i.lengths (l ++ x :: r) = i.lengths l := by
  unfold Item.lengths
  rw [takeWhile_opt i.ok hf l x hx r]

theorem findSome_congr {α β : Type} (f g : α → Option β) (l : List α) (h : ∀ a ∈ l, f a = g a) : l.findSome? f = l.findSome? g := by
  induction l with
  | nil => rfl
  | cons a l ih => rw [List.findSome?_cons, List.findSome?_cons, h a (by simp), ih fun b hb => h b (by simp [hb])]

theorem matchGroup_opt {β : Type} (x : Sym) (hx : x.isOpt = true) (r : List Sym) : ∀ (is : List Item) (_ : ∀ i ∈ is, ∀ s, s.isOpt = true → i.ok s = false)
    (l : List Sym) (K K' : Nat → List Sym → Option β) (_ : ∀ n ≤ l.length, K n (l.drop n ++ x :: r) = K' n (l.drop n)),
    matchGroup is (l ++ x :: r) K = matchGroup is l K'
  | [], _, l, K, K', h => by simpa [matchGroup] using h 0 (by omega)
  | i :: is, hi, l, K, K', h => by
    rw [matchGroup, matchGroup, lengths_opt i (hi i (by simp)) l x hx r]
    apply findSome_congr
    intro n hn
    have hl := (lengths_ok i l n hn).1
    rw [List.drop_append_of_le_length hl]
    apply matchGroup_opt x hx r is (fun j hj => hi j (by simp [hj]))
    intro m hm
    rw [List.length_drop] at hm
    have := h (n + m) (by omega)
    rwa [← List.drop_drop] at this

theorem dash_no (s : Sym) (h : s.isOpt = true) : isDash s = false := by cases s <;> simp_all [Sym.isOpt, isDash]

theorem items_opt (g : NArgs) : ∀ i ∈ g.items, ∀ s, s.isOpt = true → i.ok s = false := by
  intro i hi s hs
  cases g <;> simp only [NArgs.items, List.mem_cons, List.not_mem_nil, or_false] at hi
  · rcases hi with rfl | rfl | rfl
    exacts [dash_no s hs, isArg_opt s hs, dash_no s hs]
  · rcases hi with rfl | rfl | rfl
    exacts [dash_no s hs, isArg_opt s hs, dash_no s hs]
  · rcases hi with rfl | rfl
    exacts [dash_no s hs, either_opt s hs]
  · rcases hi with rfl | rfl | rfl
    exacts [dash_no s hs, isArg_opt s hs, either_opt s hs]

theorem matchGroups_opt (x : Sym) (hx : x.isOpt = true) (r : List Sym) : ∀ (gs : List NArgs) (l : List Sym),
    matchGroups gs (l ++ x :: r) = matchGroups gs l
  | [], l => rfl
  | g :: gs, l => by
    rw [matchGroups, matchGroups]
    apply matchGroup_opt x hx r _ (items_opt g)
    intro n _
    rw [matchGroups_opt x hx r gs]

theorem matchPartial_opt (x : Sym) (hx : x.isOpt = true) (r : List Sym) (gs : List NArgs) (l : List Sym) :
    matchPartial gs (l ++ x :: r) = matchPartial gs l := by
  unfold matchPartial
  congr 1
  apply findSome_congr
  intro i _
  exact matchGroups_opt x hx r _ l

/-! ## One step in a context -/

theorem give_opt (R : List (Word × Sym)) : ∀ (gs : List NArgs) (qs : List Pos) (cs : List Nat) (B : List (Word × Sym)) (ns : Ns), GroupsOk gs cs (B.map (·.2)) →
    ∃ k, k ≤ B.length ∧ (givePos qs cs B ns).1 = B.drop k ∧
      givePos qs cs (B ++ R) ns = (B.drop k ++ R, (givePos qs cs B ns).2.1, (givePos qs cs B ns).2.2)
  | gs, [], cs, B, ns, _ => ⟨0, by omega, by cases cs <;> rfl, by cases cs <;> rfl⟩
  | gs, q :: qs, [], B, ns, _ => ⟨0, by omega, rfl, rfl⟩
  | [], q :: qs, n :: cs, B, ns, h => by simp [GroupsOk] at h
  | g :: gs, q :: qs, n :: cs, B, ns, h => by
    obtain ⟨hn, _, h⟩ := h
    rw [List.length_map] at hn
    rw [← List.map_drop] at h
    simp only [givePos]
    rw [List.drop_append_of_le_length hn, List.take_append_of_le_length hn]
    obtain ⟨k, hk, h1, h2⟩ := give_opt R gs qs cs (B.drop n) (Function.update ns q.dest (posValue q.nargs ((B.take n).map (·.1)))) h
    rw [List.length_drop] at hk
    refine ⟨n + k, by omega, ?_, ?_⟩
    · rw [h1, List.drop_drop]
    · rw [h2, List.drop_drop]

theorem consumePos_opt (B : List (Word × Sym)) (poss : List Pos) (ns : Ns) (e : List Word) : ∃ k poss' ns', k ≤ B.length ∧
    ∀ (x : Word × Sym) (r : List (Word × Sym)), x.2.isOpt = true →
      consumePos ⟨B ++ x :: r, poss, ns, e⟩ = ⟨B.drop k ++ x :: r, poss', ns', e⟩ := by
  obtain ⟨i, hi⟩ := matchPartial_sound (poss.map (·.nargs)) (B.map (·.2))
  obtain ⟨k, hk, h1, _⟩ := give_opt [] _ poss _ B ns hi
  refine ⟨k, (givePos poss (matchPartial (poss.map (·.nargs)) (B.map (·.2))) B ns).2.1,
    (givePos poss (matchPartial (poss.map (·.nargs)) (B.map (·.2))) B ns).2.2, hk, ?_⟩
  · intro x r hx
    unfold consumePos
    dsimp only
    rw [List.map_append, List.map_cons, matchPartial_opt x.2 hx]
    obtain ⟨k', hk', h1', h2'⟩ := give_opt (x :: r) _ poss _ B ns hi
    rw [h2', ← h1', h1]

theorem count_opt (a : Arity) (B : List (Word × Sym)) (x y : Word × Sym) (hx : x.2.isOpt = true) (hy : y.2.isOpt = true) (r r' : List (Word × Sym)) :
    a.count ((B ++ x :: r).map (·.2)) = a.count ((B ++ y :: r').map (·.2)) ∧
    ∀ n, a.count ((B ++ x :: r).map (·.2)) = some n → n ≤ B.length := by
  rw [List.map_append, List.map_cons, List.map_append, List.map_cons]
  cases a with
  | flag => exact ⟨rfl, by intro n h; simp [Arity.count] at h; omega⟩
  | help => exact ⟨rfl, by intro n h; simp [Arity.count] at h; omega⟩
  | one =>
    cases B with
    | nil =>
      obtain ⟨_, x⟩ := x
      obtain ⟨_, y⟩ := y
      cases x <;> cases y <;> simp_all [Sym.isOpt, Arity.count]
    | cons b B =>
      simp only [List.map_cons, List.cons_append]
      obtain ⟨_, sb⟩ := b
      cases sb with
      | arg => exact ⟨rfl, by intro n h; simp [Arity.count] at h; simp; omega⟩
      | dash => exact ⟨rfl, by intro n h; simp [Arity.count] at h⟩
      | opt => exact ⟨rfl, by intro n h; simp [Arity.count] at h⟩
  | many =>
    simp only [Arity.count]
    rw [takeWhile_opt isArg isArg_opt _ _ hx, takeWhile_opt isArg isArg_opt _ _ hy]
    refine ⟨rfl, ?_⟩
    intro n h
    simp only [Option.some.injEq] at h
    have := (List.takeWhile_sublist isArg (l := B.map (·.2))).length_le
    rw [List.length_map] at this
    omega

theorem cluster_opt (p : Parser) (B : List (Word × Sym)) (x y : Word × Sym) (hx : x.2.isOpt = true) (hy : y.2.isOpt = true)
    (r r' : List (Word × Sym)) : ∀ (fuel : Nat) (name : Word) (o : Opt) (ex : Option (Bool × Word)),
    cluster p (B ++ x :: r) fuel name o ex = cluster p (B ++ y :: r') fuel name o ex ∧
    ∀ k, cluster p (B ++ x :: r) fuel name o ex = .ok k → k.taken ≤ B.length
  | 0, _, _, _ => ⟨rfl, by intro k h; simp [cluster] at h⟩
  | fuel + 1, name, o, none => by
    obtain ⟨h1, h2⟩ := count_opt o.arity B x y hx hy r r'
    simp only [cluster]
    rw [← h1]
    cases hc : o.arity.count ((B ++ x :: r).map (·.2)) with
    | none => simp
    | some n =>
      have hn := h2 n hc
      simp only [List.take_append_of_le_length hn, true_and, Except.ok.injEq]
      rintro k rfl
      exact hn
  | fuel + 1, name, o, some (eq, v) => by
    have ih := cluster_opt p B x y hx hy r r' fuel
    rw [cluster.eq_def, cluster.eq_def p (B ++ y :: r')]
    dsimp only
    split
    · split
      · rename_i c t
        split
        · split
          · simp
          · split
            · rename_i o' _
              have key : ∀ rest, ((match cluster p (B ++ x :: r) fuel ['-', c] o' rest with
                  | .error e => .error e
                  | .ok k => .ok { k with acts := (o, []) :: k.acts }) : Except Err Cluster) =
                  (match cluster p (B ++ y :: r') fuel ['-', c] o' rest with
                  | .error e => .error e
                  | .ok k => .ok { k with acts := (o, []) :: k.acts }) ∧
                  ∀ k, ((match cluster p (B ++ x :: r) fuel ['-', c] o' rest with
                  | .error e => .error e
                  | .ok k => .ok { k with acts := (o, []) :: k.acts }) : Except Err Cluster) = .ok k → k.taken ≤ B.length := by
                intro rest
                obtain ⟨h1, h2⟩ := ih ['-', c] o' rest
                rw [← h1]
                refine ⟨rfl, ?_⟩
                intro k hk
                split at hk
                · simp at hk
                · rename_i k' hk'
                  simp only [Except.ok.injEq] at hk
                  subst hk
                  exact h2 k' hk'
              exact key _
            · simp
        · simp
      · simp
    · simp
    · simp

/-! ## The loop in a context -/

theorem loop_head (p : Parser) (fuel : Nat) (x : Word × Sym) (hx : x.2.isOpt = true) (r : List (Word × Sym)) (poss : List Pos) (ns : Ns) (e : List Word) :
    loop p (fuel + 1) ⟨x :: r, poss, ns, e⟩ = match consumeOpt p ⟨x :: r, poss, ns, e⟩ with
      | .error err => .error err
      | .ok s => loop p fuel s := by
  rw [loop]
  simp only [List.any_cons, hx, Bool.true_or, if_true, List.head?_cons, Option.any_some, lt_irrefl, if_false, Bool.not_true, List.takeWhile_cons,
    Bool.false_eq_true, List.dropWhile_cons, List.map_nil, List.append_nil]
  cases consumeOpt p ⟨x :: r, poss, ns, e⟩ <;> rfl

theorem loop_any_fuel (p : Parser) : ∀ (f f' : Nat) (s : St), s.todo.length < f → s.todo.length < f' → loop p f s = loop p f' s
  | 0, _, _, h, _ => absurd h (by omega)
  | _, 0, _, _, h => absurd h (by omega)
  | f + 1, f' + 1, s, hf, hf' => by
    rw [loop, loop]
    by_cases hany : (s.todo.any fun x => x.2.isOpt) = true
    · rw [if_pos hany, if_pos hany]
      dsimp only
      obtain ⟨t, hts, ht⟩ : ∃ t : St, t.todo.Sublist s.todo ∧ (if (s.todo.head?.any fun x => x.2.isOpt) = true then s else consumePos s) = t := by
        split
        · exact ⟨s, List.Sublist.refl _, rfl⟩
        · exact ⟨_, consumePos_todo s, rfl⟩
      rw [ht]
      split
      · exact loop_any_fuel p f f' t (by omega) (by omega)
      · have hsub : (t.todo.dropWhile fun x => !x.2.isOpt).Sublist s.todo := (List.dropWhile_sublist _).trans hts
        cases hc : consumeOpt p { t with
            extras := t.extras ++ (t.todo.takeWhile fun x => !x.2.isOpt).map (·.1), todo := t.todo.dropWhile fun x => !x.2.isOpt } with
        | error e => rfl
        | ok u =>
          dsimp only
          have hlen : u.todo.length < s.todo.length := by
            have hut := consumeOpt_todo p _ _ hc
            cases hd : (t.todo.dropWhile fun x => !x.2.isOpt) with
            | nil =>
              have h1 := hut.length_le
              simp only [hd, List.length_nil] at h1
              obtain ⟨x, hx, _⟩ := List.any_eq_true.mp hany
              have := List.length_pos_of_mem hx
              omega
            | cons x r =>
              have hx : x.2.isOpt = true := by
                have h1 : (t.todo.dropWhile fun x => !x.2.isOpt) ≠ [] := by rw [hd]; simp
                have := List.head_dropWhile_not (fun x : Word × Sym => !x.2.isOpt) h1
                simp only [hd, List.head_cons] at this
                simpa using this
              have h1 := (consumeOpt_rest p _ _ x r hd hx hc).length_le
              have h2 := hsub.length_le
              rw [hd, List.length_cons] at h2
              omega
          exact loop_any_fuel p f f' u (by omega) (by omega)
    · rw [if_neg hany, if_neg hany]

/-- Two rests of a line which lead to the same result do so after any words. -/
theorem loop_context (p : Parser) (x y : Word × Sym) (hx : x.2.isOpt = true) (hy : y.2.isOpt = true) (r r' : List (Word × Sym))
    (H : ∀ poss ns e f f', (x :: r).length < f → (y :: r').length < f' → loop p f ⟨x :: r, poss, ns, e⟩ = loop p f' ⟨y :: r', poss, ns, e⟩) :
    ∀ (n : Nat) (B : List (Word × Sym)) (_ : B.length ≤ n) (poss : List Pos) (ns : Ns) (e : List Word) (f f' : Nat),
      (B ++ x :: r).length < f → (B ++ y :: r').length < f' → loop p f ⟨B ++ x :: r, poss, ns, e⟩ = loop p f' ⟨B ++ y :: r', poss, ns, e⟩
  | _, _, _, _, _, _, 0, _, h, _ => absurd h (by omega)
  | _, _, _, _, _, _, _ + 1, 0, _, h => absurd h (by omega)
  | _, [], _, poss, ns, e, f + 1, f' + 1, hf, hf' => H poss ns e _ _ hf hf'
  | 0, b :: B, hB, _, _, _, f + 1, f' + 1, _, _ => absurd hB (by simp)
  | n + 1, b :: B, hB, poss, ns, e, f + 1, f' + 1, hf, hf' => by
    have ih := loop_context p x y hx hy r r' H n
    simp only [List.length_cons, List.length_append] at hB hf hf'
    by_cases hb : b.2.isOpt = true
    · rw [List.cons_append, List.cons_append, loop_head p f b hb, loop_head p f' b hb]
      obtain ⟨w, sy⟩ := b
      cases sy with
      | arg => simp [Sym.isOpt] at hb
      | dash => simp [Sym.isOpt] at hb
      | opt name o ex =>
        cases o with
        | none =>
          simp only [consumeOpt]
          exact ih B (by omega) _ _ _ f f' (by simp; omega) (by simp; omega)
        | some o =>
          simp only [consumeOpt]
          obtain ⟨h1, h2⟩ := cluster_opt p B x y hx hy r r' (w.length + 1) name o ex
          rw [← h1]
          cases hk : cluster p (B ++ x :: r) (w.length + 1) name o ex with
          | error err => rfl
          | ok k =>
            have hle := h2 k hk
            dsimp only
            cases actAll ns k.acts with
            | error err => rfl
            | ok ns' =>
              dsimp only
              rw [List.drop_append_of_le_length hle, List.drop_append_of_le_length hle]
              exact ih (B.drop k.taken) (by simp; omega) _ _ _ f f' (by simp; omega) (by simp; omega)
    · obtain ⟨k, poss', ns', hk, hc⟩ := consumePos_opt (b :: B) poss ns e
      have step : ∀ (f : Nat) (z : Word × Sym) (t : List (Word × Sym)), z.2.isOpt = true →
          loop p (f + 1) ⟨(b :: B) ++ z :: t, poss, ns, e⟩ =
            if 0 < k then loop p f ⟨(b :: B).drop k ++ z :: t, poss', ns', e⟩
            else loop p (f + 1) ⟨(b :: B).dropWhile (fun x => !x.2.isOpt) ++ z :: t, poss', ns',
              e ++ ((b :: B).takeWhile (fun x => !x.2.isOpt)).map (·.1)⟩ := by
        intro f z t hz
        rw [loop]
        have hany : (((b :: B) ++ z :: t).any fun x => x.2.isOpt) = true := by simp [hz]
        have hhead : (((b :: B) ++ z :: t).head?.any fun x => x.2.isOpt) = false := by
          simp only [List.cons_append, List.head?_cons, Option.any_some]
          simpa using hb
        rw [if_pos hany]
        simp only [hhead, Bool.false_eq_true, if_false, hc z t hz]
        by_cases hk0 : 0 < k
        · have hlt : ((b :: B).drop k ++ z :: t).length < ((b :: B) ++ z :: t).length := by
            rw [List.length_append, List.length_append, List.length_drop]
            have : 0 < (b :: B).length := by simp
            omega
          rw [if_pos hk0, if_pos hlt]
        · have : k = 0 := by omega
          subst this
          rw [if_neg hk0, if_neg (by rw [List.drop_zero]; exact lt_irrefl _), List.drop_zero]
          have hdw : ((b :: B) ++ z :: t).dropWhile (fun x => !x.2.isOpt) = (b :: B).dropWhile (fun x => !x.2.isOpt) ++ z :: t := by
            rw [List.dropWhile_append]
            split
            · rename_i he
              rw [List.isEmpty_iff] at he
              rw [he]
              simp [hz]
            · rfl
          have htw : ((b :: B) ++ z :: t).takeWhile (fun x => !x.2.isOpt) = (b :: B).takeWhile (fun x => !x.2.isOpt) := by
            generalize b :: B = l
            induction l with
            | nil => simp [hz]
            | cons c l ih => simp only [List.cons_append, List.takeWhile_cons, ih]
          rw [hdw, htw]
          cases hd : (b :: B).dropWhile (fun x => !x.2.isOpt) with
          | nil =>
            rw [List.nil_append, loop_head p f z hz]
            generalize consumeOpt p _ = u
            cases u <;> rfl
          | cons c C =>
            have hcO : c.2.isOpt = true := by
              have h1 : ((b :: B).dropWhile fun x => !x.2.isOpt) ≠ [] := by rw [hd]; simp
              have := List.head_dropWhile_not (fun x : Word × Sym => !x.2.isOpt) h1
              simp only [hd, List.head_cons] at this
              simpa using this
            rw [List.cons_append, loop_head p f c hcO]
            generalize consumeOpt p _ = u
            cases u <;> rfl
      rw [step f x r hx, step f' y r' hy]
      by_cases hk0 : 0 < k
      · rw [if_pos hk0, if_pos hk0]
        have : ((b :: B).drop k).length ≤ B.length := by simp; omega
        exact ih _ (by omega) _ _ _ f f' (by rw [List.length_append, List.length_cons]; omega) (by rw [List.length_append, List.length_cons]; omega)
      · rw [if_neg hk0, if_neg hk0]
        have : ((b :: B).dropWhile fun x => !x.2.isOpt).length ≤ B.length := by
          rw [List.dropWhile_cons, if_pos (by simpa using hb)]
          exact (List.dropWhile_sublist _).length_le
        exact ih _ (by omega) _ _ _ (f + 1) (f' + 1) (by rw [List.length_append, List.length_cons]; omega)
          (by rw [List.length_append, List.length_cons]; omega)

end Dedop.Args
