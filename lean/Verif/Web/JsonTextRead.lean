import Verif.Web.JsonTextProps

/-! # What is read is a value, and the text of a value is the same for the same values -/
namespace Dedop.JsonText

open Dedop.Names

/-! ## Whatever is read is a value -/

theorem takeWhile_digits (r : Name) : ∀ c ∈ r.takeWhile Char.isDigit, c.isDigit = true := by
  intro c hc
  induction r with
  | nil => cases hc
  | cons d r ih =>
    by_cases hd : d.isDigit = true
    · rw [List.takeWhile_cons_of_pos hd] at hc
      rcases List.mem_cons.1 hc with rfl | hc
      · exact hd
      · exact ih hc
    · rw [List.takeWhile_cons_of_neg hd] at hc
      cases hc

theorem digits_cons (c : Char) (r : Name) (h : c.isDigit = true) : Digits (c :: r.takeWhile Char.isDigit) := by
  refine ⟨by simp, ?_⟩
  intro x hx
  rcases List.mem_cons.1 hx with rfl | hx
  · exact h
  · exact takeWhile_digits r x hx

theorem scanInt_some (s t rest : Name) (h : scanInt s = some (t, rest)) :
    Digits t ∧ (t.head? = some '0' → t = ['0']) := by
  cases s with
  | nil => cases h
  | cons c r =>
    rw [scanInt] at h
    split at h
    · rename_i hc
      simp only [Option.some.injEq, Prod.mk.injEq] at h
      obtain ⟨rfl, -⟩ := h
      subst hc
      exact ⟨⟨by decide, by decide⟩, fun _ => rfl⟩
    · rename_i hc
      split at h
      · rename_i hd
        simp only [Option.some.injEq, Prod.mk.injEq] at h
        obtain ⟨rfl, -⟩ := h
        refine ⟨digits_cons c r hd, ?_⟩
        intro h0
        simp only [List.head?_cons, Option.some.injEq] at h0
        exact absurd h0 hc
      · cases h

theorem scanFrac_some (s : Name) : (scanFrac s).1 = [] ∨ ∃ ds, Digits ds ∧ (scanFrac s).1 = '.' :: ds := by
  rcases s with _ | ⟨p, _ | ⟨d, r⟩⟩
  · exact .inl rfl
  · exact .inl rfl
  · rw [scanFrac]
    split
    · rename_i h
      obtain ⟨rfl, hd⟩ := h
      exact .inr ⟨_, digits_cons d r hd, rfl⟩
    · exact .inl rfl

theorem scanExp_some (s : Name) : (scanExp s).1 = [] ∨ ∃ e sg ds, (e = 'e' ∨ e = 'E') ∧
    (sg = [] ∨ sg = ['-'] ∨ sg = ['+']) ∧ Digits ds ∧ (scanExp s).1 = e :: (sg ++ ds) := by
  rw [scanExp.eq_def]
  split
  · exact .inl rfl
  · rename_i e s
    split
    · rename_i he
      split
      · exact .inl rfl
      · rename_i c r
        split
        · rename_i hc
          exact .inr ⟨e, [], _, he, .inl rfl, digits_cons c r hc, rfl⟩
        · split
          · rename_i hsg
            split
            · exact .inl rfl
            · rename_i d r
              split
              · rename_i hd
                refine .inr ⟨e, [c], _, he, ?_, digits_cons d r hd, rfl⟩
                rcases hsg with rfl | rfl
                · exact .inr (.inl rfl)
                · exact .inr (.inr rfl)
              · exact .inl rfl
          · exact .inl rfl
    · exact .inl rfl

theorem scanNumber_some (s t rest : Name) (h : scanNumber s = some (t, rest)) : IsNumber t := by
  have hu : ∀ s t rest, scanUnsigned s = some (t, rest) → ∃ whole frac exp, t = whole ++ frac ++ exp ∧
      (Digits whole ∧ (whole.head? = some '0' → whole = ['0'])) ∧
      (frac = [] ∨ ∃ ds, Digits ds ∧ frac = '.' :: ds) ∧
      (exp = [] ∨ ∃ e sg ds, (e = 'e' ∨ e = 'E') ∧ (sg = [] ∨ sg = ['-'] ∨ sg = ['+']) ∧ Digits ds ∧ exp = e :: (sg ++ ds)) := by
    intro s t rest h
    unfold scanUnsigned at h
    split at h
    · cases h
    · rename_i i r hi
      simp only [Option.some.injEq, Prod.mk.injEq] at h
      exact ⟨i, _, _, h.1.symm, scanInt_some _ _ _ hi, scanFrac_some r, scanExp_some _⟩
  unfold scanNumber at h
  split at h
  · rename_i r _
    split at h
    · cases h
    · rename_i t' rest' hu'
      simp only [Option.some.injEq, Prod.mk.injEq] at h
      obtain ⟨w, f, e, ht, h1, h2, h3⟩ := hu _ _ _ hu'
      exact ⟨['-'], w, f, e, by rw [← h.1, ht]; rfl, .inr rfl, h1, h2, h3⟩
  · obtain ⟨w, f, e, ht, h1, h2, h3⟩ := hu _ _ _ h
    exact ⟨[], w, f, e, by rw [ht]; rfl, .inl rfl, h1, h2, h3⟩

theorem scanAtom_some (s : Name) (v : Json) (rest : Name) (h : scanAtom s = some (v, rest)) : Valid v := by
  unfold scanAtom at h
  split at h
  · cases h; exact .lit _
  · split at h
    · cases h; exact .lit _
    · split at h
      · cases h; exact .lit _
      · split at h
        · cases h; exact .lit _
        · split at h
          · cases h; exact .lit _
          · split at h
            · cases h; exact .lit _
            · split at h
              · cases h
              · rename_i hn
                cases h
                exact .num _ (scanNumber_some _ _ _ hn)

theorem set_keys {α : Type} (d : Dict Name α) (k : Name) (v : α) (h : (d.map (·.1)).Nodup) :
    ((Dict.set d k v).map (·.1)).Nodup ∧ ∀ j, j ∈ (Dict.set d k v).map (·.1) → j = k ∨ j ∈ d.map (·.1) := by
  induction d with
  | nil =>
    refine ⟨by simp [Dict.set], ?_⟩
    intro j hj
    simp only [Dict.set, List.map_cons, List.map_nil, List.mem_singleton] at hj
    exact .inl hj
  | cons p d ih =>
    obtain ⟨k', v'⟩ := p
    simp only [List.map_cons, List.nodup_cons] at h
    rw [Dict.set]
    split
    · rename_i hk
      refine ⟨by simpa using h, ?_⟩
      intro j hj
      exact .inr hj
    · rename_i hk
      obtain ⟨i1, i2⟩ := ih h.2
      rw [List.map_cons, List.nodup_cons]
      refine ⟨⟨?_, i1⟩, ?_⟩
      · intro hm
        rcases i2 k' hm with h' | h'
        · exact hk h'.symm
        · exact h.1 h'
      · intro j hj
        rcases List.mem_cons.1 hj with rfl | hj
        · exact .inr (by simp)
        · rcases i2 j hj with h' | h'
          · exact .inl h'
          · exact .inr (List.mem_cons_of_mem _ h')

theorem set_mem {α : Type} (d : Dict Name α) (k : Name) (v : α) (p : Name × α) (h : p ∈ Dict.set d k v) :
    p.2 = v ∨ p ∈ d := by
  induction d with
  | nil =>
    simp only [Dict.set, List.mem_singleton] at h
    exact .inl (by rw [h])
  | cons q d ih =>
    obtain ⟨k', v'⟩ := q
    rw [Dict.set] at h
    split at h
    · rcases List.mem_cons.1 h with rfl | h
      · exact .inl rfl
      · exact .inr (List.mem_cons_of_mem _ h)
    · rcases List.mem_cons.1 h with rfl | h
      · exact .inr (by simp)
      · rcases ih h with h | h
        · exact .inl h
        · exact .inr (List.mem_cons_of_mem _ h)

theorem set_valid (d : Dict Name Json) (k : Name) (v : Json) (hd : Valid (.obj d)) (hv : Valid v) :
    Valid (.obj (Dict.set d k v)) := by
  cases hd with
  | obj _ hk hm =>
    refine .obj _ (set_keys d k v hk).1 ?_
    intro p hp
    rcases set_mem d k v p hp with h | h
    · rw [h]; exact hv
    · exact hm p h

theorem fold_valid (l : List (Name × Json)) (h : ∀ p ∈ l, Valid p.2) : ∀ d, Valid (.obj d) →
    Valid (.obj (l.foldl (fun d kv => Dict.set d kv.1 kv.2) d)) := by
  induction l with
  | nil => exact fun d hd => hd
  | cons p l ih =>
    intro d hd
    exact ih (fun q hq => h q (List.mem_cons_of_mem _ hq)) _ (set_valid d _ _ hd (h p (by simp)))

theorem scan_some (n : Nat) :
    (∀ s v rest, scan n s = some (v, rest) → Valid v) ∧
    (∀ s l rest, scanItems n s = some (l, rest) → ∀ x ∈ l, Valid x) ∧
    (∀ s (l : List (Name × Json)) rest, scanMembers n s = some (l, rest) → ∀ p ∈ l, Valid p.2) := by
  induction n with
  | zero =>
    refine ⟨?_, ?_, ?_⟩ <;> intro s v rest h
    · rw [scan] at h; cases h
    · rw [scanItems] at h; cases h
    · rw [scanMembers] at h; cases h
  | succ n ih =>
    obtain ⟨i1, i2, i3⟩ := ih
    refine ⟨?_, ?_, ?_⟩
    · intro s v rest h
      cases s with
      | nil => rw [scan] at h; cases h
      | cons c r =>
        rw [scan] at h
        split at h
        · split at h
          · cases h
          · cases h; exact .str _
        · split at h
          · split at h
            · cases h
            · split at h
              · cases h; exact .arr _ (by simp)
              · split at h
                · cases h
                · rename_i hi
                  cases h
                  exact .arr _ (i2 _ _ _ hi)
          · split at h
            · split at h
              · cases h
              · split at h
                · cases h; exact .obj _ (by simp) (by simp)
                · split at h
                  · cases h
                  · rename_i hi
                    cases h
                    exact fold_valid _ (i3 _ _ _ hi) [] (.obj _ (by simp) (by simp))
            · exact scanAtom_some _ _ _ h
    · intro s l rest h
      rw [scanItems] at h
      split at h
      · cases h
      · rename_i v rest' hv
        have hv' := i1 _ _ _ hv
        split at h
        · cases h
        · split at h
          · cases h
            intro x hx
            rw [List.mem_singleton] at hx
            rw [hx]; exact hv'
          · split at h
            · split at h
              · cases h
              · rename_i hi
                cases h
                intro x hx
                rcases List.mem_cons.1 hx with rfl | hx
                · exact hv'
                · exact i2 _ _ _ hi x hx
            · cases h
    · intro s l rest h
      cases s with
      | nil => rw [scanMembers] at h; cases h
      | cons q s =>
        rw [scanMembers] at h
        split at h
        · split at h
          · cases h
          · split at h
            · cases h
            · split at h
              · split at h
                · cases h
                · rename_i v rest' hv
                  have hv' := i1 _ _ _ hv
                  split at h
                  · cases h
                  · split at h
                    · cases h
                      intro x hx
                      rw [List.mem_singleton] at hx
                      rw [hx]; exact hv'
                    · split at h
                      · split at h
                        · cases h
                        · rename_i hi
                          cases h
                          intro x hx
                          rcases List.mem_cons.1 hx with rfl | hx
                          · exact hv'
                          · exact i3 _ _ _ hi x hx
                      · cases h
              · cases h
        · cases h

/-- Whatever text is read, the result is a value: the keys of every object differ and every number is one. -/
theorem loads_valid (s : Name) (v : Json) (h : loads s = .ok v) : Valid v := by
  unfold loads at h
  split at h
  · rename_i hs
    split at h
    · cases h; exact (scan_some _).1 _ _ _ hs
    · cases h
  · cases h

/-! ## The same value has the same text -/

theorem byKey_sorted {α : Type} (m : List (Name × α)) : (byKey m).Pairwise (fun a b => a.1 ≤ b.1) := by
  unfold byKey
  haveI : Std.Total (fun a b : Name × α => a.1 ≤ b.1) := ⟨fun a b => List.le_total _ _⟩
  haveI : IsTrans (Name × α) (fun a b => a.1 ≤ b.1) := ⟨fun a b c => List.le_trans⟩
  exact List.pairwise_insertionSort _ _

theorem byKey_byKey {α : Type} (m : List (Name × α)) : byKey (byKey m) = byKey m := by
  have := byKey_sorted m
  exact List.Pairwise.insertionSort_eq this

theorem render_canon (v : Json) : ∀ n, render n (canon v) = render n v := by
  induction v using Json.induct with
  | lit l => intro n; rw [canon]
  | num t => intro n; rw [canon]
  | str s => intro n; rw [canon]
  | arr l ih =>
    intro n
    rw [canon, canonItems_eq, render, render, renderItems_eq, renderItems_eq, List.map_map]
    congr 1
    exact List.map_congr_left fun x hx => ih x hx (n + 1)
  | obj m ih =>
    intro n
    rw [canon, canonMembers_eq, render, render, renderMembers_eq, renderMembers_eq, byKey_map, byKey_map, byKey_map, byKey_byKey]
    congr 2
    rw [List.map_map, byKey_map (render (n + 1)) m]
    refine List.map_congr_left ?_
    intro p hp
    show (p.1, render (n + 1) (canon p.2)) = (p.1, render (n + 1) p.2)
    rw [ih p ((byKey_perm m).mem_iff.1 hp) (n + 1)]

theorem dumps_canon (v : Json) : dumps (canon v) = dumps v := render_canon v 0

theorem get?_iff {α : Type} (d : Dict Name α) (hk : (d.map (·.1)).Nodup) (k : Name) (v : α) :
    Dict.get? d k = some v ↔ (k, v) ∈ d := by
  refine ⟨get?_mem d k v, ?_⟩
  intro h
  induction d with
  | nil => cases h
  | cons p d ih =>
    obtain ⟨k', v'⟩ := p
    simp only [List.map_cons, List.nodup_cons] at hk
    rw [Dict.get?]
    rcases List.mem_cons.1 h with h' | h'
    · cases h'; rw [if_pos rfl]
    · rw [if_neg, ih hk.2 h']
      rintro rfl
      exact hk.1 (List.mem_map_of_mem (f := (·.1)) h')

theorem byKey_ext {α : Type} (a b : Dict Name α) (ha : (a.map (·.1)).Nodup) (hb : (b.map (·.1)).Nodup)
    (h : ∀ k, Dict.get? a k = Dict.get? b k) : byKey a = byKey b := by
  have hp : a.Perm b := by
    rw [List.perm_ext_iff_of_nodup (List.Nodup.of_map _ ha) (List.Nodup.of_map _ hb)]
    rintro ⟨k, v⟩
    rw [← get?_iff a ha, ← get?_iff b hb, h]
  have hq : (byKey a).Perm (byKey b) := (byKey_perm a).trans (hp.trans (byKey_perm b).symm)
  refine List.Perm.eq_of_pairwise ?_ (byKey_sorted a) (byKey_sorted b) hq
  rintro ⟨k, v⟩ ⟨k', v'⟩ h1 h2 h3 h4
  have hkk : k = k' := List.le_antisymm h3 h4
  subst hkk
  have e1 := (get?_iff a ha k v).2 ((byKey_perm a).mem_iff.1 h1)
  have e2 := (get?_iff b hb k v').2 ((byKey_perm b).mem_iff.1 h2)
  rw [h, e2] at e1
  cases e1
  rfl

theorem canon_obj_ext (a b : Dict Name Json) (ha : (a.map (·.1)).Nodup) (hb : (b.map (·.1)).Nodup)
    (h : ∀ k, (Dict.get? a k).map canon = (Dict.get? b k).map canon) : canon (.obj a) = canon (.obj b) := by
  rw [canon, canon, canonMembers_eq, canonMembers_eq]
  congr 1
  apply byKey_ext
  · rw [List.map_map]; exact ha
  · rw [List.map_map]; exact hb
  · intro k
    rw [get?_map, get?_map, h]

theorem canon_obj_get (a b : Dict Name Json) (ha : Valid (.obj a)) (hb : Valid (.obj b))
    (h : canon (.obj a) = canon (.obj b)) (k : Name) : (Dict.get? a k).map canon = (Dict.get? b k).map canon := by
  have h1 := canon_child _ ha (.key k)
  have h2 := canon_child _ hb (.key k)
  rw [h] at h1
  exact h1.symm.trans h2

/-- Values that are the same have the same ordered form. -/
theorem canon_eq_of_same (v : Json) : ∀ w, Valid v → Valid w → Same v w → canon v = canon w := by
  have hseen : ∀ v w, Same v w → v.seen = w.seen := by
    intro v w h
    have := h []
    simpa [Json.at] using this
  have hchild : ∀ v w s x y, Same v w → v.child s = some x → w.child s = some y → Same x y := by
    intro v w s x y h h1 h2 path
    have := h (s :: path)
    simpa [Json.at, h1, h2] using this
  have hnone : ∀ v w s, Same v w → (v.child s = none ↔ w.child s = none) := by
    intro v w s h
    have := h [s]
    simp only [Json.at] at this
    cases h1 : v.child s <;> cases h2 : w.child s <;> simp_all
  induction v using Json.induct with
  | lit l => intro w _ _ h; have := hseen _ _ h; cases w <;> simp_all [Json.seen, canon]
  | num l => intro w _ _ h; have := hseen _ _ h; cases w <;> simp_all [Json.seen, canon]
  | str l => intro w _ _ h; have := hseen _ _ h; cases w <;> simp_all [Json.seen, canon]
  | arr l ih =>
    intro w hv hw h
    have hs := hseen _ _ h
    cases w with
    | arr l' =>
      cases hv with
      | arr _ hv =>
        cases hw with
        | arr _ hw =>
          rw [canon, canon, canonItems_eq, canonItems_eq]
          congr 1
          have hl : l.length = l'.length := by simpa [Json.seen] using hs
          apply List.ext_getElem?
          intro i
          rw [List.getElem?_map, List.getElem?_map]
          cases h1 : l[i]? with
          | none =>
            have : l'[i]? = none := by rw [List.getElem?_eq_none_iff] at h1 ⊢; omega
            rw [this]
          | some x =>
            cases h2 : l'[i]? with
            | none =>
              rw [List.getElem?_eq_none_iff] at h2
              have := (List.getElem?_eq_some_iff.1 h1).1
              omega
            | some y =>
              have hx := List.mem_of_getElem? h1
              have hy := List.mem_of_getElem? h2
              simp only [Option.map_some]
              rw [ih x hx y (hv x hx) (hw y hy) (hchild _ _ (.index i) x y h h1 h2)]
    | _ => simp [Json.seen] at hs
  | obj m ih =>
    intro w hv hw h
    have hs := hseen _ _ h
    cases w with
    | obj m' =>
      cases hv with
      | obj _ hk hv =>
        cases hw with
        | obj _ hk' hw =>
          apply canon_obj_ext _ _ hk hk'
          intro k
          have hn := hnone _ _ (.key k) h
          cases h1 : Dict.get? m k with
          | none =>
            have : Dict.get? m' k = none := hn.1 h1
            rw [this]
          | some x =>
            cases h2 : Dict.get? m' k with
            | none =>
              have : Dict.get? m k = none := hn.2 h2
              rw [this] at h1
              cases h1
            | some y =>
              have hx := get?_mem _ _ _ h1
              have hy := get?_mem _ _ _ h2
              simp only [Option.map_some]
              rw [ih _ hx y (hv _ hx) (hw _ hy) (hchild _ _ (.key k) x y h h1 h2)]
    | _ => simp [Json.seen] at hs

/-- The text of a value does not depend on the order of its keys. -/
theorem same_text (v w : Json) (hv : Valid v) (hw : Valid w) (h : Same v w) : dumps v = dumps w := by
  rw [← dumps_canon v, ← dumps_canon w, canon_eq_of_same v w hv hw h]

end Dedop.JsonText
