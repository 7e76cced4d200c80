import Verif.Upgrade.Text
import Verif.Web.JsonTextRead

/-! # Lemmas about upgrading the text of a configuration -/
namespace Dedop.UpgradeText

open Dedop.Names Dedop.Workspace Dedop.JsonText

/-- What is assumed of Python's numbers: the text `repr` gives is read as itself, unless the number is an
infinity; and `-1` is minus one. -/
structure Numbers.Sound (N : Numbers) : Prop where
  canonical : ∀ t, IsNumber t → (∃ t', N.canonical t = .num t' ∧ IsNumber t' ∧ N.canonical t' = .num t') ∨
    N.canonical t = .lit .infinity ∨ N.canonical t = .lit .minusInfinity
  minusOne : N.value ['-', '1'] = -1

theorem readItems_eq (N : Numbers) (l : List Json) : readItems N l = l.map (readNums N) := by
  induction l with
  | nil => rw [readItems]; rfl
  | cons x l ih => rw [readItems, ih]; rfl

theorem readMembers_eq (N : Numbers) (m : List (Name × Json)) :
    readMembers N m = m.map (fun p => (p.1, readNums N p.2)) := by
  induction m with
  | nil => rw [readMembers]; rfl
  | cons x l ih => obtain ⟨k, v⟩ := x; rw [readMembers, ih, readMember]; rfl

theorem readNums_spec (N : Numbers) (hN : N.Sound) (v : Json) (hv : Valid v) :
    Valid (readNums N v) ∧ readNums N (readNums N v) = readNums N v ∧
      readNums N (canon v) = canon (readNums N v) := by
  induction v using Json.induct with
  | lit l => rw [readNums, canon, readNums]; exact ⟨hv, rfl, rfl⟩
  | num t =>
    rw [readNums, canon, readNums]
    cases hv with
    | num _ h =>
      rcases hN.canonical t h with ⟨t', h1, h2, h3⟩ | h1 | h1
      · rw [h1, readNums, canon]; exact ⟨.num _ h2, h3, rfl⟩
      · rw [h1, readNums, canon]; exact ⟨.lit _, rfl, rfl⟩
      · rw [h1, readNums, canon]; exact ⟨.lit _, rfl, rfl⟩
  | str s => rw [readNums, canon, readNums]; exact ⟨hv, rfl, rfl⟩
  | arr l ih =>
    cases hv with
    | arr _ hl =>
      rw [readNums, readItems_eq, canon, canonItems_eq, readNums, readItems_eq, readNums, readItems_eq, canon,
        canonItems_eq]
      refine ⟨.arr _ ?_, ?_, ?_⟩
      · intro x hx
        obtain ⟨y, hy, rfl⟩ := List.mem_map.1 hx
        exact (ih y hy (hl y hy)).1
      · rw [List.map_map]
        exact congrArg Json.arr (List.map_congr_left fun y hy => (ih y hy (hl y hy)).2.1)
      · rw [List.map_map, List.map_map]
        exact congrArg Json.arr (List.map_congr_left fun y hy => (ih y hy (hl y hy)).2.2)
  | obj m ih =>
    cases hv with
    | obj _ hk hl =>
      rw [readNums, readMembers_eq, canon, canonMembers_eq, readNums, readMembers_eq, readNums, readMembers_eq, canon,
        canonMembers_eq]
      refine ⟨.obj _ ?_ ?_, ?_, ?_⟩
      · rw [List.map_map]; exact hk
      · intro x hx
        obtain ⟨y, hy, rfl⟩ := List.mem_map.1 hx
        exact (ih y hy (hl y hy)).1
      · rw [List.map_map]
        refine congrArg Json.obj (List.map_congr_left ?_)
        intro y hy
        show (y.1, readNums N (readNums N y.2)) = (y.1, readNums N y.2)
        rw [(ih y hy (hl y hy)).2.1]
      · rw [← byKey_map]
        congr 2
        rw [List.map_map, List.map_map]
        refine List.map_congr_left ?_
        intro y hy
        show (y.1, readNums N (canon y.2)) = (y.1, canon (readNums N y.2))
        rw [(ih y hy (hl y hy)).2.2]

/-- A value as it is after reading. -/
def Good (N : Numbers) (v : Json) : Prop := Valid v ∧ readNums N v = v

theorem load_good (N : Numbers) (hN : N.Sound) (s : Name) (v : Json) (h : load N s = .ok v) : Good N v := by
  unfold load at h
  split at h
  · cases h
  · rename_i w hw
    cases h
    have := readNums_spec N hN w (loads_valid s w hw)
    exact ⟨this.1, this.2.1⟩

theorem load_dumps (N : Numbers) (hN : N.Sound) (v : Json) (h : Good N v) : load N (dumps v) = .ok (canon v) := by
  unfold load
  rw [loads_dumps v h.1]
  exact congrArg Except.ok ((readNums_spec N hN v h.1).2.2.trans (by rw [h.2]))

theorem good_obj (N : Numbers) (m : List (Name × Json)) :
    Good N (.obj m) ↔ (m.map (·.1)).Nodup ∧ ∀ p ∈ m, Good N p.2 := by
  constructor
  · rintro ⟨h1, h2⟩
    rw [readNums, readMembers_eq] at h2
    injection h2 with h2
    cases h1 with
    | obj _ hk hm =>
      refine ⟨hk, fun p hp => ⟨hm p hp, ?_⟩⟩
      have h3 : m.map (fun p => (p.1, readNums N p.2)) = m.map id := by rw [h2]; simp
      have := List.map_inj_left.1 h3 p hp
      exact congrArg Prod.snd this
  · rintro ⟨hk, hm⟩
    refine ⟨.obj _ hk fun p hp => (hm p hp).1, ?_⟩
    rw [readNums, readMembers_eq]
    congr 1
    conv_rhs => rw [← List.map_id m]
    refine List.map_congr_left ?_
    intro p hp
    show (p.1, readNums N p.2) = p
    rw [(hm p hp).2]

theorem good_get (N : Numbers) (m : List (Name × Json)) (h : Good N (.obj m)) (k : Name) (v : Json)
    (hg : Dict.get? m k = some v) : Good N v := ((good_obj N m).1 h).2 _ (get?_mem m k v hg)

theorem good_set (N : Numbers) (m : List (Name × Json)) (h : Good N (.obj m)) (k : Name) (v : Json)
    (hv : Good N v) : Good N (.obj (Dict.set m k v)) := by
  rw [good_obj] at h ⊢
  refine ⟨(set_keys m k v h.1).1, ?_⟩
  intro p hp
  rcases set_mem m k v p hp with h' | h'
  · rw [h']; exact hv
  · exact h.2 p h'

theorem erase_sublist (m : List (Name × Json)) (k : Name) : (Dict.erase m k).Sublist m := by
  induction m with
  | nil => exact List.Sublist.refl _
  | cons p m ih =>
    obtain ⟨k', v⟩ := p
    rw [Dict.erase]
    split
    · exact List.Sublist.cons _ ih
    · exact List.Sublist.cons_cons _ ih

theorem good_erase (N : Numbers) (m : List (Name × Json)) (h : Good N (.obj m)) (k : Name) :
    Good N (.obj (Dict.erase m k)) := by
  rw [good_obj] at h ⊢
  exact ⟨h.1.sublist ((erase_sublist m k).map _), fun p hp => h.2 p ((erase_sublist m k).subset hp)⟩

theorem good_remove (N : Numbers) (l : List Name) : ∀ m, Good N (.obj m) → Good N (.obj (remove m l)) := by
  induction l with
  | nil => exact fun m h => h
  | cons k l ih => exact fun m h => ih _ (good_erase N m h k)

theorem item_good (N : Numbers) (v : Json) (h : Good N v) (k : Name) (x : Json) (hi : item v k = .ok x) :
    Good N x := by
  cases v with
  | obj m =>
    simp only [item] at hi
    split at hi
    · rename_i hg
      cases hi
      exact good_get N m h k _ hg
    · cases hi
  | _ => cases hi

theorem good_add (N : Numbers) (d : Json) (hd : Good N d) (l : List Name) : ∀ m r, Good N (.obj m) →
    add d m l = .ok r → Good N (.obj r) := by
  induction l with
  | nil => intro m r h hr; cases hr; exact h
  | cons k l ih =>
    intro m r h hr
    rw [add] at hr
    split at hr
    · cases hr
    · rename_i v hv
      exact ih _ _ (good_set N m h k v (item_good N d hd k v hv)) hr

theorem get?_remove (l : List Name) : ∀ (m : Dict Name Json) (k : Name),
    Dict.get? (remove m l) k = if k ∈ l then none else Dict.get? m k := by
  induction l with
  | nil => intro m k; simp [remove]
  | cons j l ih =>
    intro m k
    rw [remove, ih, Dict.get?_erase]
    by_cases h1 : k ∈ l
    · simp [h1]
    · by_cases h2 : k = j <;> simp [h1, h2]

theorem doUpgrade_good (N : Numbers) (c d r : Json) (hc : Good N c) (hd : Good N d)
    (h : doUpgrade N c d = .ok r) : Good N r := by
  unfold doUpgrade at h
  split at h
  · cases h
  split at h
  · cases h
  split at h
  · cases h
  · cases h; exact hc
  split at h
  · cases h
  · rename_i m hm
    split at h
    · cases h
    split at h
    · cases h
    split at h
    · cases h
    split at h
    · split at h
      · cases h
      · rename_i ms hms
        cases h
        exact good_set N _ (good_remove N _ _ (good_add N d hd _ _ _ hc hms)) _ _ (item_good N d hd _ _ hm)
    · cases h

/-! ## The order of keys -/

theorem item_canon (v : Json) (hv : Valid v) (k : Name) : item (canon v) k = (item v k).map canon := by
  cases v with
  | obj m =>
    have h := canon_child (.obj m) hv (.key k)
    rw [canon] at h ⊢
    simp only [item, Json.child] at h ⊢
    rw [h]
    cases Dict.get? m k <;> rfl
  | arr l => rw [canon]; rfl
  | _ => rw [canon]; rfl

theorem operand_canon (N : Numbers) (v : Json) : operand N (canon v) = operand N v := by
  cases v with
  | obj m => rw [canon]; rfl
  | arr l => rw [canon]; rfl
  | _ => rw [canon]

theorem canon_of_operand (N : Numbers) (v : Json) (h : operand N v ≠ .other) : canon v = v := by
  cases v with
  | obj m => exact absurd rfl h
  | arr l => exact absurd rfl h
  | _ => rw [canon]

theorem item_valid (v : Json) (hv : Valid v) (k : Name) (x : Json) (h : item v k = .ok x) : Valid x := by
  cases v with
  | obj m =>
    simp only [item] at h
    split at h
    · rename_i hg
      cases h
      exact child_valid _ hv (.key k) _ hg
    · cases h
  | _ => cases h

theorem metaVersion_canon (v : Json) (hv : Valid v) : metaVersion (canon v) = (metaVersion v).map canon := by
  unfold metaVersion
  rw [item_canon v hv]
  cases h : item v metaKey with
  | error e => rfl
  | ok m => exact item_canon m (item_valid v hv _ _ h) _

theorem currentVersion_canon (N : Numbers) (v : Json) (hv : Valid v) :
    currentVersion N (canon v) = currentVersion N v := by
  unfold currentVersion
  rw [metaVersion_canon v hv]
  cases metaVersion v with
  | error e => cases e <;> rfl
  | ok x => exact congrArg Except.ok (operand_canon N x)

theorem version_canon (v : Json) (hv : Valid v) : version (canon v) = (version v).map canon := by
  cases v with
  | obj m =>
    have h := canon_child (.obj m) hv (.key metaKey)
    rw [canon] at h ⊢
    simp only [version, Json.child] at h ⊢
    rw [h]
    cases hg : Dict.get? m metaKey with
    | none => rw [Option.map_none]; dsimp only; rw [Except.map, canon]
    | some x => exact item_canon x (child_valid _ hv (.key metaKey) _ hg) _
  | arr l => rw [canon]; rfl
  | _ => rw [canon]; rfl

theorem names_canon (v : Json) : (∃ l l', names v = .ok l ∧ names (canon v) = .ok l') ∨
    (names v = .error .typeError ∧ names (canon v) = .error .typeError) := by
  cases v with
  | obj m => rw [canon]; exact .inl ⟨_, _, rfl, rfl⟩
  | str s => rw [canon]; exact .inl ⟨_, _, rfl, rfl⟩
  | arr l =>
    rw [canon, canonItems_eq]
    induction l with
    | nil => exact .inl ⟨_, _, rfl, rfl⟩
    | cons x l ih =>
      cases x with
      | str s =>
        rw [List.map_cons, canon]
        rcases ih with ⟨a, b, h1, h2⟩ | ⟨h1, h2⟩
        · simp only [names, List.foldr_cons] at h1 h2 ⊢
          rw [h1, h2]
          exact .inl ⟨_, _, rfl, rfl⟩
        · simp only [names, List.foldr_cons] at h1 h2 ⊢
          rw [h1, h2]
          exact .inr ⟨rfl, rfl⟩
      | _ => rw [List.map_cons, canon]; exact .inr ⟨rfl, rfl⟩
  | _ => rw [canon]; exact .inr ⟨rfl, rfl⟩

/-- Two objects with the same values under every key. -/
def Alike (a b : Dict Name Json) : Prop := ∀ k, (Dict.get? a k).map canon = (Dict.get? b k).map canon

theorem alike_set (a b : Dict Name Json) (h : Alike a b) (k : Name) (v : Json) :
    Alike (Dict.set a k v) (Dict.set b k v) := by
  intro j
  rw [Dict.get?_set, Dict.get?_set]
  split
  · rfl
  · exact h j

theorem alike_remove (a b : Dict Name Json) (h : Alike a b) (l : List Name) : Alike (remove a l) (remove b l) := by
  intro j
  rw [get?_remove, get?_remove]
  split
  · rfl
  · exact h j

theorem alike_add (d : Json) (l : List Name) : ∀ a b, Alike a b →
    (∃ r r', add d a l = .ok r ∧ add d b l = .ok r' ∧ Alike r r') ∨
      ∃ e, add d a l = .error e ∧ add d b l = .error e := by
  induction l with
  | nil => exact fun a b h => .inl ⟨a, b, rfl, rfl, h⟩
  | cons k l ih =>
    intro a b h
    simp only [add]
    cases item d k with
    | error e => exact .inr ⟨e, rfl, rfl⟩
    | ok v => exact ih _ _ (alike_set a b h k v)

/-- Upgrading does not depend on the order of the keys of the file. -/
theorem doUpgrade_canon (N : Numbers) (c d : Json) (hc : Good N c) (hc' : Good N (canon c)) (hd : Good N d) :
    (∃ r r', doUpgrade N c d = .ok r ∧ doUpgrade N (canon c) d = .ok r' ∧ canon r = canon r' ∧ Valid r ∧ Valid r') ∨
      ∃ e, doUpgrade N c d = .error e ∧ doUpgrade N (canon c) d = .error e := by
  have hcc : canon (canon c) = canon c :=
    canon_eq_of_same _ _ hc'.1 hc.1 (fun path => ((canon_same c hc.1) path).symm)
  by_cases hobj : ∃ m, c = .obj m
  · obtain ⟨m, rfl⟩ := hobj
    obtain ⟨m', hm'⟩ : ∃ m', canon (.obj m) = .obj m' := ⟨_, by rw [canon]⟩
    have hal : Alike m m' := by
      intro k
      refine canon_obj_get m m' hc.1 (by rw [← hm']; exact hc'.1) ?_ k
      rw [← hm', hcc]
    rw [hm'] at hc' hcc
    have hcv := currentVersion_canon N _ hc.1
    rw [hm'] at hcv ⊢
    unfold doUpgrade
    rw [hcv]
    cases currentVersion N (.obj m) with
    | error e => exact .inr ⟨e, rfl, rfl⟩
    | ok cv =>
      dsimp only
      cases metaVersion d with
      | error e => exact .inr ⟨e, rfl, rfl⟩
      | ok dv =>
        dsimp only
        cases pyLe (operand N dv) cv with
        | error e => exact .inr ⟨e, rfl, rfl⟩
        | ok b =>
          cases b with
          | true => exact .inl ⟨_, _, rfl, rfl, hm'.trans hcc.symm, hc.1, hc'.1⟩
          | false =>
            dsimp only
            cases hm : item d metaKey with
            | error e => exact .inr ⟨e, rfl, rfl⟩
            | ok me =>
              dsimp only
              cases item me changelogKey with
              | error e => exact .inr ⟨e, rfl, rfl⟩
              | ok log =>
                dsimp only
                cases elements log with
                | error e => exact .inr ⟨e, rfl, rfl⟩
                | ok log =>
                  dsimp only
                  cases changes N cv ([], []) log with
                  | error e => exact .inr ⟨e, rfl, rfl⟩
                  | ok s =>
                    obtain ⟨added, removed⟩ := s
                    dsimp only
                    rcases alike_add d added m m' hal with ⟨r, r', h1, h2, h3⟩ | ⟨e, h1, h2⟩
                    · rw [h1, h2]
                      dsimp only
                      have hme := item_good N d hd _ _ hm
                      have g1 := good_set N _ (good_remove N removed r (good_add N d hd _ _ _ hc h1)) metaKey me hme
                      have g2 := good_set N _ (good_remove N removed r' (good_add N d hd _ _ _ hc' h2)) metaKey me hme
                      refine .inl ⟨_, _, rfl, rfl, ?_, g1.1, g2.1⟩
                      exact canon_obj_ext _ _ ((good_obj N _).1 g1).1 ((good_obj N _).1 g2).1
                        (alike_set _ _ (alike_remove _ _ h3 removed) metaKey me)
                    · rw [h1, h2]
                      exact .inr ⟨e, rfl, rfl⟩
  · refine .inr ⟨.typeError, ?_⟩
    cases c with
    | obj m => exact absurd ⟨m, rfl⟩ hobj
    | arr l => rw [canon]; exact ⟨rfl, rfl⟩
    | _ => rw [canon]; exact ⟨rfl, rfl⟩

end Dedop.UpgradeText
