import Verif.Objects.Spec
/-!
# Proofs: attributes hold what was last stored in them (C110) and reading changes nothing (C111)
-/
namespace Dedop.Objects
variable {V : Type}

/-! ## The properties of a class that passes the checks -/

theorem findAttr_mem {attrs : List Attr} {n : String} {a : Attr} (h : findAttr attrs n = some a) :
    a ∈ attrs ∧ a.name = n := by
  unfold findAttr at h
  exact ⟨List.mem_reverse.1 (List.mem_of_find?_eq_some h), by simpa using List.find?_some h⟩

theorem findAttr_of_mem {attrs : List Attr} {n : String} (h : n ∈ attrs.map (·.name)) : ∃ a, findAttr attrs n = some a := by
  obtain ⟨a, ha, rfl⟩ := List.mem_map.1 h
  cases hf : findAttr attrs a.name with
  | some b => exact ⟨b, rfl⟩
  | none =>
    unfold findAttr at hf
    have := List.find?_eq_none.1 hf a (List.mem_reverse.2 ha)
    simp at this

/-- What the checks say about the property of a name. -/
theorem okAttr_of {attrs : List Attr} (hok : okTable attrs = true) {n : String} {a : Attr} (h : findAttr attrs n = some a) :
    okAttr attrs a = true ∧ a.name = n := by
  obtain ⟨hm, hn⟩ := findAttr_mem h
  exact ⟨List.all_eq_true.1 hok a hm, hn⟩

/-- The getter of a declared name. -/
theorem getter_ok {attrs : List Attr} (hok : okTable attrs = true) {n : String} {a : Attr} (h : findAttr attrs n = some a) :
    (∀ k, a.getter = .cell k → k = n) ∧ (∀ k, a.getter = .cellOrFalse k → k = n ∧ n = "target_focused") ∧
    (∀ ns, a.getter = .view ns ∨ a.getter = .derived ns → ∀ m ∈ ns, ∃ b, findAttr attrs m = some b ∧ b.getter = .cell m) := by
  obtain ⟨hm, hn⟩ := okAttr_of hok h
  subst hn
  simp only [okAttr, Bool.and_eq_true] at hm
  have h1 := hm.1.1
  refine ⟨fun k hk => ?_, fun k hk => ?_, fun ns hns m hmn => ?_⟩
  · rw [hk] at h1; simpa using h1
  · rw [hk] at h1
    simp only [Bool.and_eq_true, decide_eq_true_eq] at h1
    exact ⟨h1.1, h1.2⟩
  · have h2 : (ns.all fun n => match findAttr attrs n with | some b => decide (b.getter = .cell n) | none => false) = true := by
      rcases hns with hns | hns <;> rw [hns] at h1 <;> exact h1
    have h3 := List.all_eq_true.1 h2 m hmn
    cases hf : findAttr attrs m with
    | none => rw [hf] at h3; cases h3
    | some b => rw [hf] at h3; exact ⟨b, rfl, by simpa using h3⟩

/-- The setter of a declared name. -/
theorem setter_ok {attrs : List Attr} (hok : okTable attrs = true) {n : String} {a : Attr} (h : findAttr attrs n = some a) :
    (∀ k, a.setter = some (.cell k) → k = n) ∧
    (∀ ns, a.setter = some (.view ns) → ns.Nodup ∧ ∀ m ∈ ns, ∃ b, findAttr attrs m = some b ∧ b.setter = some (.cell m)) ∧
    (∀ k, a.deleter = some k → k = n) := by
  obtain ⟨hm, hn⟩ := okAttr_of hok h
  subst hn
  simp only [okAttr, Bool.and_eq_true] at hm
  have h1 := hm.1.2
  have h4 := hm.2
  refine ⟨fun k hk => ?_, fun ns hns => ?_, fun k hk => ?_⟩
  · rw [hk] at h1
    simp only [Bool.and_eq_true, decide_eq_true_eq] at h1
    exact h1.1
  · rw [hns] at h1
    simp only [Bool.and_eq_true, decide_eq_true_eq] at h1
    refine ⟨h1.1.1, fun m hmn => ?_⟩
    have h3 := List.all_eq_true.1 h1.2 m hmn
    cases hf : findAttr attrs m with
    | none => rw [hf] at h3; cases h3
    | some b => rw [hf] at h3; exact ⟨b, rfl, by simpa using h3⟩
  · rw [hk] at h4
    simp only [Bool.and_eq_true, decide_eq_true_eq] at h4
    exact h4.1

/-! ## What the operations do to an object -/

/-- Reading attributes that are entries of the dictionary does not change the object. -/
theorem readAll_same (c : Cls) (p : Vals V) (ns : List String)
    (h : ∀ m ∈ ns, ∃ b, findAttr c.attrs m = some b ∧ b.getter = .cell m) (o : Obj V) : (readAll c p o ns).2 = o := by
  induction ns with
  | nil => rfl
  | cons m t ih =>
    obtain ⟨b, hb, hg⟩ := h m (by simp)
    simp only [readAll, hb, hg, readBase]
    cases hentry : o.entry m with
    | error e => rfl
    | ok v =>
      have := ih fun m' hm' => h m' (by simp [hm'])
      dsimp only
      generalize hr : readAll c p o t = r at this
      obtain ⟨r1, r2⟩ := r
      cases r1 <;> exact this

/-- Reading an attribute changes at most the entry "target_focused", which becomes `False` if missing, and the stored norm. -/
theorem getAttr_same (c : Cls) (p : Vals V) (hok : okTable c.attrs = true) (o : Obj V) (n : String) :
    (n ≠ "target_focused" → n ≠ "vel_sat_sar_norm" →
      (∀ a, findAttr c.attrs n = some a → a.getter = .norm → n = "vel_sat_sar_norm") → (getAttr c p o n).2 = o) ∧
    ((getAttr c p o n).2.data = o.data ∨
      n = "target_focused" ∧ o.data.get? n = none ∧ (getAttr c p o n).2.data = o.data.set n p.no) ∧
    (getAttr c p o n).2.vel = o.vel ∧ (getAttr c p o n).2.fields = o.fields := by
  unfold getAttr
  cases hf : findAttr c.attrs n with
  | none =>
    dsimp only [readBase]
    cases o.fields.get? n <;> exact ⟨fun _ _ _ => rfl, .inl rfl, rfl, rfl⟩
  | some a =>
    obtain ⟨g1, g2, g3⟩ := getter_ok hok hf
    have main : ∀ ns, (a.getter = .view ns ∨ a.getter = .derived ns) → (readAll c p o ns).2 = o := fun ns hns =>
      readAll_same c p ns (g3 ns hns) o
    dsimp only
    cases hg : a.getter with
    | cell k => exact ⟨fun _ _ _ => rfl, .inl rfl, rfl, rfl⟩
    | cellOrFalse k =>
      obtain ⟨rfl, htf⟩ := g2 k hg
      dsimp only [readBase]
      cases hd : o.data.get? k with
      | some v => exact ⟨fun _ _ _ => rfl, .inl rfl, rfl, rfl⟩
      | none => exact ⟨fun h1 _ _ => absurd htf h1, .inr ⟨htf, rfl, rfl⟩, rfl, rfl⟩
    | vel i => exact ⟨fun _ _ _ => rfl, .inl rfl, rfl, rfl⟩
    | velAll => exact ⟨fun _ _ _ => rfl, .inl rfl, rfl, rfl⟩
    | norm =>
      dsimp only [readBase]
      cases o.norm with
      | some x => exact ⟨fun _ _ _ => rfl, .inl rfl, rfl, rfl⟩
      | none => exact ⟨fun _ h2 h3 => absurd (h3 a rfl hg) h2, .inl rfl, rfl, rfl⟩
    | field f =>
      dsimp only [readBase]
      cases o.fields.get? f <;> exact ⟨fun _ _ _ => rfl, .inl rfl, rfl, rfl⟩
    | undeclared => exact ⟨fun _ _ _ => rfl, .inl rfl, rfl, rfl⟩
    | view ns =>
      have := main ns (.inl hg)
      dsimp only
      generalize readAll c p o ns = r at this
      obtain ⟨r1, r2⟩ := r
      subst this
      cases r1 <;> exact ⟨fun _ _ _ => rfl, .inl rfl, rfl, rfl⟩
    | derived ns =>
      have := main ns (.inr hg)
      dsimp only
      generalize readAll c p o ns = r at this
      obtain ⟨r1, r2⟩ := r
      subst this
      cases r1 <;> exact ⟨fun _ _ _ => rfl, .inl rfl, rfl, rfl⟩

theorem setItem_declared (c : Cls) (o : Obj V) {k : String} {b : Attr} (h : findAttr c.attrs k = some b) (v : V) :
    setItem c o k v = (.ok (), { o with data := o.data.set k v }) := by
  simp [setItem, Cls.has, h]

/-- Assigning a vector stores the parts in the dictionary and changes nothing else. -/
theorem writeAll_data (c : Cls) (p : Vals V) (ns : List String) (hnd : ns.Nodup)
    (h : ∀ m ∈ ns, ∃ b, findAttr c.attrs m = some b ∧ b.setter = some (.cell m)) (l : List V) (hl : l.length = ns.length)
    (o : Obj V) :
    (writeAll c p o (ns.zip l)).1 = .ok () ∧
    (∀ a, (writeAll c p o (ns.zip l)).2.data.get? a = (l[ns.idxOf a]?).or (o.data.get? a)) ∧
    (writeAll c p o (ns.zip l)).2.vel = o.vel ∧ (writeAll c p o (ns.zip l)).2.norm = o.norm ∧
    (writeAll c p o (ns.zip l)).2.fields = o.fields := by
  induction ns generalizing l o with
  | nil =>
    have : l = [] := List.length_eq_zero_iff.1 hl
    subst this
    exact ⟨rfl, fun _ => rfl, rfl, rfl, rfl⟩
  | cons m t ih =>
    obtain ⟨x, l', rfl⟩ : ∃ x l', l = x :: l' := by
      cases l with
      | nil => simp at hl
      | cons x l' => exact ⟨x, l', rfl⟩
    obtain ⟨b, hb, hs⟩ := h m (by simp)
    obtain ⟨hmt, hnd'⟩ := List.nodup_cons.1 hnd
    simp only [List.zip_cons_cons, writeAll, hb, Option.bind_some, hs, writeBase, setItem_declared c o hb x]
    obtain ⟨i1, i2, i3, i4, i5⟩ := ih hnd' (fun m' hm' => h m' (by simp [hm'])) l' (by simpa using hl)
      { o with data := o.data.set m x }
    refine ⟨i1, fun a => ?_, i3, i4, i5⟩
    rw [i2 a]
    dsimp only
    rw [Dict.get?_set]
    by_cases ha : a = m
    · subst ha
      have hix : t.idxOf a = t.length := by simpa using List.idxOf_eq_length hmt
      have hl' : l'.length = t.length := by simpa using hl
      rw [hix, if_pos rfl, List.getElem?_eq_none (by omega)]
      simp
    · have hma : (m == a) = false := by simpa using fun hh => ha hh.symm
      rw [if_neg ha, List.idxOf_cons, hma]
      simp

/-! ## Histories -/

/-- What can be seen of the entry `a`: "target_focused" counts as `False` when missing. -/
def seen (p : Vals V) (a : String) (x : Option V) : Option V := if a = "target_focused" then some (x.getD p.no) else x

theorem reading_seen (p : Vals V) (a : String) (x y : Option V) (h : seen p a x = seen p a y) : reading p a x = reading p a y := by
  unfold seen at h
  by_cases ha : a = "target_focused"
  · rw [if_pos ha, if_pos ha] at h
    cases x <;> cases y <;> simp_all [reading]
  · rw [if_neg ha, if_neg ha] at h
    rw [h]

theorem stored_cons (d : Doc) (p : Vals V) (a : String) (x : Option V) (op : Op V) (t : List (Op V)) :
    d.stored p a x (op :: t) = d.stored p a (d.stored p a x [op]) t := by
  cases op <;> rfl

theorem stored_append (d : Doc) (p : Vals V) (a : String) (x : Option V) (s t : List (Op V)) :
    d.stored p a x (s ++ t) = d.stored p a (d.stored p a x s) t := by
  induction s generalizing x with
  | nil => rfl
  | cons op s ih => rw [List.cons_append, stored_cons, ih, ← stored_cons]

theorem seen_stored (d : Doc) (p : Vals V) (a : String) (x y : Option V) (h : seen p a x = seen p a y) (op : Op V) :
    seen p a (d.stored p a x [op]) = seen p a (d.stored p a y [op]) := by
  cases op with
  | get n => exact h
  | getItem k => exact h
  | set n v =>
    dsimp only [Doc.stored]
    split
    · split
      · exact h
      · rfl
    · cases d.part p a n v with
      | none => simpa using h
      | some w => rfl
  | setItem k v => dsimp only [Doc.stored]; split <;> first | rfl | exact h
  | del n => dsimp only [Doc.stored]; split <;> first | rfl | exact h
  | delItem k => dsimp only [Doc.stored]; split <;> first | rfl | exact h

/-- A declared attribute that is a place of its own: neither derived nor a vector. -/
def Plain (attrs : List Attr) (d : Doc) (derived : List String) (a : String) : Prop :=
  a ∈ attrs.map (·.name) ∧ a ∉ derived ∧ d.vectors.get? a = none

theorem agrees_at {attrs : List Attr} {d : Doc} {derived : List String} (hag : Agrees attrs d derived = true) {n : String}
    {b : Attr} (hb : findAttr attrs n = some b) :
    (n ∈ derived → cellOf b.getter n = false ∧ (∀ ns, b.setter ≠ some (.view ns)) ∧ d.vectors.get? n = none) ∧
    (n ∉ derived → ∀ ns, d.vectors.get? n = some ns → b.setter = some (.view ns)) ∧
    (n ∉ derived → d.vectors.get? n = none →
      b.getter = (if n = "target_focused" then .cellOrFalse n else .cell n) ∧
      b.setter = (if n ∈ d.readOnly then none else some (.cell n)) ∧
      b.deleter = (if n ∈ d.lasting then none else some n)) := by
  obtain ⟨hm, hn⟩ := findAttr_mem hb
  simp only [Agrees, Bool.and_eq_true] at hag
  have h := List.all_eq_true.1 hag.1 b hm
  rw [hn, hb] at h
  dsimp only at h
  refine ⟨fun hd => ?_, fun hd ns hv => ?_, fun hd hv => ?_⟩
  · rw [if_pos hd] at h
    simp only [Bool.and_eq_true, Bool.not_eq_true', Option.isNone_iff_eq_none] at h
    refine ⟨h.1.1, fun ns hns => ?_, h.2⟩
    have := h.1.2
    rw [hns] at this
    cases this
  · rw [if_neg hd, hv] at h
    simpa using h
  · rw [if_neg hd, hv] at h
    simp only [Bool.and_eq_true, decide_eq_true_eq] at h
    exact ⟨h.1.1, h.1.2, h.2⟩

theorem vectors_declared {attrs : List Attr} {d : Doc} {derived : List String} (hag : Agrees attrs d derived = true)
    {n : String} (h : findAttr attrs n = none) : d.vectors.get? n = none := by
  simp only [Agrees, Bool.and_eq_true] at hag
  cases hv : d.vectors.get? n with
  | none => rfl
  | some ns =>
    have : ∀ (l : Dict String (List String)), l.get? n = some ns → (n, ns) ∈ l := by
      intro l
      induction l with
      | nil => intro h; cases h
      | cons e t ih =>
        obtain ⟨k, w⟩ := e
        simp only [Dict.get?]
        split
        · rename_i hk; subst hk; intro h; simp only [Option.some.injEq] at h; subst h; simp
        · intro h; exact List.mem_cons_of_mem _ (ih h)
    have hmem := List.all_eq_true.1 hag.2 (n, ns) (this _ hv)
    simp only [decide_eq_true_eq] at hmem
    obtain ⟨b, hb⟩ := findAttr_of_mem hmem
    rw [h] at hb; cases hb

/-- One operation changes an attribute as described. -/
theorem step_stored (c : Cls) (p : Vals V) (d : Doc) (derived : List String) (hok : okTable c.attrs = true)
    (hag : Agrees c.attrs d derived = true) (a : String) (ha : Plain c.attrs d derived a) (o : Obj V) (op : Op V) :
    seen p a ((step c p o op).2.data.get? a) = seen p a (d.stored p a (o.data.get? a) [op]) := by
  obtain ⟨ha1, ha2, ha3⟩ := ha
  obtain ⟨b, hb⟩ := findAttr_of_mem ha1
  obtain ⟨hbg, hbs, hbd⟩ := (agrees_at hag hb).2.2 ha2 ha3
  cases op with
  | get n =>
    dsimp only [step, Doc.stored]
    rcases (getAttr_same c p hok o n).2.1 with h | ⟨h1, h2, h3⟩
    · rw [h]
    · rw [h3, Dict.get?_set]
      by_cases han : a = n
      · subst han
        rw [if_pos rfl, h2]
        simp [seen, h1]
      · rw [if_neg han]
  | getItem k => rfl
  | setItem k v =>
    dsimp only [step, Doc.stored]
    by_cases hk : k = a
    · subst hk
      rw [if_pos rfl, setItem_declared c o hb v]
      simp [Dict.get?_set]
    · rw [if_neg hk]
      unfold setItem
      split
      · dsimp only
        rw [Dict.get?_set, if_neg fun hh => hk hh.symm]
      · rfl
  | delItem k =>
    dsimp only [step, Doc.stored, delItem]
    by_cases hk : k = a
    · subst hk
      rw [if_pos rfl]
      cases hd : o.data.get? k with
      | none => simp [hd]
      | some v => simp [Dict.get?_erase]
    · rw [if_neg hk]
      cases o.data.get? k with
      | none => rfl
      | some v =>
        dsimp only
        rw [Dict.get?_erase, if_neg fun hh => hk hh.symm]
  | del n =>
    dsimp only [step, Doc.stored, delAttr]
    by_cases hn : n = a
    · subst hn
      rw [hb]
      dsimp only
      rw [hbd]
      by_cases hl : n ∈ d.lasting
      · simp [hl]
      · simp only [hl, if_false, delItem, not_false_eq_true, and_self, if_true]
        cases hd : o.data.get? n with
        | none => simp [hd]
        | some v => simp [Dict.get?_erase]
    · rw [if_neg fun hh => hn hh.1]
      cases hf : findAttr c.attrs n with
      | none =>
        dsimp only
        cases o.fields.get? n <;> rfl
      | some e =>
        dsimp only
        cases hed : e.deleter with
        | none => rfl
        | some k =>
          have := (setter_ok hok hf).2.2 k hed
          subst this
          dsimp only [delItem]
          cases o.data.get? k with
          | none => rfl
          | some v =>
            dsimp only
            rw [Dict.get?_erase, if_neg fun hh => hn hh.symm]
  | set n v =>
    dsimp only [step, Doc.stored, setAttr]
    by_cases hn : n = a
    · subst hn
      rw [if_pos rfl, hb]
      dsimp only
      rw [hbs]
      by_cases hr : n ∈ d.readOnly
      · simp [hr]
      · simp only [hr, if_false]
        dsimp only [writeBase]
        rw [setItem_declared c o hb v]
        simp [Dict.get?_set]
    · rw [if_neg hn]
      cases hf : findAttr c.attrs n with
      | none =>
        have hv := vectors_declared hag hf
        have hp : d.part p a n v = none := by simp [Doc.part, hv]
        rw [hp]
        rfl
      | some e =>
        obtain ⟨s1, s2, _⟩ := setter_ok hok hf
        obtain ⟨a1, a2, a3⟩ := agrees_at hag hf
        dsimp only
        by_cases hvw : ∃ ns, e.setter = some (.view ns)
        · obtain ⟨ns, hns⟩ := hvw
          have hv : d.vectors.get? n = some ns := by
            by_cases hdn : n ∈ derived
            · exact absurd hns ((a1 hdn).2.1 ns)
            · cases hv : d.vectors.get? n with
              | none =>
                have := (a3 hdn hv).2.1
                rw [hns] at this
                split at this <;> simp at this
              | some ns' =>
                have := a2 hdn ns' hv
                rw [hns] at this
                simp only [Option.some.injEq, Setter.view.injEq] at this
                rw [this]
          obtain ⟨hnd, hset⟩ := s2 ns hns
          rw [hns]
          dsimp only
          cases hu : p.unpack v with
          | none => simp [Doc.part, hv, hu]
          | some l =>
            dsimp only
            by_cases hlen : l.length = ns.length
            · rw [if_pos hlen, (writeAll_data c p ns hnd hset l hlen o).2.1 a]
              simp [Doc.part, hv, hu, hlen]
            · rw [if_neg hlen]
              simp [Doc.part, hv, hu, hlen]
        · have hv : d.vectors.get? n = none := by
            by_cases hdn : n ∈ derived
            · exact (a1 hdn).2.2
            · cases hv : d.vectors.get? n with
              | none => rfl
              | some ns => exact absurd ⟨ns, a2 hdn ns hv⟩ hvw
          have hp : d.part p a n v = none := by simp [Doc.part, hv]
          rw [hp, Option.none_or]
          cases hs : e.setter with
          | none => rfl
          | some s =>
            cases s with
            | cell k =>
              have := s1 k hs
              subst this
              dsimp only [writeBase]
              rw [setItem_declared c o hf v]
              dsimp only
              rw [Dict.get?_set, if_neg fun hh => hn hh.symm]
            | view ns => exact absurd ⟨ns, hs⟩ hvw
            | vel i => rfl
            | field f => rfl
            | velAll =>
              dsimp only [writeBase]
              rcases p.unpack v with _ | _ | ⟨x, _ | ⟨y, _ | ⟨z, r⟩⟩⟩ <;> rfl

theorem run_stored (c : Cls) (p : Vals V) (d : Doc) (derived : List String) (hok : okTable c.attrs = true)
    (hag : Agrees c.attrs d derived = true) (a : String) (ha : Plain c.attrs d derived a) (o : Obj V) (x : Option V)
    (hx : seen p a (o.data.get? a) = seen p a x) (ops : List (Op V)) :
    seen p a ((run c p o ops).data.get? a) = seen p a (d.stored p a x ops) := by
  induction ops generalizing o x with
  | nil => exact hx
  | cons op t ih =>
    rw [stored_cons]
    refine ih _ _ ?_
    rw [step_stored c p d derived hok hag a ha o op]
    exact seen_stored d p a _ _ hx op

/-- Reading a plain attribute. -/
theorem getAttr_plain (c : Cls) (p : Vals V) (d : Doc) (derived : List String)
    (hag : Agrees c.attrs d derived = true) (a : String) (ha : Plain c.attrs d derived a) (o : Obj V) :
    (getAttr c p o a).1 = reading p a (o.data.get? a) := by
  obtain ⟨ha1, ha2, ha3⟩ := ha
  obtain ⟨b, hb⟩ := findAttr_of_mem ha1
  obtain ⟨hbg, _, _⟩ := (agrees_at hag hb).2.2 ha2 ha3
  simp only [getAttr, hb]
  rw [hbg]
  by_cases ht : a = "target_focused"
  · rw [if_pos ht]
    dsimp only [readBase]
    cases o.data.get? a <;> simp [reading, ht]
  · rw [if_neg ht]
    dsimp only [readBase, Obj.entry]
    cases o.data.get? a <;> simp [reading, ht]

end Dedop.Objects
