import Verif.Objects.Props
/-!
# What a program sees of surfaces and bursts (C110, C111)
-/
namespace Dedop.Objects
variable {V : Type}

/-- Entries given to a constructor, as operations. -/
def items (entries : List (String × V)) : List (Op V) := entries.map fun e => .setItem e.1 e.2

theorem run_append (c : Cls) (p : Vals V) (o : Obj V) (s t : List (Op V)) : run c p o (s ++ t) = run c p (run c p o s) t := by
  induction s generalizing o with
  | nil => rfl
  | cons op s ih => exact ih _

theorem setValues_run (c : Cls) (p : Vals V) (entries : List (String × V)) (o o' : Obj V) (h : setValues c o entries = .ok o') :
    o' = run c p o (items entries) := by
  induction entries generalizing o with
  | nil => cases h; rfl
  | cons e t ih =>
    obtain ⟨k, v⟩ := e
    simp only [setValues] at h
    generalize hs : setItem c o k v = r at h
    obtain ⟨r1, r2⟩ := r
    cases r1 with
    | error e => cases h
    | ok u =>
      have := ih r2 h
      simp only [items, List.map_cons, run, step, hs]
      exact this

/-- The values which a new surface has before any are given. -/
def surfaceFirst (p : Vals V) (null : V) (a : String) : Option V :=
  if a = "surface_type" then some null
  else if a ∈ ["stack_all_beams_indices", "stack_all_beams_indices_abs", "stack_all_bursts"] then some (p.pack [])
  else none

/-- **C110, surfaces.** Reading an attribute of a surface gives the value last stored in it, whatever else was stored, read or
deleted before. -/
theorem surface_attribute_holds_last_partial (extra : String → Bool) (p : Vals V) (null number : V)
    (entries : List (String × V)) (o : Obj V) (hnew : newSurface (surfaceClass extra) p null number entries = .ok o)
    (a : String) (ha : a ∈ surfaceAttrs.map (·.name)) (hder : a ∉ surfaceDerived) (hvec : surfaceDoc.vectors.get? a = none)
    (ops : List (Op V)) :
    (getAttr (surfaceClass extra) p (run (surfaceClass extra) p o ops) a).1 =
      reading p a (surfaceDoc.stored p a (surfaceFirst p null a) (items entries ++ ops)) := by
  have hpl : Plain (surfaceClass extra).attrs surfaceDoc surfaceDerived a := ⟨ha, hder, hvec⟩
  rw [getAttr_plain _ p surfaceDoc surfaceDerived surface_ok.2 a hpl, setValues_run _ p entries _ o hnew, ← run_append]
  refine reading_seen p a _ _ (run_stored _ p surfaceDoc surfaceDerived surface_ok.1 surface_ok.2 a hpl _ _ ?_ _)
  congr 1
  simp only [Dict.get?, surfaceFirst, List.mem_cons, List.not_mem_nil, or_false]
  by_cases h1 : a = "surface_type"
  · simp [h1]
  · by_cases h2 : a = "stack_all_beams_indices"
    · simp [h2]
    · by_cases h3 : a = "stack_all_beams_indices_abs"
      · simp [h3]
      · by_cases h4 : a = "stack_all_bursts" <;> simp [h1, h2, h3, h4]

/-- Making a surface fails exactly if a value is given for a name that the class does not have. -/
theorem new_surface_fails_iff (extra : String → Bool) (p : Vals V) (null number : V) (entries : List (String × V)) :
    (∃ e, newSurface (surfaceClass extra) p null number entries = .error e) ↔
      ∃ e ∈ entries, e.1 ∉ surfaceAttrs.map (·.name) ∧ e.1 ∉ surfaceMethods ∧ extra e.1 = false := by
  unfold newSurface
  generalize (Obj.mk _ _ _ _ : Obj V) = o0
  induction entries generalizing o0 with
  | nil => simp [setValues]
  | cons x t ih =>
    obtain ⟨k, v⟩ := x
    have hhas : (surfaceClass extra).has k = false ↔ k ∉ surfaceAttrs.map (·.name) ∧ k ∉ surfaceMethods ∧ extra k = false := by
      simp only [Cls.has, surfaceClass, Bool.or_eq_false_iff, decide_eq_false_iff_not, Option.isSome_eq_false_iff,
        Option.isNone_iff_eq_none]
      constructor
      · rintro ⟨h1, h2, h3⟩
        refine ⟨fun hm => ?_, h2, h3⟩
        obtain ⟨b, hb⟩ := findAttr_of_mem hm
        rw [h1] at hb; cases hb
      · rintro ⟨h1, h2, h3⟩
        refine ⟨?_, h2, h3⟩
        cases hf : findAttr surfaceAttrs k with
        | none => rfl
        | some b => exact absurd (List.mem_map.2 ⟨b, (findAttr_mem hf).1, (findAttr_mem hf).2⟩) h1
    simp only [setValues, setItem, List.mem_cons, exists_eq_or_imp]
    by_cases hk : (surfaceClass extra).has k = true
    · rw [if_pos hk]
      have : ¬ (k ∉ surfaceAttrs.map (·.name) ∧ k ∉ surfaceMethods ∧ extra k = false) := fun h => by
        rw [hhas.2 h] at hk; cases hk
      dsimp only
      rw [ih]
      exact ⟨Or.inr, fun h => h.elim (fun h => absurd h this) id⟩
    · rw [if_neg hk]
      exact ⟨fun _ => .inl (hhas.1 (by simpa using hk)), fun _ => ⟨_, rfl⟩⟩

/-! ## Vectors -/

/-- Reading attributes one after the other. -/
theorem readAll_cells (c : Cls) (p : Vals V) (ns : List String)
    (h : ∀ m ∈ ns, ∃ b, findAttr c.attrs m = some b ∧ b.getter = .cell m) (o : Obj V) :
    (readAll c p o ns).1 = ns.mapM fun a => (getAttr c p o a).1 := by
  induction ns with
  | nil => rfl
  | cons m t ih =>
    obtain ⟨b, hb, hg⟩ := h m (by simp)
    have hga : getAttr c p o m = (o.entry m, o) := by simp [getAttr, hb, hg, readBase]
    rw [List.mapM_cons, hga, ← ih fun m' hm' => h m' (by simp [hm'])]
    simp only [readAll, hb, hg, readBase]
    cases hentry : o.entry m with
    | error e => rfl
    | ok v =>
      dsimp only
      generalize readAll c p o t = r
      obtain ⟨r1, r2⟩ := r
      cases r1 <;> rfl

/-- A vector attribute reads as the tuple of the attributes it stands for, or raises the exception of the first that is
missing. -/
theorem vector_reads (c : Cls) (p : Vals V) (d : Doc) (derived : List String) (hok : okTable c.attrs = true)
    (hag : Agrees c.attrs d derived = true) (n : String) (ns : List String) (hder : n ∉ derived)
    (hn : d.vectors.get? n = some ns) (o : Obj V) :
    (getAttr c p o n).1 = (ns.mapM fun a => (getAttr c p o a).1).map p.pack := by
  cases hf : findAttr c.attrs n with
  | none => rw [vectors_declared hag hf] at hn; cases hn
  | some b =>
    have hs := (agrees_at hag hf).2.1 hder ns hn
    have hg : b.getter = .view ns := by
      obtain ⟨hm, _⟩ := okAttr_of hok hf
      simp only [okAttr, Bool.and_eq_true] at hm
      have := hm.1.2
      rw [hs] at this
      simp only [Bool.and_eq_true, decide_eq_true_eq] at this
      exact this.1.2
    rw [← readAll_cells c p ns ((getter_ok hok hf).2.2 ns (.inl hg)) o]
    simp only [getAttr, hf, hg]
    generalize readAll c p o ns = r
    obtain ⟨r1, r2⟩ := r
    cases r1 <;> rfl

theorem surface_vector_reads (extra : String → Bool) (p : Vals V) (n : String) (ns : List String)
    (hn : surfaceDoc.vectors.get? n = some ns) (o : Obj V) :
    (getAttr (surfaceClass extra) p o n).1 = (ns.mapM fun a => (getAttr (surfaceClass extra) p o a).1).map p.pack := by
  refine vector_reads _ p surfaceDoc surfaceDerived surface_ok.1 surface_ok.2 n ns (fun h => ?_) hn o
  have hd : ∀ n ∈ surfaceDerived, surfaceDoc.vectors.get? n = none := by decide +kernel
  rw [hd n h] at hn
  cases hn

theorem burst_vector_reads (extra : String → Bool) (p : Vals V) (n : String) (ns : List String)
    (hn : burstDoc.vectors.get? n = some ns) (o : Obj V) :
    (getAttr (burstClass extra) p o n).1 = (ns.mapM fun a => (getAttr (burstClass extra) p o a).1).map p.pack := by
  refine vector_reads _ p burstDoc burstDerived burst_ok.1 burst_ok.2 n ns (fun h => ?_) hn o
  have hd : ∀ n ∈ burstDerived, burstDoc.vectors.get? n = none := by decide +kernel
  rw [hd n h] at hn
  cases hn

/-! ## Bursts -/

theorem update_get (p : Vals V) (d : Doc) (a : String) (entries : List (String × V)) (x : Dict String V) :
    (update x entries).get? a = d.stored p a (x.get? a) (items entries) := by
  induction entries generalizing x with
  | nil => rfl
  | cons e t ih =>
    obtain ⟨k, v⟩ := e
    simp only [update, items, List.map_cons, Doc.stored]
    rw [ih, Dict.get?_set, items]
    congr 1
    by_cases h : k = a
    · simp [h]
    · rw [if_neg h, if_neg fun hh => h hh.symm]

theorem stored_erase (p : Vals V) (d : Doc) (a k : String) (h : a ≠ k) (entries : Dict String V) (x : Option V) :
    d.stored p a x (items (entries.erase k)) = d.stored p a x (items entries) := by
  induction entries generalizing x with
  | nil => rfl
  | cons e t ih =>
    obtain ⟨j, v⟩ := e
    simp only [Dict.erase]
    by_cases hj : k = j
    · subst hj
      rw [if_pos rfl, ih]
      simp only [items, List.map_cons, Doc.stored, if_neg fun hh : k = a => h hh.symm]
    · rw [if_neg hj]
      simp only [items, List.map_cons, Doc.stored]
      exact ih _

/-- **C110, bursts.** Reading an attribute of a burst, other than those of its velocity, gives the value last stored in it. -/
theorem burst_attribute_holds_last_partial (extra : String → Bool) (p : Vals V) (null number : V)
    (dicts : List (String × V)) (values : Dict String V)
    (a : String) (ha : a ∈ burstAttrs.map (·.name)) (hder : a ∉ burstDerived) (hvec : burstDoc.vectors.get? a = none)
    (ops : List (Op V)) :
    (getAttr (burstClass extra) p (run (burstClass extra) p (newBurst p null number dicts values) ops) a).1 =
      reading p a (burstDoc.stored p a (if a = "isp_pid" then some null else none) (items dicts ++ (items values ++ ops))) := by
  have hpl : Plain (burstClass extra).attrs burstDoc burstDerived a := ⟨ha, hder, hvec⟩
  rw [getAttr_plain _ p burstDoc burstDerived burst_ok.2 a hpl, stored_append, stored_append]
  refine reading_seen p a _ _ (run_stored _ p burstDoc burstDerived burst_ok.1 burst_ok.2 a hpl _ _ ?_ _)
  have hne : ∀ k ∈ burstDerived, a ≠ k := fun k hk he => hder (he ▸ hk)
  congr 1
  dsimp only [newBurst]
  rw [update_get p burstDoc a, stored_erase p burstDoc a _ (hne _ (by decide)), stored_erase p burstDoc a _ (hne _ (by decide)),
    stored_erase p burstDoc a _ (hne _ (by decide)), update_get p burstDoc a]
  rfl

/-- The names of the velocity components. -/
def velName (i : Fin 3) : String := if i = 0 then "x_vel_sat_sar" else if i = 1 then "y_vel_sat_sar" else "z_vel_sat_sar"

/-- The velocity component last stored, by the attribute of the component or by the attribute of the whole velocity. -/
def velStored (p : Vals V) (i : Fin 3) : V → List (Op V) → V
  | x, [] => x
  | x, .set n v :: t =>
    velStored p i (if n = velName i then v
      else if n = "vel_sat_sar" then (match p.unpack v with | some l => l[i.val]?.getD x | none => x) else x) t
  | x, _ :: t => velStored p i x t

/-- The setters that touch the velocity. -/
theorem velocity_setters : (∀ i, (findAttr burstAttrs (velName i)).bind (·.setter) = some (.vel i)) ∧
    (findAttr burstAttrs "vel_sat_sar").bind (·.setter) = some .velAll ∧
    (∀ b ∈ burstAttrs, ∀ i, b.setter = some (.vel i) → b.name = velName i) ∧
    (∀ b ∈ burstAttrs, b.setter = some .velAll → b.name = "vel_sat_sar") := by decide +kernel

/-- Assigning entries of the dictionary leaves the velocity. -/
theorem writeAll_vel (c : Cls) (p : Vals V) (hok : okTable c.attrs = true) {n : String} {b : Attr}
    (hf : findAttr c.attrs n = some b) (ns : List String) (hs : b.setter = some (.view ns)) (l : List V)
    (hl : l.length = ns.length) (o : Obj V) :
    (writeAll c p o (ns.zip l)).2.vel = o.vel ∧ (writeAll c p o (ns.zip l)).2.norm = o.norm := by
  obtain ⟨h1, h2⟩ := (setter_ok hok hf).2.1 ns hs
  obtain ⟨_, _, h3, h4, _⟩ := writeAll_data c p ns h1 h2 l hl o
  exact ⟨h3, h4⟩

theorem step_vel (extra : String → Bool) (p : Vals V) (i : Fin 3) (o : Obj V) (op : Op V) :
    (step (burstClass extra) p o op).2.vel i = velStored p i (o.vel i) [op] := by
  cases op with
  | get n =>
    dsimp only [step, velStored]
    rw [(getAttr_same (burstClass extra) p burst_ok.1 o n).2.2.1]
  | getItem k => rfl
  | setItem k v => dsimp only [step, velStored, setItem]; split <;> rfl
  | delItem k => dsimp only [step, velStored, delItem]; split <;> rfl
  | del n =>
    dsimp only [step, velStored, delAttr]
    split
    · split <;> rfl
    · split
      · rfl
      · dsimp only [delItem]; split <;> rfl
  | set n v =>
    dsimp only [step, velStored, setAttr]
    obtain ⟨q1, q2, q3, q4⟩ := velocity_setters
    cases hf : findAttr (burstClass extra).attrs n with
    | none =>
      have hn1 : n ≠ velName i := fun h => by
        have := q1 i
        rw [← h, show findAttr burstAttrs n = none from hf] at this
        cases this
      have hn2 : n ≠ "vel_sat_sar" := fun h => by
        rw [← h, show findAttr burstAttrs n = none from hf] at q2
        cases q2
      rw [if_neg hn1, if_neg hn2]
      rfl
    | some b =>
      obtain ⟨hbm, hbn⟩ := findAttr_mem hf
      have hbf : findAttr burstAttrs n = some b := hf
      dsimp only
      cases hs : b.setter with
      | none =>
        have hn1 : n ≠ velName i := fun h => by
          have := q1 i
          rw [← h, hbf, Option.bind_some, hs] at this
          cases this
        have hn2 : n ≠ "vel_sat_sar" := fun h => by
          rw [← h, hbf, Option.bind_some, hs] at q2
          cases q2
        rw [if_neg hn1, if_neg hn2]
      | some s =>
        have hn1 : s ≠ .vel i → n ≠ velName i := fun hne h => by
          have := q1 i
          rw [← h, hbf, Option.bind_some, hs] at this
          exact hne (by simpa using this)
        have hn2 : s ≠ .velAll → n ≠ "vel_sat_sar" := fun hne h => by
          rw [← h, hbf, Option.bind_some, hs] at q2
          exact hne (by simpa using q2)
        cases s with
        | cell k =>
          rw [if_neg (hn1 (by simp)), if_neg (hn2 (by simp))]
          dsimp only [writeBase, setItem]
          split <;> rfl
        | field f =>
          rw [if_neg (hn1 (by simp)), if_neg (hn2 (by simp))]
          rfl
        | view ns =>
          rw [if_neg (hn1 (by simp)), if_neg (hn2 (by simp))]
          dsimp only
          cases p.unpack v with
          | none => rfl
          | some l =>
            dsimp only
            split
            · rename_i hl
              rw [(writeAll_vel _ p burst_ok.1 hf ns hs l hl o).1]
            · rfl
        | vel j =>
          have hnj := hbn.symm.trans (q3 b hbm j hs)
          by_cases hij : j = i
          · subst hij
            rw [if_pos hnj]
            simp [writeBase, setVel]
          · rw [if_neg (hn1 (by simpa using hij)), if_neg (hn2 (by simp))]
            simp only [writeBase, setVel]
            rw [if_neg fun h => hij h.symm]
        | velAll =>
          have hnv := hbn.symm.trans (q4 b hbm hs)
          rw [if_neg (hn1 (by simp)), if_pos hnv]
          dsimp only [writeBase]
          rcases p.unpack v with _ | _ | ⟨x, _ | ⟨y, _ | ⟨z, r⟩⟩⟩ <;>
            (rcases i with ⟨_ | _ | _ | i, hi⟩ <;> first | omega | simp [setVel])

theorem velStored_cons (p : Vals V) (i : Fin 3) (x : V) (op : Op V) (t : List (Op V)) :
    velStored p i x (op :: t) = velStored p i (velStored p i x [op]) t := by
  cases op <;> rfl

theorem run_vel (extra : String → Bool) (p : Vals V) (i : Fin 3) (o : Obj V) (ops : List (Op V)) :
    (run (burstClass extra) p o ops).vel i = velStored p i (o.vel i) ops := by
  induction ops generalizing o with
  | nil => rfl
  | cons op t ih => rw [velStored_cons, ← step_vel extra p i o op]; exact ih _

theorem get_velName (extra : String → Bool) (p : Vals V) (i : Fin 3) (o : Obj V) :
    (getAttr (burstClass extra) p o (velName i)).1 = .ok (o.vel i) := by
  have h : ∀ i, (findAttr burstAttrs (velName i)).map (·.getter) = some (.vel i) := by decide +kernel
  have hi := h i
  cases hf : findAttr burstAttrs (velName i) with
  | none => rw [hf] at hi; cases hi
  | some b =>
    rw [hf] at hi
    simp only [Option.map_some, Option.some.injEq] at hi
    have hf' : findAttr (burstClass extra).attrs (velName i) = some b := hf
    simp [getAttr, hf', hi, readBase]

/-- **C110, velocity of a burst.** A velocity component is the one given as a keyword when the burst was made, 0 without one, or
the one last assigned to an attribute of the velocity; what is stored under its name as an item or in a dictionary does not
count. -/
theorem burst_velocity_holds_last (extra : String → Bool) (p : Vals V) (null number : V) (dicts : List (String × V))
    (values : Dict String V) (i : Fin 3) (ops : List (Op V)) :
    (getAttr (burstClass extra) p (run (burstClass extra) p (newBurst p null number dicts values) ops) (velName i)).1 =
      .ok (velStored p i ((values.get? (velName i)).getD p.zero) ops) := by
  rw [get_velName, run_vel]
  rfl

/-! ## The norm of the velocity -/

theorem norm_getter : (findAttr burstAttrs "vel_sat_sar_norm").map (·.getter) = some .norm ∧
    ∀ b ∈ burstAttrs, b.getter = .norm → b.name = "vel_sat_sar_norm" := by decide +kernel

/-- Reading the norm. -/
theorem get_norm (extra : String → Bool) (p : Vals V) (o : Obj V) :
    (getAttr (burstClass extra) p o "vel_sat_sar_norm").1 = .ok (o.norm.getD (p.norm (o.vel 0) (o.vel 1) (o.vel 2))) ∧
    (getAttr (burstClass extra) p o "vel_sat_sar_norm").2.norm =
      some (o.norm.getD (p.norm (o.vel 0) (o.vel 1) (o.vel 2))) := by
  have hi := norm_getter.1
  cases hf : findAttr burstAttrs "vel_sat_sar_norm" with
  | none => rw [hf] at hi; cases hi
  | some b =>
    rw [hf] at hi
    simp only [Option.map_some, Option.some.injEq] at hi
    have hf' : findAttr (burstClass extra).attrs "vel_sat_sar_norm" = some b := hf
    simp only [getAttr, hf', hi, readBase]
    cases hn : o.norm with
    | none => simp
    | some x => simp [hn]

/-- Only reading the norm touches the stored norm. -/
theorem step_norm (extra : String → Bool) (p : Vals V) (o : Obj V) (op : Op V) (h : op ≠ .get "vel_sat_sar_norm") :
    (step (burstClass extra) p o op).2.norm = o.norm := by
  cases op with
  | get n =>
    have hn : n ≠ "vel_sat_sar_norm" := fun hh => h (hh ▸ rfl)
    dsimp only [step]
    by_cases ht : n = "target_focused"
    · subst ht
      have : findAttr (burstClass extra).attrs "target_focused" = none := by
        change findAttr burstAttrs "target_focused" = none
        decide +kernel
      simp only [getAttr, this, readBase]
      split <;> rfl
    · rw [(getAttr_same (burstClass extra) p burst_ok.1 o n).1 ht hn fun a ha hg =>
        (findAttr_mem ha).2.symm.trans (norm_getter.2 a (findAttr_mem ha).1 hg)]
  | getItem k => rfl
  | setItem k v => dsimp only [step, setItem]; split <;> rfl
  | delItem k => dsimp only [step, delItem]; split <;> rfl
  | del n =>
    dsimp only [step, delAttr]
    split
    · split <;> rfl
    · split
      · rfl
      · dsimp only [delItem]; split <;> rfl
  | set n v =>
    dsimp only [step, setAttr]
    cases hf : findAttr (burstClass extra).attrs n with
    | none => rfl
    | some b =>
      dsimp only
      cases hs : b.setter with
      | none => rfl
      | some s =>
        cases s with
        | cell k => dsimp only [writeBase, setItem]; split <;> rfl
        | field f => rfl
        | vel j => rfl
        | velAll =>
          dsimp only [writeBase]
          rcases p.unpack v with _ | _ | ⟨x, _ | ⟨y, _ | ⟨z, r⟩⟩⟩ <;> rfl
        | view ns =>
          dsimp only
          cases p.unpack v with
          | none => rfl
          | some l =>
            dsimp only
            split
            · rename_i hl
              exact (writeAll_vel _ p burst_ok.1 hf ns hs l hl o).2
            · rfl

theorem run_norm (extra : String → Bool) (p : Vals V) (o : Obj V) (ops : List (Op V))
    (h : Op.get "vel_sat_sar_norm" ∉ ops) : (run (burstClass extra) p o ops).norm = o.norm := by
  induction ops generalizing o with
  | nil => rfl
  | cons op t ih =>
    simp only [List.mem_cons, not_or] at h
    exact (ih _ h.2).trans (step_norm extra p o op fun hh => h.1 hh.symm)

theorem run_norm_some (extra : String → Bool) (p : Vals V) (o : Obj V) (n : V) (hn : o.norm = some n) (ops : List (Op V)) :
    (run (burstClass extra) p o ops).norm = some n := by
  induction ops generalizing o with
  | nil => exact hn
  | cons op t ih =>
    refine ih _ ?_
    by_cases h : op = .get "vel_sat_sar_norm"
    · subst h
      dsimp only [step]
      rw [(get_norm extra p o).2, hn]
      rfl
    · rw [step_norm extra p o op h, hn]

/-- The velocity of a burst after a history. -/
def normOf (p : Vals V) (o : Obj V) (ops : List (Op V)) : V :=
  p.norm (velStored p 0 (o.vel 0) ops) (velStored p 1 (o.vel 1) ops) (velStored p 2 (o.vel 2) ops)

/-- The norm which a burst gives is the norm of the velocity it had when the norm was first read. -/
theorem norm_of_first_reading (extra : String → Bool) (p : Vals V) (null number : V) (dicts : List (String × V))
    (values : Dict String V) (before after : List (Op V)) (h : Op.get "vel_sat_sar_norm" ∉ before) :
    (getAttr (burstClass extra) p (run (burstClass extra) p (newBurst p null number dicts values) before)
        "vel_sat_sar_norm").1 = .ok (normOf p (newBurst p null number dicts values) before) ∧
    (getAttr (burstClass extra) p (run (burstClass extra) p (newBurst p null number dicts values)
        (before ++ .get "vel_sat_sar_norm" :: after)) "vel_sat_sar_norm").1 =
      .ok (normOf p (newBurst p null number dicts values) before) := by
  have h0 : (run (burstClass extra) p (newBurst p null number dicts values) before).norm = none :=
    run_norm extra p _ before h
  constructor
  · rw [(get_norm extra p _).1, h0, run_vel, run_vel, run_vel]
    rfl
  · rw [(get_norm extra p _).1, run_append]
    have : (run (burstClass extra) p (run (burstClass extra) p (newBurst p null number dicts values) before)
        (.get "vel_sat_sar_norm" :: after)).norm = some (normOf p (newBurst p null number dicts values) before) := by
      refine run_norm_some extra p _ _ ?_ after
      dsimp only [step]
      rw [(get_norm extra p _).2, h0, run_vel, run_vel, run_vel]
      rfl
    rw [this]
    rfl

/-! ## Reading changes nothing -/

/-- Reading an attribute other than the two computed on demand, or an item. -/
def isQuiet : Op V → Bool
  | .get n => n ≠ "target_focused" && n ≠ "vel_sat_sar_norm"
  | .getItem _ => true
  | _ => false

/-- Reading an attribute or an item. -/
def isRead : Op V → Bool
  | .get _ => true
  | .getItem _ => true
  | _ => false

theorem run_quiet (c : Cls) (p : Vals V) (hok : okTable c.attrs = true)
    (hn : ∀ n b, findAttr c.attrs n = some b → b.getter = .norm → n = "vel_sat_sar_norm") (o : Obj V) (ops : List (Op V)) :
    run c p o ops = run c p o (ops.filter fun op => !isQuiet op) := by
  induction ops generalizing o with
  | nil => rfl
  | cons op t ih =>
    by_cases hq : isQuiet op = true
    · rw [List.filter_cons_of_neg (by simp [hq]), ← ih]
      have : (step c p o op).2 = o := by
        cases op with
        | get n =>
          simp only [isQuiet, Bool.and_eq_true, decide_eq_true_eq] at hq
          exact (getAttr_same c p hok o n).1 hq.1 hq.2 (hn n)
        | getItem k => rfl
        | set n v => cases hq
        | setItem n v => cases hq
        | del n => cases hq
        | delItem n => cases hq
      simp only [run, this]
    · rw [List.filter_cons_of_pos (by simpa using hq)]
      exact ih _

/-- **C111.** Leaving out readings (other than of `target_focused` and of the norm of the velocity) from a history makes no
difference to a surface or a burst. -/
theorem reading_changes_nothing_partial (extra : String → Bool) (p : Vals V) (o : Obj V) (ops : List (Op V)) :
    run (surfaceClass extra) p o ops = run (surfaceClass extra) p o (ops.filter fun op => !isQuiet op) ∧
    run (burstClass extra) p o ops = run (burstClass extra) p o (ops.filter fun op => !isQuiet op) := by
  refine ⟨run_quiet _ p surface_ok.1 (fun n b h hg => ?_) o ops, run_quiet _ p burst_ok.1 (fun n b h hg => ?_) o ops⟩
  · have : ∀ b ∈ surfaceAttrs, b.getter ≠ .norm := by decide +kernel
    exact absurd hg (this b (findAttr_mem h).1)
  · exact (findAttr_mem h).2.symm.trans (norm_getter.2 b (findAttr_mem h).1 hg)

theorem stored_reads (d : Doc) (p : Vals V) (a : String) (x : Option V) (ops : List (Op V)) :
    d.stored p a x (ops.filter fun op => !isRead op) = d.stored p a x ops := by
  induction ops generalizing x with
  | nil => rfl
  | cons op t ih =>
    by_cases hr : isRead op = true
    · rw [List.filter_cons_of_neg (by simp [hr]), ih]
      cases op <;> first | rfl | cases hr
    · rw [List.filter_cons_of_pos (by simpa using hr), stored_cons, ih, ← stored_cons]

/-- No reading at all changes what a plain attribute of a surface gives. -/
theorem surface_readings_unseen (extra : String → Bool) (p : Vals V) (o : Obj V) (a : String)
    (ha : a ∈ surfaceAttrs.map (·.name)) (hder : a ∉ surfaceDerived) (hvec : surfaceDoc.vectors.get? a = none)
    (ops : List (Op V)) :
    (getAttr (surfaceClass extra) p (run (surfaceClass extra) p o ops) a).1 =
      (getAttr (surfaceClass extra) p (run (surfaceClass extra) p o (ops.filter fun op => !isRead op)) a).1 := by
  have hpl : Plain (surfaceClass extra).attrs surfaceDoc surfaceDerived a := ⟨ha, hder, hvec⟩
  have hr := fun l => run_stored (surfaceClass extra) p surfaceDoc surfaceDerived surface_ok.1 surface_ok.2 a hpl o _ rfl l
  rw [getAttr_plain _ p surfaceDoc surfaceDerived surface_ok.2 a hpl, getAttr_plain _ p surfaceDoc surfaceDerived surface_ok.2 a hpl]
  refine reading_seen p a _ _ ?_
  rw [hr, hr, stored_reads]

/-! ## Attributes that can never be read -/

/-- `h`, `cai` and `fai` of a burst raise an exception whatever was stored in it. -/
theorem never_readable (extra : String → Bool) (p : Vals V) (o : Obj V) (a : String) (ha : a ∈ ["h", "cai", "fai"]) :
    (getAttr (burstClass extra) p o a).1 = .error attributeError := by
  have h : ∀ a ∈ ["h", "cai", "fai"], (findAttr burstAttrs a).map (·.getter) = some .undeclared := by decide +kernel
  have hi := h a ha
  cases hf : findAttr burstAttrs a with
  | none => rw [hf] at hi; cases hi
  | some b =>
    rw [hf] at hi
    simp only [Option.map_some, Option.some.injEq] at hi
    have hf' : findAttr (burstClass extra).attrs a = some b := hf
    simp [getAttr, hf', hi, readBase]

end Dedop.Objects
