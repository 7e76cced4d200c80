import Verif.Writer.Schema
import Verif.Basic.Tactics
import Mathlib.Tactic.Linarith
/-!
# Properties of the record writer (C54, C68)
-/
namespace Dedop.Writer

variable {V : Type}

/-! ## Specification -/

/-- The value a record gives to a variable: that of its keyword, or nothing. -/
def given (rec : List (String × Value V)) (n : String) : Value V := (rec.lookup n).getD .missing

/-- What the cells of one record of a variable show for a value: `none` is the fill value. -/
def shown : Value V → Nat → Nat → Option V
  | .missing, _, _ => none
  | .scalar v, i, j => if i = 0 ∧ j = 0 then some v else none
  | .vector l, i, j => if i = 0 then l[j]? else none
  | .matrix n m f, i, j => if i < n ∧ j < m then some (f i j) else none

/-- The keywords of a Python call are distinct. -/
def Keywords (rec : List (String × Value V)) : Prop := (rec.map Prod.fst).Nodup

/-! ## One value -/

theorem writeVar_spec {name : String} {idx : Nat} {x : Value V} {var var' : Var V}
    (h : writeVar name idx x var = .ok var') (k i j : Nat) :
    var'.cells k i j = if k = idx ∧ (shown x i j).isSome then shown x i j else var.cells k i j := by
  cases x with
  | missing =>
    simp only [writeVar, Except.ok.injEq] at h
    subst h; simp [shown]
  | scalar v =>
    simp only [writeVar] at h
    split at h <;> try cases h
    split at h <;> try cases h
    split at h <;> try cases h
    simp only [setCells, shown, Nat.lt_one_iff]
    by_cases hk : k = idx <;> by_cases hi : i = 0 <;> by_cases hj : j = 0 <;> simp [hk, hi, hj]
  | vector l =>
    simp only [writeVar] at h
    split at h <;> try cases h
    split at h
    · split at h <;> try cases h
      simp only [shown]
      by_cases hk : k = idx <;> by_cases hi : i = 0 <;> by_cases hj : j < l.length <;> simp [hk, hi, hj]
    · split at h <;> cases h
  | matrix n m f =>
    simp only [writeVar] at h
    split at h
    · split at h <;> try cases h
      simp only [setCells, shown]
      by_cases hk : k = idx <;> by_cases hi : i < n <;> by_cases hj : j < m <;> simp [hk, hi, hj]
    · split at h <;> try cases h
      split at h <;> cases h

/-! ## One record -/

/-- Variables are neither added nor removed. -/
theorem writeValues_defined (idx : Nat) (rec : List (String × Value V)) : ∀ (s : Store V) (n : String),
    ((writeValues idx rec s).1 n).isSome = (s n).isSome := by
  induction rec with
  | nil => intro s n; rfl
  | cons p rest ih =>
    intro s n
    obtain ⟨m, x⟩ := p
    simp only [writeValues]
    split
    · rfl
    · rename_i var hv
      split
      · rfl
      · rename_i var' hw
        rw [ih]
        by_cases h : n = m
        · subst h; simp [hv]
        · simp [h]

/-- Cells of other records are left alone, also by a failing call. -/
theorem writeValues_frame (idx : Nat) (rec : List (String × Value V)) : ∀ (s : Store V) (n : String) (v v' : Var V),
    s n = some v → (writeValues idx rec s).1 n = some v' → ∀ k, k ≠ idx → v'.cells k = v.cells k := by
  induction rec with
  | nil =>
    intro s n v v' h h' k _
    rw [show (writeValues idx [] s).1 = s from rfl, h] at h'
    cases h'; rfl
  | cons p rest ih =>
    intro s n v v' h h' k hk
    obtain ⟨m, x⟩ := p
    simp only [writeValues] at h'
    split at h'
    · simp only [h, Option.some.injEq] at h'; subst h'; rfl
    · rename_i var hv
      split at h'
      · simp only [h, Option.some.injEq] at h'; subst h'; rfl
      · rename_i var' hw
        by_cases hn : n = m
        · subst hn
          rw [hv] at h; cases h
          have := ih _ n var' v' (by simp) h' k hk
          rw [this]
          funext i j
          rw [writeVar_spec hw]
          simp [hk]
        · exact ih _ n v v' (by simp [hn, h]) h' k hk

/-- A name that is not a keyword is left alone. -/
theorem writeValues_other (idx : Nat) (rec : List (String × Value V)) : ∀ (s : Store V) (n : String),
    n ∉ rec.map Prod.fst → (writeValues idx rec s).1 n = s n := by
  induction rec with
  | nil => intro s n _; rfl
  | cons p rest ih =>
    intro s n h
    obtain ⟨m, x⟩ := p
    simp only [List.map_cons, List.mem_cons, not_or] at h
    simp only [writeValues]
    split
    · rfl
    · split
      · rfl
      · rw [ih _ _ h.2]; simp [h.1]

theorem given_cons (m : String) (x : Value V) (rest : List (String × Value V)) (n : String) :
    given ((m, x) :: rest) n = if n = m then x else given rest n := by
  unfold given
  rw [List.lookup_cons]
  by_cases h : n = m
  · subst h; simp
  · have : (n == m) = false := by simpa using h
    simp [this, h]

theorem given_absent (rec : List (String × Value V)) (n : String) (h : n ∉ rec.map Prod.fst) :
    given rec n = .missing := by
  unfold given
  have : rec.lookup n = none := by
    rw [List.lookup_eq_none_iff]
    intro p hp
    have : n ≠ p.1 := fun e => h (by rw [e]; exact List.mem_map_of_mem hp)
    simpa using this
  rw [this]; rfl

/-- After a call without exception the record shows the given values, over what was there before. -/
theorem writeValues_spec (idx : Nat) (rec : List (String × Value V)) : ∀ (s : Store V), Keywords rec →
    (writeValues idx rec s).2 = none → ∀ (n : String) (v v' : Var V),
    s n = some v → (writeValues idx rec s).1 n = some v' → ∀ i j,
    v'.cells idx i j = if (shown (given rec n) i j).isSome then shown (given rec n) i j else v.cells idx i j := by
  induction rec with
  | nil =>
    intro s _ _ n v v' h h' i j
    rw [show (writeValues idx [] s).1 = s from rfl, h] at h'
    cases h'
    simp [given, shown]
  | cons p rest ih =>
    intro s hk he n v v' h h' i j
    obtain ⟨m, x⟩ := p
    have hk' : Keywords rest := (List.nodup_cons.mp hk).2
    have hm : m ∉ rest.map Prod.fst := (List.nodup_cons.mp hk).1
    simp only [writeValues] at h' he
    split at h'
    · rename_i hv; simp [hv] at he
    · rename_i var hv
      simp only [hv] at he
      split at h'
      · rename_i e hw; simp [hw] at he
      · rename_i var' hw
        simp only [hw] at he
        rw [given_cons]
        by_cases hn : n = m
        · subst hn
          rw [hv] at h; cases h
          rw [writeValues_other _ _ _ _ hm] at h'
          simp only [if_true] at h'
          cases h'
          rw [writeVar_spec hw]
          simp
        · rw [if_neg hn]
          exact ih _ hk' he n v v' (by simp [hn, h]) h' i j

/-! ## Whole histories -/

/-- The records written without exception, in order. -/
def accepted : List (List (String × Value V)) → List (Option Err) → List (List (String × Value V))
  | r :: rs, none :: os => r :: accepted rs os
  | _ :: rs, some _ :: os => accepted rs os
  | _, _ => []

/-- After `w.index` further records the cells are `none`; `good` says that before it the accepted records show. -/
theorem writeAll_spec (recs : List (List (String × Value V))) : ∀ (w : Writer V),
    (∀ r ∈ recs, Keywords r) →
    let p := writeAll w recs
    p.1.index = w.index + (accepted recs p.2).length ∧
    ∀ (n : String) (v v' : Var V), w.store n = some v → p.1.store n = some v' →
      (∀ k < w.index, v'.cells k = v.cells k) ∧
      (∀ k i j, p.1.index < k → v'.cells k i j = v.cells k i j) ∧
      ∀ (m : Nat) (r : List (String × Value V)), (accepted recs p.2)[m]? = some r → ∀ i j,
        ((shown (given r n) i j).isSome → v'.cells (w.index + m) i j = shown (given r n) i j) := by
  induction recs with
  | nil =>
    intro w _
    refine ⟨by simp [writeAll, accepted], ?_⟩
    intro n v v' h h'
    simp only [writeAll] at h'
    rw [h] at h'; cases h'
    exact ⟨fun _ _ => rfl, fun _ _ _ _ => rfl, by simp [writeAll, accepted]⟩
  | cons r rs ih =>
    intro w hk
    have hr := hk r List.mem_cons_self
    have ih' := ih (writeRecord w r).1 (fun q hq => hk q (List.mem_cons_of_mem _ hq))
    simp only at ih'
    obtain ⟨hi, hs⟩ := ih'
    rcases hw : writeValues w.index r w.store with ⟨s, o⟩
    have hs1 : s = (writeValues w.index r w.store).1 := by rw [hw]
    cases o with
    | none =>
      have hrec : writeRecord w r = (⟨s, w.index + 1⟩, none) := by simp [writeRecord, hw]
      rw [hrec] at hi hs
      simp only at hi hs
      have hall : writeAll w (r :: rs) = ((writeAll ⟨s, w.index + 1⟩ rs).1, none :: (writeAll ⟨s, w.index + 1⟩ rs).2) := by
        simp [writeAll, hrec]
      simp only [hall, accepted, List.length_cons]
      refine ⟨by omega, ?_⟩
      intro n v v' h h'
      obtain ⟨vm, hvm⟩ : ∃ vm, s n = some vm := by
        have := writeValues_defined w.index r w.store n
        rw [← hs1, h] at this
        exact Option.isSome_iff_exists.mp this
      obtain ⟨h1, h2, h3⟩ := hs n vm v' hvm h'
      have hf := writeValues_frame w.index r w.store n v vm h (by rw [← hs1]; exact hvm)
      have hsp := writeValues_spec w.index r w.store hr (by rw [hw]) n v vm h (by rw [← hs1]; exact hvm)
      refine ⟨fun k hk => ?_, fun k i j hk => ?_, ?_⟩
      · rw [h1 k (by omega), hf k (by omega)]
      · rw [h2 k i j hk, hf k (by omega)]
      · intro m q hm i j hsome
        cases m with
        | zero =>
          simp only [List.getElem?_cons_zero, Option.some.injEq] at hm
          subst hm
          rw [Nat.add_zero, h1 _ (by omega), hsp, if_pos hsome]
        | succ m =>
          rw [List.getElem?_cons_succ] at hm
          have := h3 m q hm i j hsome
          rw [← this]; congr 1; omega
    | some e =>
      have hrec : writeRecord w r = (⟨s, w.index⟩, some e) := by simp [writeRecord, hw]
      rw [hrec] at hi hs
      simp only at hi hs
      have hall : writeAll w (r :: rs) = ((writeAll ⟨s, w.index⟩ rs).1, some e :: (writeAll ⟨s, w.index⟩ rs).2) := by
        simp [writeAll, hrec]
      simp only [hall, accepted]
      refine ⟨hi, ?_⟩
      intro n v v' h h'
      obtain ⟨vm, hvm⟩ : ∃ vm, s n = some vm := by
        have := writeValues_defined w.index r w.store n
        rw [← hs1, h] at this
        exact Option.isSome_iff_exists.mp this
      obtain ⟨h1, h2, h3⟩ := hs n vm v' hvm h'
      have hf := writeValues_frame w.index r w.store n v vm h (by rw [← hs1]; exact hvm)
      refine ⟨fun k hk => ?_, fun k i j hk => ?_, h3⟩
      · rw [h1 k hk, hf k (by omega)]
      · rw [h2 k i j hk, hf k (by omega)]

/-- Every value of a call that raised no exception is in the file at the index given by the number of such calls before it,
whatever the other calls did; the record index is the number of such calls. -/
theorem values_land (size : Dim → Nat) (schema : Schema) (recs : List (List (String × Value V)))
    (hk : ∀ r ∈ recs, Keywords r) :
    let p := writeAll (openWriter size schema) recs
    p.1.index = (accepted recs p.2).length ∧
    ∀ (n : String) (var : Var V), p.1.store n = some var →
    ∀ (m : Nat) (r : List (String × Value V)), (accepted recs p.2)[m]? = some r → ∀ i j v,
      shown (given r n) i j = some v → var.cells m i j = some v := by
  have h := writeAll_spec recs (openWriter size schema) hk
  simp only [openWriter] at h ⊢
  refine ⟨by simpa using h.1, ?_⟩
  intro n var hvar m r hm i j v hs
  cases hl : schema.lookup n with
  | none =>
    exfalso
    have hdef : ∀ (rs : List (List (String × Value V))) (w : Writer V), w.store n = none → (writeAll w rs).1.store n = none := by
      intro rs
      induction rs with
      | nil => intro w hw; exact hw
      | cons r rs ih =>
        intro w hw
        refine ih _ ?_
        have := writeValues_defined w.index r w.store n
        rw [hw] at this
        have e : (writeRecord w r).1.store = (writeValues w.index r w.store).1 := by
          unfold writeRecord
          rcases writeValues w.index r w.store with ⟨s, _ | e⟩ <;> rfl
        rw [e]
        simpa using this
    have := hdef recs (openWriter size schema) (by simp [openWriter, hl])
    simp only [openWriter] at this
    rw [this] at hvar; cases hvar
  | some ds =>
    have h2 := (h.2 n _ var (by rw [hl]; rfl) hvar).2.2 m r hm i j (by rw [hs]; rfl)
    rw [Nat.zero_add, hs] at h2
    exact h2

/-- **C54**, the part that holds.  When no call raised an exception the file shows, at the index of each call, exactly the
values given in that call: missing values, and cells beyond a shorter array, keep the fill value. -/
theorem records_land_partial (size : Dim → Nat) (schema : Schema) (recs : List (List (String × Value V)))
    (hk : ∀ r ∈ recs, Keywords r) :
    let p := writeAll (openWriter size schema) recs
    (∀ o ∈ p.2, o = none) →
    p.1.index = recs.length ∧
    ∀ (n : String) (var : Var V), p.1.store n = some var → ∀ k i j,
      var.cells k i j = match recs[k]? with
        | some r => shown (given r n) i j
        | none => none := by
  suffices H : ∀ (recs : List (List (String × Value V))) (w : Writer V), (∀ r ∈ recs, Keywords r) →
      (∀ o ∈ (writeAll w recs).2, o = none) →
      (writeAll w recs).1.index = w.index + recs.length ∧
      ∀ (n : String) (v : Var V), (writeAll w recs).1.store n = some v → ∃ v0, w.store n = some v0 ∧
        ∀ k i j, (w.index ≤ k → v0.cells k i j = none) → v.cells k i j =
          if k < w.index then v0.cells k i j else match recs[k - w.index]? with
          | some r => shown (given r n) i j
          | none => none by
    intro p hp
    obtain ⟨h1, h2⟩ := H recs (openWriter size schema) hk hp
    refine ⟨by rw [h1]; exact Nat.zero_add _, fun n var hvar k i j => ?_⟩
    obtain ⟨v0, h0, h3⟩ := h2 n var hvar
    have hn : v0.cells k i j = none := by
      simp only [openWriter] at h0
      cases hl : schema.lookup n with
      | none => simp [hl] at h0
      | some ds => simp only [hl, Option.map_some, Option.some.injEq] at h0; subst h0; rfl
    have := h3 k i j (fun _ => hn)
    simpa [openWriter] using this
  intro recs
  induction recs with
  | nil =>
    intro w _ _
    refine ⟨by simp [writeAll], fun n v h => ⟨v, h, fun k i j hn => ?_⟩⟩
    by_cases hk : k < w.index
    · simp [hk]
    · simp [hk, hn (by omega)]
  | cons r rs ih =>
    intro w hk ho
    simp only [writeAll] at ho ⊢
    have hnone : (writeRecord w r).2 = none := ho _ List.mem_cons_self
    have hr := hk r List.mem_cons_self
    rcases hw : writeValues w.index r w.store with ⟨s, o⟩
    have hs1 : s = (writeValues w.index r w.store).1 := by rw [hw]
    cases o with
    | some e => simp [writeRecord, hw] at hnone
    | none =>
      have hrec : writeRecord w r = (⟨s, w.index + 1⟩, none) := by simp [writeRecord, hw]
      rw [hrec] at ho ⊢
      obtain ⟨h1, h2⟩ := ih ⟨s, w.index + 1⟩ (fun q hq => hk q (List.mem_cons_of_mem _ hq))
        (fun o ho' => ho o (List.mem_cons_of_mem _ ho'))
      refine ⟨by simp only [h1, List.length_cons]; omega, fun n v hv => ?_⟩
      obtain ⟨vm, hvm, h3⟩ := h2 n v hv
      simp only at hvm h3
      obtain ⟨v0, hv0⟩ : ∃ v0, w.store n = some v0 := by
        have := writeValues_defined w.index r w.store n
        rw [← hs1, hvm] at this
        exact Option.isSome_iff_exists.mp this.symm
      have hf := writeValues_frame w.index r w.store n v0 vm hv0 (by rw [← hs1]; exact hvm)
      have hsp := writeValues_spec w.index r w.store hr (by rw [hw]) n v0 vm hv0 (by rw [← hs1]; exact hvm)
      refine ⟨v0, hv0, fun k i j hn => ?_⟩
      rcases lt_trichotomy k w.index with hlt | heq | hgt
      · rw [h3 k i j (fun h => by omega), if_pos (by omega), if_pos hlt, hf k (by omega)]
      · subst heq
        rw [h3 _ i j (fun h => by omega), if_pos (by omega), if_neg (by omega), hsp]
        simp only [Nat.sub_self, List.getElem?_cons_zero]
        split
        · rfl
        · rename_i hns
          rw [hn (le_refl _)]
          cases hsh : shown (given r n) i j with
          | none => rfl
          | some x => simp [hsh] at hns
      · rw [h3 k i j (fun h => by rw [hf k (by omega)]; exact hn (by omega)), if_neg (by omega), if_neg (by omega)]
        rw [show k - w.index = (k - (w.index + 1)) + 1 by omega, List.getElem?_cons_succ]

/-- A failing call advances nothing and touches no other record. -/
theorem failed_call (w w' : Writer V) (rec : List (String × Value V)) (e : Err) (h : writeRecord w rec = (w', some e)) :
    w'.index = w.index ∧ ∀ (n : String) (v v' : Var V), w.store n = some v → w'.store n = some v' →
      ∀ k, k ≠ w.index → v'.cells k = v.cells k := by
  unfold writeRecord at h
  rcases hw : writeValues w.index rec w.store with ⟨s, _ | e'⟩
  · simp [hw] at h
  · simp only [hw, Prod.mk.injEq, Option.some.injEq] at h
    obtain ⟨rfl, _⟩ := h
    refine ⟨rfl, fun n v v' hv hv' => ?_⟩
    exact writeValues_frame w.index rec w.store n v v' hv (by rw [hw]; exact hv')

/-! Two variables, one record with and one without a value for the second. -/

/-- A file with one variable per record and one variable with two looks per record. -/
def exSchema : Schema := [("a", []), ("b", [.looks])]

/-- Sizes of the dimensions, for the examples. -/
def exSize : Dim → Nat
  | .looks => 2
  | .samples => 4

/-- Records, for the examples. -/
def exRecords : List (List (String × Value ℤ)) :=
  [[("a", .scalar 1), ("b", .vector [5, 6])], [("b", .vector [7]), ("a", .missing)], [("a", .scalar 3)]]

example : (∀ r ∈ exRecords, Keywords r) ∧ (∀ o ∈ (writeAll (openWriter exSize exSchema) exRecords).2, o = none) ∧
    ((writeAll (openWriter exSize exSchema) exRecords).1.store "b").map (fun v => (v.cells 1 0 0, v.cells 1 0 1, v.cells 2 0 0)) =
      some (some 7, none, none) := by
  refine ⟨?_, by decide +kernel, by decide +kernel⟩
  unfold exRecords Keywords
  decide +kernel

/-- **C54 is violated** after an exception: the call that failed has already written the variables before the failing one, and
a later record without a value for them shows the rejected value instead of the fill value. -/
theorem records_land_violated : ∃ (size : Dim → Nat) (schema : Schema) (recs : List (List (String × Value ℤ))),
    (∀ r ∈ recs, Keywords r) ∧
    let p := writeAll (openWriter size schema) recs
    p.2 = [some (.write "b" 0), none] ∧ p.1.index = 1 ∧
    (accepted recs p.2)[0]? = some [("a", .missing), ("b", .vector [5])] ∧
    (p.1.store "a").map (fun v => v.cells 0 0 0) = some (some 9) := by
  refine ⟨exSize, exSchema, [[("a", .scalar 9), ("b", .vector [1, 2, 3])], [("a", .missing), ("b", .vector [5])]], ?_, ?_, ?_, ?_, ?_⟩
  · unfold Keywords; decide +kernel
  · decide +kernel
  · decide +kernel
  · rfl
  · decide +kernel

/-! ## The shipped writers accept every record of the processor -/

/-- A value of a shape, for given dimensions: arrays have at most the size of the dimension. -/
def Value.Fits (size : Dim → Nat) : Value V → Shape → Prop
  | .missing, .missing => True
  | .scalar _, .scalar => True
  | .missing, .scalar => True
  | .vector l, .vector d => l.length ≤ size d
  | .matrix n m _, .matrix d e => n ≤ size d ∧ m ≤ size e
  | _, _ => False

/-- A record has the names of a list of shapes, with values of these shapes. -/
def Shaped (size : Dim → Nat) (rec : List (String × Value V)) (shapes : List (String × Shape)) : Prop :=
  List.Forall₂ (fun a b => a.1 = b.1 ∧ a.2.Fits size b.2) rec shapes

/-- A schema has the variable for each shape, with the dimensions of the shape. -/
def covers (schema : Schema) (shapes : List (String × Shape)) : Bool :=
  shapes.all fun p => match schema.lookup p.1, p.2 with
    | some _, .missing => true
    | some [], .scalar => true
    | some [d], .vector d' => d = d'
    | some [d, e], .matrix d' e' => d = d' && e = e'
    | _, _ => false

/-- The dimensions of a variable are those of its definition. -/
def SizesKept (size : Dim → Nat) (schema : Schema) (s : Store V) : Prop :=
  ∀ n ds, schema.lookup n = some ds → ∃ v, s n = some v ∧ v.ndims = ds.length + 1 ∧
    v.dim1 = (ds[0]?.map size).getD 0 ∧ v.dim2 = (ds[1]?.map size).getD 0

theorem writeVar_dims {name : String} {idx : Nat} {x : Value V} {var var' : Var V} (h : writeVar name idx x var = .ok var') :
    var'.ndims = var.ndims ∧ var'.dim1 = var.dim1 ∧ var'.dim2 = var.dim2 := by
  cases x <;> simp only [writeVar] at h <;> repeat' split at h
  all_goals first | (cases h; exact ⟨rfl, rfl, rfl⟩) | cases h

theorem SizesKept.update {size : Dim → Nat} {schema : Schema} {s : Store V} (h : SizesKept size schema s) {n : String}
    {v v' : Var V} (hv : s n = some v) (hd : v'.ndims = v.ndims ∧ v'.dim1 = v.dim1 ∧ v'.dim2 = v.dim2) :
    SizesKept size schema (fun k => if k = n then some v' else s k) := by
  intro m ds hm
  obtain ⟨u, hu, h1, h2, h3⟩ := h m ds hm
  by_cases e : m = n
  · subst e
    rw [hv] at hu; cases hu
    exact ⟨v', by simp, by rw [hd.1, h1], by rw [hd.2.1, h2], by rw [hd.2.2, h3]⟩
  · exact ⟨u, by simp [e, hu], h1, h2, h3⟩

theorem writeValues_ok (size : Dim → Nat) (schema : Schema) (idx : Nat) (shapes : List (String × Shape))
    (hc : covers schema shapes = true) : ∀ (rec : List (String × Value V)) (s : Store V), SizesKept size schema s →
    Shaped size rec shapes → (writeValues idx rec s).2 = none ∧ SizesKept size schema (writeValues idx rec s).1 := by
  induction shapes with
  | nil =>
    intro rec s hs h
    cases h
    exact ⟨rfl, hs⟩
  | cons q shapes ih =>
    intro rec s hs h
    obtain ⟨n, sh⟩ := q
    cases h with
    | cons h1 h2 =>
      rename_i a rest
      obtain ⟨m, x⟩ := a
      obtain ⟨rfl, hfit⟩ := h1
      simp only [covers, List.all_cons, Bool.and_eq_true] at hc
      obtain ⟨hc1, hc2⟩ := hc
      simp only at hc1 hfit
      cases hl : schema.lookup m with
      | none => simp [hl] at hc1
      | some ds =>
        obtain ⟨v, hv, hn, hd1, hd2⟩ := hs m ds hl
        have hw : ∃ v', writeVar m idx x v = .ok v' := by
          simp only [hl] at hc1
          rcases sh with _ | _ | d | ⟨d, e⟩
          · cases x <;> simp [Value.Fits] at hfit
            exact ⟨v, rfl⟩
          · rcases ds with _ | ⟨d1, _ | ⟨d2, _⟩⟩ <;> simp at hc1
            cases x <;> simp [Value.Fits] at hfit
            · exact ⟨v, rfl⟩
            · simp [writeVar, hn]
          · rcases ds with _ | ⟨d1, _ | ⟨d2, _⟩⟩ <;> simp at hc1
            subst hc1
            cases x <;> simp [Value.Fits] at hfit
            simp only [List.getElem?_cons_zero, Option.map_some, Option.getD_some] at hd1
            simp [writeVar, hn, hd1, hfit]
          · rcases ds with _ | ⟨d1, _ | ⟨d2, _ | ⟨d3, _⟩⟩⟩ <;> simp at hc1
            obtain ⟨rfl, rfl⟩ := hc1
            cases x <;> simp [Value.Fits] at hfit
            simp only [List.getElem?_cons_zero, List.getElem?_cons_succ, Option.map_some, Option.getD_some] at hd1 hd2
            simp [writeVar, hn, hd1, hd2, hfit]
        obtain ⟨v', hw⟩ := hw
        simp only [writeValues, hv, hw]
        exact ih hc2 rest _ (hs.update hv (writeVar_dims hw)) h2

theorem open_sizes (size : Dim → Nat) (schema : Schema) : SizesKept size schema (openWriter size schema : Writer V).store := by
  intro n ds h
  exact ⟨_, by simp only [openWriter, h, Option.map_some]; rfl, rfl, rfl, rfl⟩

theorem all_accepted (size : Dim → Nat) (schema : Schema) (shapes : List (String × Shape))
    (hc : covers schema shapes = true) (recs : List (List (String × Value V))) : ∀ (w : Writer V),
    SizesKept size schema w.store → (∀ r ∈ recs, Shaped size r shapes) → ∀ o ∈ (writeAll w recs).2, o = none := by
  induction recs with
  | nil => intro w _ _ o ho; simp [writeAll] at ho
  | cons r rs ih =>
    intro w hs hr o ho
    obtain ⟨h1, h2⟩ := writeValues_ok size schema w.index shapes hc r w.store hs (hr r List.mem_cons_self)
    rcases hw : writeValues w.index r w.store with ⟨s, o'⟩
    rw [hw] at h1 h2
    simp only at h1 h2
    subst h1
    have hrec : writeRecord w r = (⟨s, w.index + 1⟩, none) := by simp [writeRecord, hw]
    simp only [writeAll, hrec, List.mem_cons] at ho
    rcases ho with rfl | ho
    · rfl
    · exact ih ⟨s, w.index + 1⟩ h2 (fun q hq => hr q (List.mem_cons_of_mem _ hq)) o ho

theorem shaped_names {size : Dim → Nat} {rec : List (String × Value V)} {shapes : List (String × Shape)}
    (h : Shaped size rec shapes) : rec.map Prod.fst = shapes.map Prod.fst := by
  induction h with
  | nil => rfl
  | cons h _ ih => simp [h.1, ih]

/-- **C68.**  Each of the three writers accepts every record the processor hands to it, for every size of the stack and of the
echoes, and the file then shows the values of the records at their indices. -/
theorem writers_accept (size : Dim → Nat) (schema : Schema) (shapes : List (String × Shape))
    (hw : (schema, shapes) = (extendedSchema, extendedRecord) ∨ (schema, shapes) = (s3Schema, s3Record) ∨
      (schema, shapes) = (l1bsSchema, l1bsRecord))
    (recs : List (List (String × Value V))) (hr : ∀ r ∈ recs, Shaped size r shapes) :
    let p := writeAll (openWriter size schema) recs
    (∀ o ∈ p.2, o = none) ∧ p.1.index = recs.length ∧
    ∀ (n : String) (var : Var V), p.1.store n = some var → ∀ k i j,
      var.cells k i j = match recs[k]? with
        | some r => shown (given r n) i j
        | none => none := by
  have hc : covers schema shapes = true ∧ (shapes.map Prod.fst).Nodup := by
    rcases hw with hw | hw | hw <;> simp only [Prod.mk.injEq] at hw <;> obtain ⟨rfl, rfl⟩ := hw <;>
      constructor <;> decide +kernel
  have h := all_accepted size schema shapes hc.1 recs (openWriter size schema) (open_sizes size schema) hr
  refine ⟨h, records_land_partial size schema recs (fun r hr' => ?_) h⟩
  unfold Keywords
  rw [shaped_names (hr r hr')]
  exact hc.2

/-- The variables that no record ever fills. -/
theorem never_written :
    (extendedSchema.map Prod.fst).filter (· ∉ extendedRecord.map Prod.fst) =
      ["time_time_corr_val_l1b_echo_sar_ku", "isp_time_status_echo_sar_ku"] ∧
    (s3Schema.map Prod.fst).filter (· ∉ s3Record.map Prod.fst) =
      ["time_time_corr_val_l1b_echo_sar_ku", "isp_time_status_echo_sar_ku"] ∧
    (l1bsSchema.map Prod.fst).filter (· ∉ l1bsRecord.map Prod.fst) = ["power_var_stack_l1bs_echo_sar_ku"] := by
  refine ⟨?_, ?_, ?_⟩ <;> decide +kernel

/-- A record of zeros of the full size. -/
def zeroRecord (size : Dim → Nat) (shapes : List (String × Shape)) : List (String × Value ℤ) :=
  shapes.map fun p => (p.1, match p.2 with
    | .missing => .missing
    | .scalar => .scalar 0
    | .vector d => .vector (List.replicate (size d) 0)
    | .matrix d e => .matrix (size d) (size e) fun _ _ => 0)

example (size : Dim → Nat) (shapes : List (String × Shape)) : Shaped size (zeroRecord size shapes) shapes := by
  unfold Shaped zeroRecord
  induction shapes with
  | nil => exact .nil
  | cons p l ih =>
    refine .cons ⟨rfl, ?_⟩ ih
    rcases p with ⟨n, _ | _ | d | ⟨d, e⟩⟩ <;> simp [Value.Fits]

end Dedop.Writer
