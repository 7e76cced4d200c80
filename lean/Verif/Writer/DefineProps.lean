import Verif.Writer.Defs
import Verif.Writer.Schema
import Verif.Basic.Tactics
/-!
# What is in an output file after `open` (C113)
-/
namespace Dedop.Writer

/-! ## Specification -/

/-- The attribute which a declared value stands for in the file: texts as they are, lists of texts separated by spaces. -/
def inFile : Att → NcAtt
  | .str s => .bytes s
  | .strs l => .bytes (" ".intercalate l)
  | .ints l => .ints l
  | .num x => .num x
  | _ => .bytes ""

/-- The fill value of a declaration. -/
def declaredFill (d : VarDef) : Option ℚ :=
  match d.attrs.lookup "fill_value" with
  | some (.num x) => some x
  | _ => none

/-- The variable which a declaration asks for: name, type, dimensions, fill value; all other attributes, in the order of the
declaration with the long name last. -/
def declared (d : VarDef) : NcVar where
  name := d.name
  type := d.type
  dims := d.dims
  fill := declaredFill d
  attrs := (d.attrs.filter fun p => p.1 ≠ "long_name" ∧ p.1 ≠ "fill_value").map (fun p => (p.1, inFile p.2)) ++
    [("long_name", inFile ((d.attrs.lookup "long_name").getD .none))]

/-- The properties of a declaration: the fill value only. -/
def fillProps (d : VarDef) : Dict String Att :=
  match d.attrs.lookup "fill_value" with
  | some a => [("fill_value", a)]
  | none => []

/-- A value which can be stored as an attribute. -/
def storable : Att → Bool
  | .none => false
  | .mixed => false
  | _ => true

/-- A fill value is a number of the type of the variable. -/
def fillFits (d : VarDef) : Bool :=
  match d.attrs.lookup "fill_value" with
  | none => true
  | some (.num x) =>
    match d.type.range with
    | none => true
    | some (lo, hi) => decide ((lo : ℚ) ≤ x ∧ x ≤ hi ∧ x = ⌊x⌋)
  | _ => false

/-- A declaration with defined dimensions, a long name, attributes under different and unreserved names that can be stored, apart
from the fill value. -/
def wellFormed (dims : List String) (d : VarDef) : Bool :=
  decide (d.attrs.map Prod.fst).Nodup &&
  (d.attrs.map Prod.fst).all (fun k => k ≠ "data_type" ∧ k ≠ "dimensions" ∧ k ≠ "name" ∧ k ≠ "properties") &&
  d.attrs.all (fun p => storable p.2) &&
  (d.attrs.lookup "long_name").isSome &&
  d.dims.all (fun n => n ∈ dims)

/-! ## Dictionaries -/

section
variable {K V V' : Type} [DecidableEq K]

theorem set_fresh (d : Dict K V) (k : K) (v : V) (h : k ∉ d.map Prod.fst) : d.set k v = d ++ [(k, v)] := by
  induction d with
  | nil => rfl
  | cons p t ih =>
    obtain ⟨k', v'⟩ := p
    simp only [List.map_cons, List.mem_cons, not_or] at h
    simp [Dict.set, h.1, ih h.2]

theorem foldl_set_fresh (f : V' → V) (l : List (K × V')) : ∀ d : Dict K V, (l.map Prod.fst).Nodup →
    (∀ k ∈ l.map Prod.fst, k ∉ d.map Prod.fst) →
    l.foldl (fun e p => Dict.set e p.1 (f p.2)) d = d ++ l.map (fun p => (p.1, f p.2)) := by
  induction l with
  | nil => intro d _ _; simp
  | cons p t ih =>
    intro d hn hd
    obtain ⟨k, v⟩ := p
    simp only [List.map_cons, List.nodup_cons, List.mem_cons, forall_eq_or_imp] at hn hd
    simp only [List.foldl_cons]
    rw [set_fresh d k _ hd.1, ih _ hn.2]
    · simp
    · intro j hj
      simp only [List.map_append, List.map_cons, List.map_nil, List.mem_append, List.mem_singleton, not_or]
      exact ⟨hd.2 j hj, fun e => hn.1 (e ▸ hj)⟩

theorem erase_eq_filter (d : Dict K V) (k : K) : d.erase k = d.filter (fun p => decide (p.1 ≠ k)) := by
  induction d with
  | nil => rfl
  | cons p t ih =>
    obtain ⟨k', v'⟩ := p
    by_cases h : k = k'
    · subst h; simp [Dict.erase, ih]
    · have h' : k' ≠ k := fun e => h e.symm
      simp [Dict.erase, h, h', ih]

theorem get?_eq_lookup (d : Dict String V) (k : String) : Dict.get? d k = d.lookup k := by
  induction d with
  | nil => rfl
  | cons p t ih =>
    obtain ⟨k', v'⟩ := p
    by_cases h : k = k'
    · subst h; simp [Dict.get?]
    · have : (k == k') = false := by simpa using h
      simp [Dict.get?, List.lookup, h, this, ih]

theorem mem_of_lookup {l : List (String × V)} {k : String} {v : V} (h : l.lookup k = some v) : (k, v) ∈ l := by
  induction l with
  | nil => cases h
  | cons p t ih =>
    obtain ⟨k', v'⟩ := p
    by_cases e : k = k'
    · subst e
      simp only [List.lookup, beq_self_eq_true, Option.some.injEq] at h
      simp [h]
    · have : (k == k') = false := by simpa using e
      simp only [List.lookup, this] at h
      exact List.mem_cons_of_mem _ (ih h)

theorem get?_fresh (d : Dict K V) (k : K) (h : k ∉ d.map Prod.fst) : d.get? k = none := by
  induction d with
  | nil => rfl
  | cons p t ih =>
    obtain ⟨k', v'⟩ := p
    simp only [List.map_cons, List.mem_cons, not_or] at h
    simp [Dict.get?, h.1, ih h.2]

end

/-! ## Creating one variable -/

theorem entries_eq (dims : List String) (d : VarDef) (h : wellFormed dims d = true) :
    entries d = ("data_type", .type d.type) :: ("dimensions", .dims d.dims) :: d.attrs.map (fun p => (p.1, .att p.2)) := by
  simp only [wellFormed, Bool.and_eq_true, decide_eq_true_eq] at h
  obtain ⟨⟨⟨⟨h1, h2⟩, h3⟩, h4⟩, h5⟩ := h
  unfold entries
  rw [foldl_set_fresh (fun a => Entry.att a) d.attrs _ h1]
  · rfl
  · intro k hk
    have := List.all_eq_true.mp h2 k hk
    simp only [decide_eq_true_eq] at this
    simp [this.1, this.2.1]

theorem attEntries_map (l : List (String × Att)) : attEntries (l.map (fun p => (p.1, .att p.2))) = l := by
  induction l with
  | nil => rfl
  | cons p t ih =>
    simp only [attEntries, List.map_cons, List.filterMap_cons] at ih ⊢
    rw [ih]

theorem rest_eq (dims : List String) (d : VarDef) (h : wellFormed dims d = true) :
    attEntries (popped (entries d)) = d.attrs.filter (fun p => decide (p.1 ≠ "long_name")) := by
  rw [popped, entries_eq dims d h]
  simp only [wellFormed, Bool.and_eq_true, decide_eq_true_eq] at h
  obtain ⟨⟨⟨⟨h1, h2⟩, h3⟩, h4⟩, h5⟩ := h
  simp only [erase_eq_filter, List.filter_filter]
  rw [List.filter_cons_of_neg (by simp), List.filter_cons_of_neg (by simp), List.filter_map, attEntries_map]
  refine List.filter_congr fun p hp => ?_
  have := List.all_eq_true.mp h2 p.1 (List.mem_map_of_mem hp)
  simp only [decide_eq_true_eq] at this
  simp [this.1, this.2.1, this.2.2.2]

/-- The attributes of a well-formed declaration as the descriptor has them. -/
theorem descriptor_eq (dims : List String) (d : VarDef) (h : wellFormed dims d = true) :
    descriptor (entries d) = .ok ⟨d.type, d.dims,
      (d.attrs.filter fun p => p.1 ≠ "long_name" ∧ p.1 ≠ "fill_value") ++ [("long_name", (d.attrs.lookup "long_name").getD .none)],
      fillProps d⟩ := by
  have hr := rest_eq dims d h
  rw [popped] at hr
  have he := entries_eq dims d h
  simp only [wellFormed, Bool.and_eq_true, decide_eq_true_eq] at h
  obtain ⟨⟨⟨⟨h1, h2⟩, h3⟩, h4⟩, h5⟩ := h
  have hk : ∀ p ∈ d.attrs, p.1 ≠ "data_type" ∧ p.1 ≠ "dimensions" ∧ p.1 ≠ "name" ∧ p.1 ≠ "properties" := fun p hp => by
    simpa using List.all_eq_true.mp h2 p.1 (List.mem_map_of_mem hp)
  have g1 : (entries d).get? "data_type" = some (.type d.type) := by rw [he]; rfl
  have g2 : (entries d).get? "dimensions" = some (.dims d.dims) := by rw [he]; rfl
  have key : ∀ k : String, k ≠ "data_type" → k ≠ "dimensions" →
      (entries d).get? k = (d.attrs.lookup k).map Entry.att := by
    intro k ha hb
    rw [he]
    simp only [Dict.get?, ha, hb, if_false]
    clear h1 h2 h3 h4 h5 he hr g1 g2 hk
    induction d.attrs with
    | nil => rfl
    | cons p t ih =>
      obtain ⟨k', v⟩ := p
      by_cases e : k = k'
      · subst e; simp [Dict.get?]
      · have : (k == k') = false := by simpa using e
        simp only [List.map_cons, Dict.get?, e, if_false, List.lookup, this, ih]
  have hprops : (entries d).get? "properties" = none := by
    rw [key _ (by decide) (by decide)]
    rw [← get?_eq_lookup, get?_fresh]; · rfl
    intro hm
    obtain ⟨p, hp, e⟩ := List.mem_map.mp hm
    exact (hk p hp).2.2.2 e
  have hname : Dict.get? (d.attrs.filter (fun p => decide (p.1 ≠ "long_name"))) "name" = none := by
    refine get?_fresh _ _ fun hm => ?_
    obtain ⟨p, hp, e⟩ := List.mem_map.mp hm
    exact (hk p (List.mem_filter.mp hp).1).2.2.1 e
  have hfill : Dict.get? (d.attrs.filter (fun p => decide (p.1 ≠ "long_name"))) "fill_value" = d.attrs.lookup "fill_value" := by
    rw [← erase_eq_filter, Dict.get?_erase, if_neg (by decide), get?_eq_lookup]
  have hlong := key "long_name" (by decide) (by decide)
  obtain ⟨a, ha⟩ := Option.isSome_iff_exists.mp h4
  rw [ha] at hlong
  have hset : (Dict.erase (d.attrs.filter (fun p => decide (p.1 ≠ "long_name"))) "fill_value").set "long_name" a =
      (d.attrs.filter fun p => p.1 ≠ "long_name" ∧ p.1 ≠ "fill_value") ++ [("long_name", a)] := by
    rw [erase_eq_filter, List.filter_filter, set_fresh]
    · congr 1
      refine List.filter_congr fun p _ => ?_
      simp [and_comm]
    · simp
  have hnone : ∀ b, d.attrs.lookup "fill_value" = some b → b ≠ .none := by
    intro b hb e
    subst e
    have : ("fill_value", Att.none) ∈ d.attrs := mem_of_lookup hb
    have := List.all_eq_true.mp h3 _ this
    simp [storable] at this
  unfold descriptor
  simp only [g1, g2, hr, hname, hfill, hlong, hprops, ha, Option.map_some, Option.getD_some, hset, Option.isSome_none,
    Bool.false_eq_true, if_false, List.foldl_nil]
  unfold fillProps
  cases hl : d.attrs.lookup "fill_value" with
  | none => rfl
  | some b =>
    have := hnone b hl
    cases b <;> first | rfl | exact absurd rfl this

theorem ncAtt_eq (a : Att) (h : storable a = true) : ncAtt a = .ok (inFile a) := by
  cases a <;> first | rfl | cases h

theorem setAtts_eq (l : List (String × Att)) : ∀ v : NcVar, (∀ p ∈ l, storable p.2 = true) →
    setAtts l v = ({ v with attrs := v.attrs ++ l.map (fun p => (p.1, inFile p.2)) }, none) := by
  induction l with
  | nil => intro v _; simp [setAtts]
  | cons p t ih =>
    intro v h
    obtain ⟨n, a⟩ := p
    simp only [List.mem_cons, forall_eq_or_imp] at h
    simp only [setAtts, ncAtt_eq a h.1]
    rw [ih _ h.2]
    simp

theorem fillOf_eq (strict : Bool) (d : VarDef) (h : fillFits d = true) :
    fillOf strict d.type (fillProps d) = .ok (declaredFill d) := by
  unfold fillFits at h
  unfold fillOf declaredFill fillProps
  cases hl : d.attrs.lookup "fill_value" with
  | none => rfl
  | some a =>
    rw [hl] at h
    cases a with
    | num x =>
      simp only [Dict.get?, if_true]
      cases hr : d.type.range with
      | none => rfl
      | some r =>
        obtain ⟨lo, hi⟩ := r
        rw [hr] at h
        simp only [decide_eq_true_eq] at h
        obtain ⟨h1, h2, h3⟩ := h
        have a1 : lo ≤ ⌊x⌋ := Int.le_floor.mpr h1
        have a2 : ⌊x⌋ ≤ hi := by
          rw [h3] at h2
          exact_mod_cast h2
        simp only [a1, a2, and_self, if_true]
        rw [← h3]
    | _ => cases h

theorem dimNames_eq (w : W) (l : List String) (h : ∀ n ∈ l, w.dims.get? n = some n) : dimNames w l = .ok l := by
  induction l with
  | nil => rfl
  | cons n t ih =>
    simp only [List.mem_cons, forall_eq_or_imp] at h
    simp [dimNames, h.1, ih h.2]

/-- Creating the variable of a well-formed declaration whose fill value fits. -/
theorem createVar_eq (strict : Bool) (w : W) (dims : List String) (d : VarDef) (desc : Desc) (f : Option ℚ)
    (hd : wellFormed dims d = true) (hf : fillOf strict d.type (fillProps d) = .ok f) (hdesc : descriptor (entries d) = .ok desc) (hdims : ∀ n ∈ dims, w.dims.get? n = some n)
    (hnew : d.name ∉ w.fileVars.map NcVar.name) :
    createVar strict w d.name desc =
      ({ w with fileVars := w.fileVars ++ [{ declared d with fill := f }], handles := w.handles.set d.name (.var d.name) }, none) := by
  rw [descriptor_eq dims d hd] at hdesc
  cases hdesc
  have hst : ∀ p ∈ (d.attrs.filter fun p => p.1 ≠ "long_name" ∧ p.1 ≠ "fill_value") ++
      [("long_name", (d.attrs.lookup "long_name").getD .none)], storable p.2 = true := by
    simp only [wellFormed, Bool.and_eq_true, decide_eq_true_eq] at hd
    obtain ⟨⟨⟨⟨h1, h2⟩, h3⟩, h4⟩, h5⟩ := hd
    intro p hp
    rcases List.mem_append.mp hp with hp | hp
    · exact List.all_eq_true.mp h3 p (List.mem_filter.mp hp).1
    · obtain ⟨a, ha⟩ := Option.isSome_iff_exists.mp h4
      rw [ha] at hp
      have : p = ("long_name", a) := by simpa using hp
      subst this
      exact List.all_eq_true.mp h3 _ (mem_of_lookup ha)
  have hds : ∀ n ∈ d.dims, w.dims.get? n = some n := by
    simp only [wellFormed, Bool.and_eq_true, decide_eq_true_eq] at hd
    intro n hn
    refine hdims n ?_
    simpa using List.all_eq_true.mp hd.2 n hn
  simp only [createVar, dimNames_eq w d.dims hds, if_neg hnew, hf]
  rw [setAtts_eq _ _ hst]
  simp [declared]

/-! ## Opening a file -/

theorem createDims_eq (l : List (String × Option Nat)) : ∀ w : W, (l.map Prod.fst).Nodup →
    (∀ n ∈ l.map Prod.fst, n ∉ w.fileDims.map Prod.fst) →
    ∃ ds hs, createDims l w = ({ w with fileDims := w.fileDims ++ l, dims := ds, handles := hs }, none) ∧
      (∀ n, ds.get? n = if n ∈ l.map Prod.fst then some n else w.dims.get? n) ∧
      (∀ n, hs.get? n = if n ∈ l.map Prod.fst then some (.dim n) else w.handles.get? n) := by
  induction l with
  | nil => intro w _ _; exact ⟨w.dims, w.handles, by simp [createDims], by simp, by simp⟩
  | cons p t ih =>
    intro w hn hf
    obtain ⟨n, s⟩ := p
    simp only [List.map_cons, List.nodup_cons, List.mem_cons, forall_eq_or_imp] at hn hf
    obtain ⟨ds, hs, h1, h2, h3⟩ := ih (W.mk w.dimDefs w.varDefs (w.fileDims ++ [(n, s)]) w.fileVars (w.dims.set n n)
        (w.handles.set n (.dim n)) w.index) hn.2 (by
      intro j hj
      simp only [List.map_append, List.map_cons, List.map_nil, List.mem_append, List.mem_singleton, not_or]
      exact ⟨hf.2 j hj, fun e => hn.1 (e ▸ hj)⟩)
    refine ⟨ds, hs, ?_, ?_, ?_⟩
    · simp only [createDims, createDim, if_neg hf.1, h1]
      simp
    · intro j
      rw [h2, Dict.get?_set]
      by_cases hj : j ∈ t.map Prod.fst <;> by_cases e : j = n <;> simp_all
    · intro j
      rw [h3, Dict.get?_set]
      by_cases hj : j ∈ t.map Prod.fst <;> by_cases e : j = n <;> simp_all

theorem createVars_eq (strict : Bool) (fill : VarDef → Option ℚ) (dims : List String) (l : List VarDef) : ∀ w : W, (l.map VarDef.name).Nodup →
    (∀ d ∈ l, d.name ∉ w.fileVars.map NcVar.name) → (∀ d ∈ l, wellFormed dims d = true) →
    (∀ d ∈ l, fillOf strict d.type (fillProps d) = .ok (fill d)) →
    (∀ n ∈ dims, w.dims.get? n = some n) →
    ∃ vs hs, createVars strict (l.map fun d => (d.name, entries d)) w =
        ({ w with varDefs := vs, fileVars := w.fileVars ++ l.map (fun d => { declared d with fill := fill d }), handles := hs }, none) ∧
      (∀ n, hs.get? n = if n ∈ l.map VarDef.name then some (.var n) else w.handles.get? n) := by
  induction l with
  | nil => intro w _ _ _ _ _; exact ⟨w.varDefs, w.handles, by simp [createVars], by simp⟩
  | cons d t ih =>
    intro w hn hf hw hfit hdims
    simp only [List.map_cons, List.nodup_cons, List.mem_cons, forall_eq_or_imp] at hn hf hw hfit
    have hdesc := descriptor_eq dims d hw.1
    generalize hD : (Desc.mk d.type d.dims _ _ : Desc) = desc at hdesc
    have hc := createVar_eq strict { w with varDefs := w.varDefs.set d.name (popped (entries d)) } dims d desc (fill d) hw.1 hfit.1 hdesc
      hdims hf.1
    obtain ⟨vs, hs, h1, h2⟩ := ih (W.mk w.dimDefs (w.varDefs.set d.name (popped (entries d))) w.fileDims
        (w.fileVars ++ [{ declared d with fill := fill d }]) w.dims (w.handles.set d.name (.var d.name)) w.index) hn.2 (by
      intro e he
      simp only [List.map_append, List.map_cons, List.map_nil, List.mem_append, List.mem_singleton, not_or]
      refine ⟨hf.2 e he, fun h => hn.1 ?_⟩
      have : (declared d).name = d.name := rfl
      rw [this] at h
      exact h ▸ List.mem_map_of_mem he) hw.2 hfit.2 hdims
    refine ⟨vs, hs, ?_, ?_⟩
    · simp only [List.map_cons, createVars, hdesc]
      simp only [hc]
      rw [h1]
      simp
    · intro j
      rw [h2, Dict.get?_set]
      by_cases hj : j ∈ t.map VarDef.name <;> by_cases e : j = d.name <;> simp_all

/-- A new writer after the calls of `define_dimension` and `define_variable`. -/
def defined (ds : List (String × Option Nat)) (vs : List VarDef) : W :=
  vs.foldl W.defineVar (ds.foldl (fun w p => w.defineDim p.1 p.2) ⟨[], [], [], [], [], [], 0⟩)

theorem defined_eq (ds : List (String × Option Nat)) (vs : List VarDef) (hd : (ds.map Prod.fst).Nodup)
    (hv : (vs.map VarDef.name).Nodup) :
    defined ds vs = ⟨ds, vs.map (fun d => (d.name, entries d)), [], [], [], [], 0⟩ := by
  have h1 : ∀ (l : List (String × Option Nat)) (w : W), l.foldl (fun w p => w.defineDim p.1 p.2) w =
      { w with dimDefs := l.foldl (fun e p => Dict.set e p.1 p.2) w.dimDefs } := by
    intro l
    induction l with
    | nil => intro w; rfl
    | cons p t ih => intro w; rw [List.foldl_cons, ih]; rfl
  have h2 : ∀ (l : List VarDef) (w : W), l.foldl W.defineVar w =
      { w with varDefs := (l.map fun d => (d.name, entries d)).foldl (fun e p => Dict.set e p.1 p.2) w.varDefs } := by
    intro l
    induction l with
    | nil => intro w; rfl
    | cons p t ih => intro w; rw [List.foldl_cons, ih]; rfl
  rw [defined, h1, h2]
  have e1 := foldl_set_fresh (fun x : Option Nat => x) ds [] hd (by simp)
  have e2 := foldl_set_fresh (fun x : Dict String Entry => x) (vs.map fun d => (d.name, entries d)) []
    (by simpa [List.map_map, Function.comp_def] using hv) (by simp)
  simp only [List.nil_append, List.map_id'] at e1 e2
  simp only [e1, e2]

/-- What `open` does for fill values converted in any way. -/
theorem open_creates_with (strict : Bool) (fill : VarDef → Option ℚ) (ds : List (String × Option Nat)) (vs : List VarDef)
    (hd : (ds.map Prod.fst).Nodup) (hv : (vs.map VarDef.name).Nodup) (hw : ∀ d ∈ vs, wellFormed (ds.map Prod.fst) d = true)
    (hf : ∀ d ∈ vs, fillOf strict d.type (fillProps d) = .ok (fill d)) :
    ∃ w, (defined ds vs).open strict = (w, none) ∧ w.fileDims = ds ∧
      w.fileVars = vs.map (fun d => { declared d with fill := fill d }) ∧
      (∀ n, w.handles.get? n = if n ∈ vs.map VarDef.name then some (.var n)
        else if n ∈ ds.map Prod.fst then some (.dim n) else none) ∧ w.index = 0 := by
  rw [defined_eq ds vs hd hv]
  obtain ⟨dd, hs, h1, h2, h3⟩ := createDims_eq ds ⟨ds, vs.map (fun d => (d.name, entries d)), [], [], [], [], 0⟩ hd (by simp)
  obtain ⟨v', hs', h4, h5⟩ := createVars_eq strict fill (ds.map Prod.fst) vs
    ⟨ds, vs.map (fun d => (d.name, entries d)), ds, [], dd, hs, 0⟩ hv (by simp) hw hf (by
      intro n hn; rw [h2, if_pos hn])
  refine ⟨⟨ds, v', ds, vs.map (fun d => { declared d with fill := fill d }), dd, hs', 0⟩, ?_, ?_, ?_, ?_, rfl⟩
  · simp only [W.open, h1, List.nil_append]
    rw [h4]
    simp
  · rfl
  · rfl
  · intro n
    simp only
    rw [h5, h3]
    simp [Dict.get?]

/-- **C113.**  After defining dimensions and well-formed variables under different names, `open` succeeds; the file has exactly the
declared dimensions with their sizes and the declared variables, in order, each as its declaration says; under the name of a
variable the writer finds that variable, also when a dimension has the same name; the next record is the first. -/
theorem open_creates (strict : Bool) (ds : List (String × Option Nat)) (vs : List VarDef) (hd : (ds.map Prod.fst).Nodup)
    (hv : (vs.map VarDef.name).Nodup) (hw : ∀ d ∈ vs, wellFormed (ds.map Prod.fst) d = true) (hf : ∀ d ∈ vs, fillFits d = true) :
    ∃ w, (defined ds vs).open strict = (w, none) ∧ w.fileDims = ds ∧ w.fileVars = vs.map declared ∧
      (∀ n, w.handles.get? n = if n ∈ vs.map VarDef.name then some (.var n)
        else if n ∈ ds.map Prod.fst then some (.dim n) else none) ∧ w.index = 0 := by
  obtain ⟨w, h1, h2, h3, h4⟩ := open_creates_with strict declaredFill ds vs hd hv hw (fun d h => fillOf_eq strict d (hf d h))
  exact ⟨w, h1, h2, h3, h4⟩

end Dedop.Writer
