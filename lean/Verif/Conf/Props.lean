import Verif.Conf.Model
import Verif.Basic.Tactics

/-! # Auxiliary parameters: property C23 -/
namespace Dedop.Conf
variable {V : Type}

/-! ## Specification -/

/-- The value a file gives to a name (`none`: none, `some none`: null). -/
def Json.valueOf (j : Json V) (name : String) : Option (Option V) :=
  (j.entries.find? (fun e => e.1 = name)).bind (·.2)

/-- The value given to a name: the keyword if present, else the file. -/
def given (file : Option (Json V)) (kw : List (String × Option V)) (name : String) :
    Option (Option V) :=
  match kw.find? (fun e => e.1 = name) with
  | some e => some e.2
  | none => file.bind (fun j => j.valueOf name)

/-- Conversion of a value by a parameter: a missing value (`None`) stays one, but has no type; other values
are cast and then must have the type.  Arrays have no type check. -/
def converted (p : Param V) : Option V → Except PyErr (Option V)
  | none => if p.array ∨ p.type.isNone then .ok none else .error wrongType
  | some x =>
    let casted : Except PyErr V := match p.cast with | none => .ok x | some f => f x
    match casted with
    | .error e => .error e
    | .ok y => if p.array ∨ p.type.all (fun t => t y) then .ok (some y) else .error wrongType

/-- What reading parameter `p` has to give. -/
def expected (file : Option (Json V)) (kw : List (String × Option V)) (p : Param V) :
    Except PyErr (Option V) :=
  match given file kw p.name with
  | some v => converted p v
  | none => if p.optional then converted p p.default else .error missing

/-- Keys are unique and the metadata block is none of the entries. -/
def Json.Proper (j : Json V) : Prop :=
  (j.entries.map (·.1)).Nodup ∧ metaKey ∉ j.entries.map (·.1)

/-! ## Lemmas -/

theorem get?_update (kw : List (String × Option V)) (h : (kw.map (·.1)).Nodup)
    (d : Dict String (Option V)) (name : String) :
    (update d kw).get? name =
      match kw.find? (fun e => e.1 = name) with
      | some e => some e.2
      | none => d.get? name := by
  unfold update
  induction kw generalizing d with
  | nil => rfl
  | cons e kw ih =>
    rw [List.map_cons, List.nodup_cons] at h
    rw [List.foldl_cons, ih h.2, List.find?_cons]
    by_cases hn : e.1 = name
    · have hnone : kw.find? (fun e => decide (e.1 = name)) = none := by
        rw [List.find?_eq_none]
        intro x hx
        simp only [decide_eq_true_eq]
        intro hxn
        exact h.1 (by rw [hn, ← hxn]; exact List.mem_map_of_mem hx)
      simp [hnone, hn, Dict.get?_set]
    · have : ¬ name = e.1 := fun h => hn h.symm
      simp only [hn, decide_false, Dict.get?_set, if_neg this]

theorem readItems_spec (known : List String) (items : List (String × Option (Option V)))
    (hnd : (items.map (·.1)).Nodup) (data : Dict String (Option V)) (warn : List String)
    (r : Dict String (Option V) × List String) (hr : readItems known data warn items = .ok r)
    (name : String) :
    r.1.get? name = if name = metaKey then data.get? name else
      match items.find? (fun e => e.1 = name) with
      | some e => e.2
      | none => data.get? name := by
  induction items generalizing data warn with
  | nil =>
    simp only [readItems, Except.ok.injEq] at hr
    subst hr
    simp
  | cons e items ih =>
    obtain ⟨n, v⟩ := e
    rw [List.map_cons, List.nodup_cons] at hnd
    simp only [readItems] at hr
    split at hr
    · rename_i hm
      rw [ih hnd.2 data warn hr]
      split
      · rfl
      · rename_i hne
        rw [List.find?_cons]
        have : ¬ n = name := by rw [hm]; exact fun h => hne h.symm
        simp [this]
    · rename_i hm
      cases v with
      | none => cases hr
      | some v =>
        simp only at hr
        rw [ih hnd.2 _ _ hr, Dict.get?_set]
        by_cases hne : name = metaKey
        · have : ¬ metaKey = n := fun h => hm h.symm
          simp [hne, this]
        · simp only [if_neg hne, List.find?_cons]
          by_cases hn : n = name
          · have hnone : items.find? (fun e => decide (e.1 = name)) = none := by
              rw [List.find?_eq_none]
              intro x hx
              simp only [decide_eq_true_eq]
              intro hxn
              exact hnd.1 (by rw [show (n, some v).1 = x.1 by simp [hn, hxn]]; exact List.mem_map_of_mem hx)
            simp [hnone, hn]
          · have : ¬ name = n := fun h => hn h.symm
            simp [hn, this]

theorem create_spec (known : List String) (fv : Int) (file : Option (Json V))
    (kw : List (String × Option V)) (hkw : (kw.map (·.1)).Nodup)
    (hfile : ∀ j, file = some j → j.Proper) (data : Dict String (Option V))
    (hd : create known fv file kw = .ok data) (name : String) :
    data.get? name = given file kw name := by
  unfold given
  cases file with
  | none =>
    simp only [create, Except.ok.injEq] at hd
    subst hd
    rw [get?_update kw hkw]
    rfl
  | some j =>
    obtain ⟨hj1, hj2⟩ := hfile j rfl
    simp only [create, readFile] at hd
    cases hv : getVersion j with
    | error e => rw [hv] at hd; cases hd
    | ok v =>
      rw [hv] at hd
      simp only at hd
      by_cases hvv : v ≠ fv
      · rw [if_pos hvv] at hd; cases hd
      · rw [if_neg hvv] at hd
        cases hr : readItems known [] [] j.items with
        | error e => rw [hr] at hd; cases hd
        | ok r =>
          rw [hr] at hd
          simp only [Except.ok.injEq] at hd
          subst hd
          rw [get?_update kw hkw]
          cases kw.find? (fun e => decide (e.1 = name)) with
          | some e => rfl
          | none =>
            simp only [Option.bind_some]
            have hnd : (j.items.map (·.1)).Nodup := by
              unfold Json.items
              split
              · exact hj1
              · rw [List.map_cons, List.nodup_cons]; exact ⟨hj2, hj1⟩
            rw [readItems_spec known j.items hnd [] [] r hr]
            unfold Json.valueOf
            by_cases hm : name = metaKey
            · rw [if_pos hm]
              have : j.entries.find? (fun e => decide (e.1 = name)) = none := by
                rw [List.find?_eq_none]
                intro x hx
                simp only [decide_eq_true_eq]
                intro hxn
                exact hj2 (by rw [← hm, ← hxn]; exact List.mem_map_of_mem hx)
              rw [this]; rfl
            · rw [if_neg hm]
              have : j.items.find? (fun e => decide (e.1 = name)) =
                  j.entries.find? (fun e => decide (e.1 = name)) := by
                unfold Json.items
                split
                · rfl
                · rw [List.find?_cons]
                  have : ¬ metaKey = name := fun h => hm h.symm
                  simp [this]
              rw [this]
              cases j.entries.find? (fun e => decide (e.1 = name)) <;> rfl

/-- Value of a parameter without the cache. -/
def plain (known : List String) (data : Dict String (Option V)) (p : Param V) :
    Except PyErr (Option V) :=
  match retrieve known data p with
  | .error e => .error e
  | .ok v => converted p v

theorem convert_eq (p : Param V) (h : p.array = false) (v : Option V) :
    convert p v = converted p v := by
  unfold convert converted
  cases v with
  | none => cases hc : p.cast <;> cases ht : p.type <;> simp [h]
  | some x =>
    cases hc : p.cast with
    | none => cases ht : p.type <;> simp [h]
    | some f =>
      simp only
      cases hf : f x with
      | error e => rfl
      | ok y => cases ht : p.type <;> simp [h]

theorem getArray_eq (known : List String) (data : Dict String (Option V)) (p : Param V)
    (h : p.array = true) : getArray known data p = plain known data p := by
  unfold getArray plain
  cases retrieve known data p with
  | error e => rfl
  | ok v =>
    cases v with
    | none => simp [converted, h]
    | some x =>
      simp only [converted, h, true_or, if_true]
      cases p.cast with
      | none => rfl
      | some f => simp only; cases f x <;> rfl

theorem plain_eq_expected (params : List (Param V)) (fv : Int) (file : Option (Json V))
    (kw : List (String × Option V)) (hkw : (kw.map (·.1)).Nodup)
    (hfile : ∀ j, file = some j → j.Proper) (data : Dict String (Option V))
    (hd : create (params.map (·.name)) fv file kw = .ok data) (p : Param V) (hp : p ∈ params) :
    plain (params.map (·.name)) data p = expected file kw p := by
  unfold plain expected retrieve getItem
  rw [if_pos (List.mem_map_of_mem hp), create_spec _ fv file kw hkw hfile data hd]
  cases given file kw p.name with
  | some v => rfl
  | none =>
    simp only [if_true]
    cases p.optional <;> simp

/-- Caches hold right values. -/
def Good (params : List (Param V)) (w : World V) : Prop :=
  ∀ k inst v, (w.caches k).get? inst = some v →
    ∃ p data, params[k]? = some p ∧ w.instances[inst]? = some data ∧
      plain (params.map (·.name)) data p = .ok v

theorem read_spec (params : List (Param V)) (w : World V) (hw : Good params w) (inst k : Nat)
    (p : Param V) (data : Dict String (Option V)) (hp : params[k]? = some p)
    (hd : w.instances[inst]? = some data) :
    (read params w inst k).1 = plain (params.map (·.name)) data p := by
  unfold read
  simp only [hp, hd]
  split
  · rename_i ha
    exact getArray_eq _ _ _ ha
  · rename_i ha
    have ha : p.array = false := by simpa using ha
    simp only [getScalar]
    cases hc : (w.caches k).get? inst with
    | some v =>
      obtain ⟨p', data', h1, h2, h3⟩ := hw k inst v hc
      rw [hp] at h1; cases h1
      rw [hd] at h2; cases h2
      exact h3.symm
    | none =>
      simp only
      unfold plain
      cases hr : retrieve (params.map (·.name)) data p with
      | error e => rfl
      | ok v =>
        simp only [convert_eq p ha]
        cases converted p v <;> rfl

theorem good_read (params : List (Param V)) (w : World V) (hw : Good params w) (inst k : Nat) :
    Good params (read params w inst k).2 ∧ (read params w inst k).2.instances = w.instances := by
  have hspec := read_spec params w hw inst k
  unfold read at hspec ⊢
  simp only at hspec ⊢
  split
  · rename_i p data hp hd
    specialize hspec p data hp hd
    simp only [hp, hd] at hspec
    split
    · exact ⟨hw, rfl⟩
    · rename_i ha
      rw [if_neg ha] at hspec
      have ha' : p.array = false := by simpa using ha
      refine ⟨?_, rfl⟩
      intro k' inst' v hv
      simp only at hv
      split at hv
      · rename_i hk
        subst hk
        simp only [getScalar] at hv hspec
        cases hc : (w.caches k').get? inst with
        | some v' =>
          rw [hc] at hv
          exact hw _ _ _ hv
        | none =>
          rw [hc] at hv hspec
          simp only at hv hspec
          cases hr : retrieve (params.map (·.name)) data p with
          | error e =>
            rw [hr] at hv
            exact hw _ _ _ hv
          | ok v' =>
            rw [hr] at hv hspec
            simp only at hv hspec
            cases hcv : convert p v' with
            | error e => rw [hcv] at hv; exact hw _ _ _ hv
            | ok v'' =>
              rw [hcv] at hv hspec
              simp only at hv hspec
              rw [Dict.get?_set] at hv
              split at hv
              · rename_i hi
                subst hi
                cases hv
                exact ⟨p, data, hp, hd, hspec.symm⟩
              · exact hw _ _ _ hv
      · exact hw _ _ _ hv
  · exact ⟨hw, rfl⟩

theorem good_run (params : List (Param V)) (fv : Int) (es : List (Event V)) (w : World V)
    (hw : Good params w) :
    Good params (run params fv w es) ∧ w.instances <+: (run params fv w es).instances := by
  induction es generalizing w with
  | nil => exact ⟨hw, List.prefix_refl _⟩
  | cons e es ih =>
    cases e with
    | create file kw =>
      simp only [run]
      split
      · rename_i data hd
        obtain ⟨h1, h2⟩ := ih { w with instances := w.instances ++ [data] } (by
          intro k inst v hv
          obtain ⟨p, d, hp, hi, hpl⟩ := hw k inst v hv
          refine ⟨p, d, hp, ?_, hpl⟩
          rw [List.getElem?_append_left (List.getElem?_eq_some_iff.1 hi).1]
          exact hi)
        exact ⟨h1, (List.prefix_append _ _).trans h2⟩
      · exact ih w hw
    | read inst k =>
      simp only [run]
      obtain ⟨h1, h2⟩ := good_read params w hw inst k
      obtain ⟨h3, h4⟩ := ih _ h1
      rw [h2] at h4
      exact ⟨h3, h4⟩

/-! ## Properties -/

/-- **C23.**  In every history of creating and reading instances of a class, with any files and keyword
arguments, reading parameter `k` of an instance gives exactly what its own file and keywords prescribe
(`expected`): the keyword, else the file value, else the default of an optional parameter, else
`MissingParameterError`.  In particular repeated reads agree and instances do not interfere. -/
theorem parameter_value (params : List (Param V)) (fv : Int) (before after : List (Event V))
    (file : Option (Json V)) (kw : List (String × Option V)) (hkw : (kw.map (·.1)).Nodup)
    (hfile : ∀ j, file = some j → j.Proper) (data : Dict String (Option V))
    (hcreated : create (params.map (·.name)) fv file kw = .ok data)
    (k : Nat) (p : Param V) (hp : params[k]? = some p) :
    let w := run params fv World.empty before
    (read params (run params fv w (.create file kw :: after)) w.instances.length k).1 =
      expected file kw p := by
  intro w
  have hw : Good params w := (good_run params fv before World.empty (by
    intro k inst v hv; cases hv)).1
  have hw2 : Good params { w with instances := w.instances ++ [data] } := by
    intro k inst v hv
    obtain ⟨p, d, hp, hi, hpl⟩ := hw k inst v hv
    refine ⟨p, d, hp, ?_, hpl⟩
    rw [List.getElem?_append_left (List.getElem?_eq_some_iff.1 hi).1]
    exact hi
  simp only [run, hcreated]
  obtain ⟨h1, t, h2⟩ := good_run params fv after _ hw2
  rw [read_spec params _ h1 w.instances.length k p data hp ?_]
  · exact plain_eq_expected params fv file kw hkw hfile data hcreated p (List.mem_of_getElem? hp)
  · rw [← h2]; simp

/-- **C23, versions.**  A file of another version (or without a version) is rejected, whatever it holds;
a file without the metadata block counts as version −1. -/
theorem other_version_rejected (known : List String) (fv : Int) (j : Json V)
    (kw : List (String × Option V)) :
    (∀ v, j.metainf = some (some v) → v ≠ fv →
      create known fv (some j) kw = .error incompatible) ∧
    (j.metainf = none → fv ≠ -1 → create known fv (some j) kw = .error incompatible) ∧
    (j.metainf = some none → ∃ e, create known fv (some j) kw = .error e) := by
  refine ⟨?_, ?_, ?_⟩
  · intro v hv hne
    simp [create, readFile, getVersion, hv, hne]
  · intro hv hne
    have : ¬ (-1 : Int) = fv := fun h => hne h.symm
    simp [create, readFile, getVersion, hv, this]
  · intro hv
    simp [create, readFile, getVersion, hv]

/-- **C23, accepted files.**  A file of the right version whose entries all have a value is accepted; the
metadata block is never a parameter. -/
theorem right_version_accepted (known : List String) (fv : Int) (j : Json V) (hj : j.Proper)
    (kw : List (String × Option V)) (hkw : (kw.map (·.1)).Nodup) (hv : j.metainf = some (some fv))
    (hval : ∀ e ∈ j.entries, e.2 ≠ none) :
    ∃ data, create known fv (some j) kw = .ok data ∧
      (metaKey ∉ kw.map (·.1) → data.get? metaKey = none) := by
  have key : ∀ (items : List (String × Option (Option V))) (d : Dict String (Option V))
      (warn : List String), (∀ e ∈ items, e.1 ≠ metaKey → e.2 ≠ none) →
      ∃ r, readItems known d warn items = .ok r := by
    intro items
    induction items with
    | nil => intro d w _; exact ⟨_, rfl⟩
    | cons e items ih =>
      intro d w h
      obtain ⟨n, v⟩ := e
      simp only [readItems]
      split
      · exact ih _ _ (fun e he => h e (List.mem_cons_of_mem _ he))
      · rename_i hm
        cases v with
        | none => exact absurd rfl (h (n, none) List.mem_cons_self hm)
        | some v => exact ih _ _ (fun e he => h e (List.mem_cons_of_mem _ he))
  obtain ⟨r, hr⟩ := key j.items [] [] (by
    intro e he hne
    unfold Json.items at he
    rw [hv] at he
    rcases List.mem_cons.1 he with rfl | he
    · exact absurd rfl hne
    · exact hval e he)
  have hc : create known fv (some j) kw = .ok (update r.1 kw) := by
    simp [create, readFile, getVersion, hv, hr]
  refine ⟨_, hc, ?_⟩
  intro hm
  rw [create_spec known fv (some j) kw hkw (by rintro _ ⟨⟩; exact hj) _ hc]
  unfold given Json.valueOf
  have h1 : kw.find? (fun e => decide (e.1 = metaKey)) = none := by
    rw [List.find?_eq_none]
    intro x hx
    simp only [decide_eq_true_eq]
    intro h
    exact hm (by rw [← h]; exact List.mem_map_of_mem hx)
  have h2 : j.entries.find? (fun e => decide (e.1 = metaKey)) = none := by
    rw [List.find?_eq_none]
    intro x hx
    simp only [decide_eq_true_eq]
    intro h
    exact hj.2 (by rw [← h]; exact List.mem_map_of_mem hx)
  simp [h1, h2]

/-- An unknown parameter is reported once per entry, and nothing else is. -/
theorem unknown_parameters_warned (known : List String) (fv : Int) (j : Json V) (hj : j.Proper)
    (r : Dict String (Option V) × List String) (hr : readFile known fv j = .ok r) :
    r.2 = (j.entries.map (·.1)).filter (fun n => n ∉ known) := by
  have key : ∀ (items : List (String × Option (Option V))) (d : Dict String (Option V))
      (warn : List String) (r : Dict String (Option V) × List String),
      readItems known d warn items = .ok r →
      r.2 = warn ++ (items.map (·.1)).filter (fun n => n ≠ metaKey ∧ n ∉ known) := by
    intro items
    induction items with
    | nil =>
      intro d w r h
      simp only [readItems, Except.ok.injEq] at h
      subst h
      simp
    | cons e items ih =>
      intro d w r h
      obtain ⟨n, v⟩ := e
      simp only [readItems] at h
      split at h
      · rename_i hm
        rw [ih _ _ _ h]
        simp [hm]
      · rename_i hm
        cases v with
        | none => cases h
        | some v =>
          simp only at h
          rw [ih _ _ _ h]
          by_cases hk : n ∈ known
          · simp [hk]
          · simp [hk, hm]
  unfold readFile at hr
  cases hv : getVersion j with
  | error e => rw [hv] at hr; cases hr
  | ok v =>
    rw [hv] at hr
    simp only at hr
    split at hr
    · cases hr
    · rw [key _ _ _ _ hr]
      have : (j.items.map (·.1)).filter (fun n => decide (n ≠ metaKey ∧ n ∉ known)) =
          (j.entries.map (·.1)).filter (fun n => decide (n ≠ metaKey ∧ n ∉ known)) := by
        unfold Json.items
        split
        · rfl
        · simp
      rw [this, List.nil_append]
      apply List.filter_congr
      intro n hn
      have : n ≠ metaKey := by rintro rfl; exact hj.2 hn
      simp [this]

/-- A class with a cast parameter, an optional one and an array, and a history with two instances. -/
example :
    let double : Nat → Except PyErr Nat := fun x => if x < 100 then .ok (2 * x) else .error .valueError
    let params : List (Param Nat) :=
      [⟨"a", some double, none, false, none, false⟩, ⟨"b", none, some (· < 10), true, some 7, false⟩,
       ⟨"c", some double, none, true, none, true⟩]
    let j : Json Nat := ⟨some (some 3), [("a", some (some 4)), ("x", some none)]⟩
    j.Proper ∧
    (create (params.map (·.name)) 3 (some j) [("b", some 9)]).toOption.isSome ∧
    (let w := run params 3 World.empty [.create (some j) [], .read 0 0, .read 0 1, .create (some j) [("a", some 200), ("b", some 9)],
        .read 0 0, .read 1 0]
     (read params w 0 0).1 = .ok (some 8) ∧ (read params w 1 1).1 = .ok (some 9) ∧
     (read params w 0 1).1 = .ok (some 7) ∧ (read params w 1 0).1 = .error .valueError ∧
     (read params w 0 2).1 = .ok none) := by
  refine ⟨by unfold Json.Proper; decide +kernel, by decide +kernel, by decide +kernel⟩

end Dedop.Conf
