import Verif.Upgrade.TextLemmas
import Verif.Upgrade.Props

/-! # Upgrading the files of a configuration (C140) -/
namespace Dedop.UpgradeText

open Dedop.Names Dedop.Workspace Dedop.JsonText

/-! ## Specification -/

/-- Nothing on both sides, or the same value up to the order of keys. -/
def Agree : Option Json → Option Json → Prop
  | none, none => True
  | some v, some w => Same v w
  | _, _ => False

/-- A version in the file. -/
def VersionOf (N : Numbers) : Option Json → Option Int → Prop
  | none, none => True
  | some v, some n => ∃ t, v = .num t ∧ N.value t = n
  | _, _ => False

/-- A parameter of a change: an array with the key, the operation and whatever follows. -/
def ParamOf (p : Json) (q : String × String) : Prop :=
  ∃ rest, p = .arr (.str q.1.toList :: .str q.2.toList :: rest)

/-- A change: an object with a version and an array of parameters. -/
def ChangeOf (N : Numbers) (c : Json) (ch : Upgrade.Change) : Prop :=
  ∃ m t ps, c = .obj m ∧ Dict.get? m versionKey = some (.num t) ∧ N.value t = ch.version ∧
    Dict.get? m parametersKey = some (.arr ps) ∧ List.Forall₂ ParamOf ps ch.parameters

/-- A changelog. -/
def LogOf (N : Numbers) : Option Json → Option (List Upgrade.Change) → Prop
  | none, none => True
  | some v, some log => ∃ l, v = .arr l ∧ List.Forall₂ (ChangeOf N) l log
  | _, _ => False

/-- The metadata. -/
def MetaOf (N : Numbers) : Option Json → Option Upgrade.Meta → Prop
  | none, none => True
  | some v, some me => ∃ m, v = .obj m ∧ VersionOf N (Dict.get? m versionKey) me.version ∧
      LogOf N (Dict.get? m changelogKey) me.changelog
  | _, _ => False

/-- The members of the file are those of the configuration. -/
def Members (m : Dict Name Json) (params : Dict String Json) : Prop :=
  Dict.get? params "__metainf__" = none ∧
    ∀ k : String, k ≠ "__metainf__" → Agree (Dict.get? m k.toList) (Dict.get? params k)

/-- A text holds a configuration (that of C01 to C03): it is read as an object with the same metadata and the
same value for every parameter. -/
def Holds (N : Numbers) (text : Name) (c : Upgrade.Config Json) : Prop :=
  ∃ m, load N text = .ok (.obj m) ∧ MetaOf N (Dict.get? m metaKey) c.metainf ∧ Members m c.params

/-! ## The upgrade of the text is the upgrade of the configuration -/

theorem Same.refl (v : Json) : Same v v := fun _ => rfl
theorem Same.symm {v w : Json} (h : Same v w) : Same w v := fun p => (h p).symm
theorem Same.trans {u v w : Json} (h : Same u v) (h' : Same v w) : Same u w := fun p => (h p).trans (h' p)

theorem toList_inj {a b : String} (h : a.toList = b.toList) : a = b := by
  have := congrArg String.ofList h
  simpa using this

theorem map_mem (l : List String) (k : String) : k.toList ∈ l.map String.toList ↔ k ∈ l := by
  rw [List.mem_map]
  constructor
  · rintro ⟨j, hj, he⟩
    rw [← toList_inj he]; exact hj
  · exact fun h => ⟨k, h, rfl⟩

theorem map_erase (l : List String) (k : String) :
    (l.map String.toList).erase k.toList = (l.erase k).map String.toList :=
  (List.map_erase (fun _ _ h => toList_inj h) l).symm

/-- The two lists of a replay as names. -/
def lists (s : Upgrade.Lists) : Lists := (s.1.map String.toList, s.2.map String.toList)

theorem op_eq (op : String) (c : Char) (s : String) (hs : s.toList = [c]) : op.toList = [c] ↔ op = s := by
  rw [← hs]
  exact ⟨toList_inj, fun h => by rw [h]⟩

theorem parameter_eq (s : Upgrade.Lists) (p : Json) (q : String × String) (h : ParamOf p q) :
    parameter (lists s) p = .ok (lists (Upgrade.replayParam s q)) := by
  obtain ⟨rest, rfl⟩ := h
  obtain ⟨k, op⟩ := q
  obtain ⟨a, r⟩ := s
  show Except.ok (put _ k.toList (.str op.toList)) = _
  congr 1
  simp only [put, lists, Upgrade.replayParam, op_eq op '*' "*" rfl, op_eq op '+' "+" rfl, op_eq op '-' "-" rfl, map_mem,
    map_erase]
  by_cases h1 : op = "*" ∨ op = "+"
  · rw [if_pos h1, if_pos h1]
    by_cases h2 : k ∈ a <;> by_cases h3 : k ∈ r <;> simp [h2, h3]
  · rw [if_neg h1, if_neg h1]
    by_cases h4 : op = "-"
    · rw [if_pos h4, if_pos h4]
      by_cases h2 : k ∈ a <;> by_cases h3 : k ∈ r <;> simp [h2, h3]
    · rw [if_neg h4, if_neg h4]

theorem parameters_eq (ps : List Json) (qs : List (String × String)) (h : List.Forall₂ ParamOf ps qs) :
    ∀ s, parameters (lists s) ps = .ok (lists (qs.foldl Upgrade.replayParam s)) := by
  induction h with
  | nil => exact fun s => rfl
  | cons hp _ ih =>
    intro s
    rw [parameters, parameter_eq s _ _ hp]
    exact ih _

theorem change_eq (N : Numbers) (cv : Int) (s : Upgrade.Lists) (c : Json) (ch : Upgrade.Change)
    (h : ChangeOf N c ch) :
    change N (.num (.fin cv)) (lists s) c = .ok (lists (Upgrade.replayChange cv s ch)) := by
  obtain ⟨m, t, ps, rfl, h1, h2, h3, h4⟩ := h
  unfold change
  rw [show item (.obj m) versionKey = .ok (.num t) by simp only [item, h1]]
  dsimp only
  rw [show pyLe (operand N (.num t)) (.num (.fin cv)) = .ok (decide (ch.version ≤ cv)) by
    simp only [pyLe, operand, Num.le, h2]
    congr 1
    exact decide_eq_decide.2 Int.cast_le]
  unfold Upgrade.replayChange
  by_cases hle : ch.version ≤ cv
  · rw [decide_eq_true hle, if_pos hle]
  · rw [decide_eq_false hle, if_neg hle]
    dsimp only
    rw [show item (.obj m) parametersKey = .ok (.arr ps) by simp only [item, h3]]
    exact parameters_eq ps _ h4 s

theorem changes_eq (N : Numbers) (cv : Int) (l : List Json) (log : List Upgrade.Change)
    (h : List.Forall₂ (ChangeOf N) l log) :
    ∀ s, changes N (.num (.fin cv)) (lists s) l = .ok (lists (log.foldl (Upgrade.replayChange cv) s)) := by
  induction h with
  | nil => exact fun s => rfl
  | cons hp _ ih =>
    intro s
    rw [changes, change_eq N cv s _ _ hp]
    exact ih _

theorem members_set (m : Dict Name Json) (ps : Dict String Json) (h : Members m ps) (k : String) (hk : k ≠ "__metainf__")
    (v w : Json) (hvw : Same v w) : Members (Dict.set m k.toList v) (Dict.set ps k w) := by
  refine ⟨by rw [Dict.get?_set, if_neg hk.symm]; exact h.1, ?_⟩
  intro j hj
  rw [Dict.get?_set, Dict.get?_set]
  by_cases hjk : j = k
  · rw [if_pos hjk, if_pos (by rw [hjk])]; exact hvw
  · rw [if_neg hjk, if_neg (fun e => hjk (toList_inj e))]; exact h.2 j hj

theorem add_eq (d : Dict Name Json) (dp : Dict String Json) (hd : Members d dp) (l : List String)
    (hl : "__metainf__" ∉ l) : ∀ m ps, Members m ps →
    match Upgrade.applyAdded dp ps l with
    | .error e => add (.obj d) m (l.map String.toList) = .error e
    | .ok ps' => ∃ m', add (.obj d) m (l.map String.toList) = .ok m' ∧ Members m' ps' := by
  induction l with
  | nil => exact fun m ps h => ⟨m, rfl, h⟩
  | cons k l ih =>
    intro m ps h
    have hk : k ≠ "__metainf__" := fun e => hl (by simp [e])
    have ha := hd.2 k hk
    simp only [Upgrade.applyAdded, List.map_cons, add, item]
    cases h1 : Dict.get? dp k with
    | none =>
      rw [h1] at ha
      cases h2 : Dict.get? d k.toList with
      | some v => rw [h2] at ha; exact ha.elim
      | none => simp
    | some w =>
      rw [h1] at ha
      cases h2 : Dict.get? d k.toList with
      | none => rw [h2] at ha; exact ha.elim
      | some v =>
        rw [h2] at ha
        exact ih (fun e => hl (List.mem_cons_of_mem _ e)) _ _ (members_set m ps h k hk v w ha)

theorem members_canon (m m' : Dict Name Json) (ps : Dict String Json) (hv : Valid (.obj m)) (hc : canon (.obj m) = .obj m')
    (h : Members m ps) : Members m' ps := by
  refine ⟨h.1, ?_⟩
  intro k hk
  have hg := canon_child _ hv (.key k.toList)
  rw [hc] at hg
  simp only [Json.child] at hg
  have := h.2 k hk
  rw [hg]
  cases h1 : Dict.get? m k.toList with
  | none => rw [h1] at this; exact this
  | some v =>
    rw [h1] at this
    cases h2 : Dict.get? ps k with
    | none => rw [h2] at this; exact this.elim
    | some w =>
      rw [h2] at this
      exact Same.trans (Same.symm (canon_same v (child_valid _ hv (.key k.toList) _ h1))) this

theorem get?_canon (m : Dict Name Json) (hv : Valid (.obj m)) : ∃ m', canon (.obj m) = .obj m' ∧
    ∀ k, Dict.get? m' k = (Dict.get? m k).map canon := by
  obtain ⟨m', hm'⟩ : ∃ m', canon (.obj m) = .obj m' := ⟨_, by rw [canon]⟩
  refine ⟨m', hm', fun k => ?_⟩
  have hg := canon_child _ hv (.key k)
  rw [hm'] at hg
  exact hg

theorem param_canon (p : Json) (q : String × String) (h : ParamOf p q) : ParamOf (canon p) q := by
  obtain ⟨rest, rfl⟩ := h
  exact ⟨rest.map canon, by rw [canon, canonItems_eq, List.map_cons, List.map_cons, canon, canon]⟩

theorem change_canon (N : Numbers) (c : Json) (hv : Valid c) (ch : Upgrade.Change) (h : ChangeOf N c ch) :
    ChangeOf N (canon c) ch := by
  obtain ⟨m, t, ps, rfl, h1, h2, h3, h4⟩ := h
  obtain ⟨m', hm', hg⟩ := get?_canon m hv
  refine ⟨m', t, ps.map canon, hm', ?_, h2, ?_, ?_⟩
  · rw [hg, h1, Option.map_some, canon]
  · rw [hg, h3, Option.map_some, canon, canonItems_eq]
  · rw [List.forall₂_map_left_iff]
    exact h4.imp fun p q => param_canon p q

theorem meta_canon (N : Numbers) (v : Json) (hv : Valid v) (me : Upgrade.Meta) (h : MetaOf N (some v) (some me)) :
    MetaOf N (some (canon v)) (some me) := by
  obtain ⟨m, rfl, h1, h2⟩ := h
  obtain ⟨m', hm', hg⟩ := get?_canon m hv
  refine ⟨m', hm', ?_, ?_⟩
  · rw [hg]
    cases h3 : Dict.get? m versionKey with
    | none => rw [h3] at h1; exact h1
    | some x =>
      rw [h3] at h1
      cases h4 : me.version with
      | none => rw [h4] at h1; exact h1.elim
      | some n =>
        rw [h4] at h1
        obtain ⟨t, rfl, h5⟩ := h1
        exact ⟨t, by rw [canon], h5⟩
  · rw [hg]
    cases h3 : Dict.get? m changelogKey with
    | none => rw [h3] at h2; exact h2
    | some x =>
      rw [h3] at h2
      have hx := child_valid _ hv (.key changelogKey) _ h3
      cases h4 : me.changelog with
      | none => rw [h4] at h2; exact h2.elim
      | some log =>
        rw [h4] at h2
        obtain ⟨l, rfl, h5⟩ := h2
        refine ⟨l.map canon, by rw [canon, canonItems_eq], ?_⟩
        rw [List.forall₂_map_left_iff]
        cases hx with
        | arr _ hl =>
          clear h3 h4
          induction h5 with
          | nil => exact .nil
          | cons hc _ ih =>
            exact .cons (change_canon N _ (hl _ (by simp)) _ hc) (ih fun x hx => hl x (List.mem_cons_of_mem _ hx))

theorem holds_dumps (N : Numbers) (hN : N.Sound) (m : Dict Name Json) (hg : Good N (.obj m)) (c : Upgrade.Config Json)
    (h1 : MetaOf N (Dict.get? m metaKey) c.metainf) (h2 : Members m c.params) : Holds N (dumps (.obj m)) c := by
  obtain ⟨m', hm', hget⟩ := get?_canon m hg.1
  refine ⟨m', by rw [load_dumps N hN _ hg, hm'], ?_, members_canon m m' _ hg.1 hm' h2⟩
  rw [hget]
  cases h3 : Dict.get? m metaKey with
  | none => rw [h3] at h1; exact h1
  | some v =>
    rw [h3] at h1
    cases h4 : c.metainf with
    | none => rw [h4] at h1; exact h1.elim
    | some me =>
      rw [h4] at h1
      exact meta_canon N v (child_valid _ hg.1 (.key metaKey) _ h3) me h1

theorem currentVersion_holds (N : Numbers) (m : Dict Name Json) (c : Upgrade.Config Json)
    (h : MetaOf N (Dict.get? m metaKey) c.metainf) :
    currentVersion N (.obj m) = .ok (.num (.fin (Upgrade.currentVersion c))) := by
  unfold currentVersion metaVersion Upgrade.currentVersion
  cases h1 : Dict.get? m metaKey with
  | none =>
    rw [h1] at h
    cases h2 : c.metainf with
    | some me => rw [h2] at h; exact h.elim
    | none => simp only [item, h1]; simp
  | some v =>
    rw [h1] at h
    cases h2 : c.metainf with
    | none => rw [h2] at h; exact h.elim
    | some me =>
      rw [h2] at h
      obtain ⟨mm, rfl, h3, -⟩ := h
      simp only [item, h1]
      cases h4 : Dict.get? mm versionKey with
      | none =>
        rw [h4] at h3
        cases h5 : me.version with
        | some n => rw [h5] at h3; exact h3.elim
        | none => simp
      | some x =>
        rw [h4] at h3
        cases h5 : me.version with
        | none => rw [h5] at h3; exact h3.elim
        | some n =>
          rw [h5] at h3
          obtain ⟨t, rfl, h6⟩ := h3
          simp [operand, h6]

/-- The version that is reported. -/
theorem version_holds (N : Numbers) (hN : N.Sound) (m : Dict Name Json) (c : Upgrade.Config Json)
    (h : MetaOf N (Dict.get? m metaKey) c.metainf) :
    match Upgrade.configVersion c with
    | .error e => version (.obj m) = .error e
    | .ok n => ∃ t, version (.obj m) = .ok (.num t) ∧ N.value t = n := by
  unfold Upgrade.configVersion
  cases h1 : Dict.get? m metaKey with
  | none =>
    rw [h1] at h
    cases h2 : c.metainf with
    | some me => rw [h2] at h; exact h.elim
    | none => exact ⟨['-', '1'], by simp only [version, h1], by rw [hN.minusOne]; simp⟩
  | some v =>
    rw [h1] at h
    cases h2 : c.metainf with
    | none => rw [h2] at h; exact h.elim
    | some me =>
      rw [h2] at h
      obtain ⟨mm, rfl, h3, -⟩ := h
      cases h4 : Dict.get? mm versionKey with
      | none =>
        rw [h4] at h3
        cases h5 : me.version with
        | some n => rw [h5] at h3; exact h3.elim
        | none => simp only [version, item, h1, h4, h5]; rfl
      | some x =>
        rw [h4] at h3
        cases h5 : me.version with
        | none => rw [h5] at h3; exact h3.elim
        | some n =>
          rw [h5] at h3
          obtain ⟨t, rfl, h6⟩ := h3
          simp only [h5]
          exact ⟨t, by simp only [version, item, h1, h4], h6⟩

theorem finish (N : Numbers) (hN : N.Sound) (m : Dict Name Json) (hg : Good N (.obj m)) (c : Upgrade.Config Json)
    (h1 : MetaOf N (Dict.get? m metaKey) c.metainf) (h2 : Members m c.params) :
    match (match Upgrade.configVersion c with | .error e => Except.error e | .ok v => .ok (c, v)) with
    | .error e => (match version (.obj m) with | .error e => Except.error e | .ok v => .ok (dumps (.obj m), v)) = .error e
    | .ok (c', n) => ∃ text t, (match version (.obj m) with | .error e => Except.error e | .ok v => .ok (dumps (.obj m), v)) =
        .ok (text, .num t) ∧ N.value t = (n : Int) ∧ Holds N text c' := by
  have hv := version_holds N hN m c h1
  cases hc : Upgrade.configVersion c with
  | error e => rw [hc] at hv; dsimp only at hv ⊢; rw [hv]
  | ok n =>
    rw [hc] at hv
    obtain ⟨t, hv, ht⟩ := hv
    dsimp only
    rw [hv]
    exact ⟨_, t, rfl, ht, holds_dumps N hN m hg c h1 h2⟩

/-- C140, the text: if the user's file holds a configuration and the reference holds one, then what the upgrade
does with the texts is what C01 to C03 say of the configurations: it fails with the same error, or it gives a
text that holds the upgraded configuration, and reports its version. -/
theorem upgrade_refines (N : Numbers) (hN : N.Sound) (cur dflt : Name) (c d : Upgrade.Config Json)
    (hc : Holds N cur c) (hd : Holds N dflt d)
    (hlog : ∀ me log, d.metainf = some me → me.changelog = some log → ∀ ch ∈ log, ∀ p ∈ ch.parameters,
      p.1 ≠ "__metainf__") :
    match Upgrade.upgradeConfig c d with
    | .error e => upgradeText N cur dflt = .error e
    | .ok (c', n) => ∃ text t, upgradeText N cur dflt = .ok (text, .num t) ∧ N.value t = n ∧ Holds N text c' := by
  obtain ⟨m, hm, hmeta, hmem⟩ := hc
  obtain ⟨dm, hdm, hdmeta, hdmem⟩ := hd
  have hg := load_good N hN _ _ hm
  have hdg := load_good N hN _ _ hdm
  unfold upgradeText Upgrade.upgradeConfig Upgrade.doUpgrade
  rw [hm, hdm]
  dsimp only [names]
  unfold doUpgrade
  rw [currentVersion_holds N m c hmeta]
  dsimp only
  unfold metaVersion Upgrade.defaultVersion
  cases h1 : Dict.get? dm metaKey with
  | none =>
    rw [h1] at hdmeta
    cases h2 : d.metainf with
    | some me => rw [h2] at hdmeta; exact hdmeta.elim
    | none => simp only [item, h1]; rfl
  | some v =>
    rw [h1] at hdmeta
    cases h2 : d.metainf with
    | none => rw [h2] at hdmeta; exact hdmeta.elim
    | some me =>
      rw [h2] at hdmeta
      have hmeta' := hdmeta
      obtain ⟨mm, rfl, h3, h3'⟩ := hdmeta
      have hi : item (.obj dm) metaKey = .ok (.obj mm) := by simp only [item, h1]
      rw [hi]
      dsimp only
      cases h4 : Dict.get? mm versionKey with
      | none =>
        rw [h4] at h3
        cases h5 : me.version with
        | some n => rw [h5] at h3; exact h3.elim
        | none => simp only [item, h4]; rfl
      | some x =>
        rw [h4] at h3
        cases h5 : me.version with
        | none => rw [h5] at h3; exact h3.elim
        | some dv =>
          rw [h5] at h3
          obtain ⟨t, rfl, h6⟩ := h3
          rw [show item (.obj mm) versionKey = .ok (.num t) by simp only [item, h4]]
          dsimp only
          rw [show pyLe (operand N (.num t)) (.num (.fin (Upgrade.currentVersion c))) =
              .ok (decide (dv ≤ Upgrade.currentVersion c)) by
            simp only [pyLe, operand, Num.le, h6]
            congr 1
            exact decide_eq_decide.2 Int.cast_le]
          by_cases hle : dv ≤ Upgrade.currentVersion c
          · rw [decide_eq_true hle, if_pos hle]
            exact finish N hN m hg c hmeta hmem
          · rw [decide_eq_false hle, if_neg hle]
            dsimp only
            cases h7 : Dict.get? mm changelogKey with
            | none =>
              rw [h7] at h3'
              cases h8 : me.changelog with
              | some log => rw [h8] at h3'; exact h3'.elim
              | none => simp only [item, h7]; rfl
            | some x =>
              rw [h7] at h3'
              cases h8 : me.changelog with
              | none => rw [h8] at h3'; exact h3'.elim
              | some log =>
                rw [h8] at h3'
                obtain ⟨l, rfl, h9⟩ := h3'
                rw [show item (.obj mm) changelogKey = .ok (.arr l) by simp only [item, h7]]
                dsimp only [elements]
                have hch := changes_eq N (Upgrade.currentVersion c) l log h9 ([], [])
                rw [show ((([], []) : Lists)) = lists ([], []) from rfl, hch]
                have ht := Upgrade.replay_tracks (Upgrade.currentVersion c) log
                unfold Upgrade.replay at ht ⊢
                generalize List.foldl (Upgrade.replayChange (Upgrade.currentVersion c)) ([], []) log = s at ht ⊢
                obtain ⟨added, removed⟩ := s
                dsimp only [lists]
                have hna : "__metainf__" ∉ added := by
                  intro hin
                  obtain ⟨ch, hch, p, hp, he, -⟩ := Upgrade.exists_of_lastEffect_some ((ht.added _).1 hin)
                  exact hlog me log h2 h8 ch hch p hp he
                have ha := add_eq dm d.params hdmem added hna m c.params hmem
                cases hap : Upgrade.applyAdded d.params c.params added with
                | error e => rw [hap] at ha; dsimp only at ha ⊢; rw [ha]
                | ok ps =>
                  rw [hap] at ha
                  obtain ⟨m', ha, hm'⟩ := ha
                  rw [ha]
                  dsimp only
                  have g := good_set N _ (good_remove N (removed.map String.toList) m' (good_add N _ hdg _ _ _ hg ha))
                    metaKey (.obj mm) (good_get N dm hdg metaKey _ h1)
                  refine finish N hN _ g ⟨some me, Upgrade.applyRemoved ps removed⟩ ?_ ⟨?_, ?_⟩
                  · rw [Dict.get?_set, if_pos rfl]
                    exact hmeta'
                  · rw [Upgrade.applyRemoved_get]
                    split
                    · rfl
                    · exact hm'.1
                  · intro k hk
                    have hne : k.toList ≠ metaKey := fun e => hk (toList_inj e)
                    rw [Dict.get?_set, if_neg hne, get?_remove, Upgrade.applyRemoved_get]
                    by_cases hr : k ∈ removed
                    · rw [if_pos hr, if_pos ((map_mem removed k).2 hr)]; trivial
                    · rw [if_neg hr, if_neg (fun e => hr ((map_mem removed k).1 e))]
                      exact hm'.2 k hk

/-! ## Upgrading again, and the order of keys -/

/-- The version of the reference is not NaN. -/
def Comparable (N : Numbers) (dflt : Name) : Prop :=
  ∀ d v, load N dflt = .ok d → metaVersion d = .ok v → operand N v ≠ .num .nan

theorem pyLe_self (x y : Operand) (b : Bool) (h : pyLe x y = .ok b) (hn : x ≠ .num .nan) :
    x ≠ .other ∧ pyLe x x = .ok true := by
  cases x with
  | other => cases y <;> cases h
  | str s => exact ⟨by simp, by simp [pyLe]⟩
  | num n =>
    refine ⟨by simp, ?_⟩
    cases n with
    | nan => exact absurd rfl hn
    | minus => rfl
    | plus => rfl
    | fin q => simp [pyLe, Num.le]

theorem version_eq (m : Dict Name Json) (v : Json) (h : version (.obj m) = .ok v) :
    v = .num ['-', '1'] ∨ metaVersion (.obj m) = .ok v := by
  unfold metaVersion
  simp only [version] at h
  cases hg : Dict.get? m metaKey with
  | none => rw [hg] at h; cases h; exact .inl rfl
  | some x =>
    rw [hg] at h
    right
    simp only [item, hg]
    exact h

/-- What is known after a successful upgrade: nothing is left to do, and the version is a number or a string. -/
theorem doUpgrade_done (N : Numbers) (c d r : Json)
    (hn : ∀ v, metaVersion d = .ok v → operand N v ≠ .num .nan) (h : doUpgrade N c d = .ok r) :
    (∃ m, r = .obj m) ∧
    (∃ dv cv, metaVersion d = .ok dv ∧ currentVersion N r = .ok cv ∧ pyLe (operand N dv) cv = .ok true) ∧
      ∀ v, version r = .ok v → canon v = v := by
  have key : ∀ m dv cv, r = .obj m → metaVersion d = .ok dv → currentVersion N r = .ok cv →
      pyLe (operand N dv) cv = .ok true → (∃ m, r = .obj m) ∧
      (∃ dv cv, metaVersion d = .ok dv ∧ currentVersion N r = .ok cv ∧ pyLe (operand N dv) cv = .ok true) ∧
      ∀ v, version r = .ok v → canon v = v := by
    intro m dv cv hr h1 h2 h3
    refine ⟨⟨m, hr⟩, ⟨dv, cv, h1, h2, h3⟩, ?_⟩
    intro v hv
    subst hr
    rcases version_eq m v hv with rfl | hmv
    · rw [canon]
    · apply canon_of_operand N
      unfold currentVersion at h2
      rw [hmv] at h2
      cases h2
      intro ho
      rw [ho] at h3
      cases hx : operand N dv <;> rw [hx] at h3 <;> cases h3
  unfold doUpgrade at h
  split at h
  · cases h
  rename_i cv hcv
  split at h
  · cases h
  rename_i dv hdv
  split at h
  · cases h
  · rename_i hle
    cases h
    have : ∃ m, c = .obj m := by
      cases c with
      | obj m => exact ⟨m, rfl⟩
      | _ => cases hcv
    obtain ⟨m, hm⟩ := this
    exact key m dv cv hm hdv hcv hle
  rename_i hle
  have hself := pyLe_self _ _ _ hle (hn dv hdv)
  split at h
  · cases h
  · rename_i me hme
    split at h
    · cases h
    split at h
    · cases h
    split at h
    · cases h
    split at h
    · split at h
      · cases h
      · cases h
        refine key _ dv (operand N dv) rfl hdv ?_ hself.2
        have : ∀ ms, metaVersion (.obj (Dict.set ms metaKey me)) = .ok dv := by
          intro ms
          unfold metaVersion at hdv ⊢
          rw [hme] at hdv
          simp only [item, Dict.get?_set, if_true]
          exact hdv
        unfold currentVersion
        rw [this]
    · cases h

/-- C140, again: upgrading an upgraded file gives the same bytes and reports the same version. -/
theorem upgrade_again (N : Numbers) (hN : N.Sound) (cur dflt text : Name) (v : Json) (hn : Comparable N dflt)
    (h : upgradeText N cur dflt = .ok (text, v)) : upgradeText N text dflt = .ok (text, v) := by
  unfold upgradeText at h
  split at h
  · cases h
  rename_i c hc
  split at h
  · cases h
  split at h
  · cases h
  rename_i d hd
  split at h
  · cases h
  rename_i r hr
  split at h
  · cases h
  rename_i v' hv
  cases h
  have hgc := load_good N hN _ _ hc
  have hgd := load_good N hN _ _ hd
  have hgr := doUpgrade_good N c d r hgc hgd hr
  obtain ⟨⟨m, rfl⟩, ⟨dv, cv, h1, h2, h3⟩, h4⟩ := doUpgrade_done N c d r (fun v hv => hn d v hd hv) hr
  obtain ⟨m', hm', -⟩ := get?_canon m hgr.1
  have hcv := currentVersion_canon N _ hgr.1
  have hver := version_canon _ hgr.1
  have hdc := dumps_canon (.obj m)
  rw [hm'] at hcv hver hdc
  unfold upgradeText
  rw [load_dumps N hN _ hgr, hm']
  dsimp only [names]
  rw [hd]
  dsimp only
  have : doUpgrade N (.obj m') d = .ok (.obj m') := by
    unfold doUpgrade
    rw [hcv, h2]
    dsimp only
    rw [h1]
    dsimp only
    rw [h3]
  rw [this]
  dsimp only
  rw [hver, hv]
  show Except.ok (dumps (.obj m'), canon v) = _
  rw [hdc, h4 v hv]

/-- C140, the order of keys: two files that are read as the same configuration become the same bytes. -/
theorem upgrade_same (N : Numbers) (hN : N.Sound) (cur cur' dflt : Name) (c c' : Json) (hn : Comparable N dflt)
    (hc : load N cur = .ok c) (hc' : load N cur' = .ok c') (hs : Same c c') :
    upgradeText N cur dflt = upgradeText N cur' dflt := by
  have key : ∀ cur c, load N cur = .ok c → ∀ x, x = canon c → upgradeText N cur dflt = upgradeText N (dumps x) dflt := by
    intro cur c hc x hx
    subst hx
    have hg := load_good N hN _ _ hc
    have hl := load_dumps N hN c hg
    rw [← dumps_canon c] at hl
    have hgc := load_good N hN _ _ hl
    unfold upgradeText
    rw [hc, hl]
    dsimp only
    rcases names_canon c with ⟨l, l', h1, h2⟩ | ⟨h1, h2⟩
    · rw [h1, h2]
      dsimp only
      cases hd : load N dflt with
      | error e => rfl
      | ok d =>
        dsimp only
        rcases doUpgrade_canon N c d hg hgc (load_good N hN _ _ hd) with ⟨r, r', h3, h4, h5, h6, h7⟩ | ⟨e, h3, h4⟩
        · obtain ⟨-, -, g1⟩ := doUpgrade_done N c d r (fun v hv => hn d v hd hv) h3
          obtain ⟨-, -, g2⟩ := doUpgrade_done N _ d r' (fun v hv => hn d v hd hv) h4
          rw [h3, h4]
          dsimp only
          have v1 := version_canon r h6
          have v2 := version_canon r' h7
          rw [h5, v2] at v1
          rw [← dumps_canon r, ← dumps_canon r', h5]
          cases e1 : version r with
          | error e =>
            rw [e1] at v1
            cases e2 : version r' with
            | error e' => rw [e2] at v1; cases v1; rfl
            | ok y => rw [e2] at v1; cases v1
          | ok x =>
            rw [e1] at v1
            cases e2 : version r' with
            | error e' => rw [e2] at v1; cases v1
            | ok y =>
              rw [e2] at v1
              have : canon y = canon x := by injection v1
              rw [g1 x e1, g2 y e2] at this
              rw [this]
        · rw [h3, h4]
    · rw [h1, h2]
  have hcan := canon_eq_of_same c c' (load_good N hN _ _ hc).1 (load_good N hN _ _ hc').1 hs
  rw [key cur c hc _ rfl, key cur' c' hc' _ hcan]

/-! ## The files -/

theorem rewritten_eq (old text : Name) : rewritten old text = text := by
  unfold rewritten
  rw [write_from_start]
  simp [OpenFile.truncate]

/-- C140, the file: an upgrade that fails leaves everything as it was; one that succeeds changes this file and
nothing else. -/
theorem upgradeFile_spec (N : Numbers) (dflt : Name → Name) (fs : FS) (w c key : Name) :
    match upgradeFile N dflt fs w c key with
    | (.error _, fs1) => fs1 = fs
    | (.ok v, fs1) => ∃ old text, view fs (cfgFile w c key) = some (.file old) ∧
        upgradeText N old (dflt key) = .ok (text, v) ∧ view fs1 (cfgFile w c key) = some (.file text) ∧
        ∀ r, r ≠ cfgFile w c key → view fs1 r = view fs r := by
  unfold upgradeFile
  cases hg : Dict.get? fs (cfgFile w c key) with
  | none => rfl
  | some e =>
    cases e with
    | dir => rfl
    | file old =>
      dsimp only
      cases hu : upgradeText N old (dflt key) with
      | error e => rfl
      | ok r =>
        obtain ⟨text, v⟩ := r
        dsimp only
        have hw : writeConfigFile fs w c key text =
            (.ok (), Dict.set fs (cfgFile w c key) (.file (rewritten old text))) := by
          unfold writeConfigFile; rw [hg]
        rw [hw]
        refine ⟨old, text, hg, hu, ?_, ?_⟩
        · unfold view; rw [FS.get?_set, if_pos rfl, rewritten_eq]
        · intro r hr
          unfold view; rw [FS.get?_set, if_neg hr]

theorem upgradeFile_stays (N : Numbers) (dflt : Name → Name) (fs : FS) (w c key text : Name) (v : Json)
    (h1 : view fs (cfgFile w c key) = some (.file text)) (h2 : upgradeText N text (dflt key) = .ok (text, v)) :
    (upgradeFile N dflt fs w c key).1 = .ok v ∧ ∀ r, view (upgradeFile N dflt fs w c key).2 r = view fs r := by
  have hg : Dict.get? fs (cfgFile w c key) = some (.file text) := h1
  have hw : writeConfigFile fs w c key text =
      (.ok (), Dict.set fs (cfgFile w c key) (.file (rewritten text text))) := by
    unfold writeConfigFile; rw [hg]
  have : upgradeFile N dflt fs w c key = (.ok v, Dict.set fs (cfgFile w c key) (.file (rewritten text text))) := by
    unfold upgradeFile
    rw [hg]
    dsimp only
    rw [h2]
    dsimp only
    rw [hw]
  rw [this]
  refine ⟨rfl, ?_⟩
  intro r
  show view (Dict.set fs _ _) r = _
  unfold view
  rw [FS.get?_set, rewritten_eq]
  split
  · rename_i hr; rw [hr, hg]
  · rfl

/-- The files of the keys are upgraded. -/
def Done (N : Numbers) (dflt : Name → Name) (fs : FS) (w c : Name) (keys : List Name) (vs : List Json) : Prop :=
  List.Forall₂ (fun key v => ∃ text, view fs (cfgFile w c key) = some (.file text) ∧
    upgradeText N text (dflt key) = .ok (text, v)) keys vs

theorem upgradeFiles_frame (N : Numbers) (dflt : Name → Name) (w c : Name) (keys : List Name) : ∀ (fs : FS) (r : Path),
    (∀ key ∈ keys, r ≠ cfgFile w c key) → view (upgradeFiles N dflt fs w c keys).2 r = view fs r := by
  induction keys with
  | nil => exact fun fs r _ => rfl
  | cons key keys ih =>
    intro fs r hr
    have hs := upgradeFile_spec N dflt fs w c key
    rw [upgradeFiles]
    rcases hu : upgradeFile N dflt fs w c key with ⟨res, fs1⟩
    rw [hu] at hs
    cases res with
    | error e => dsimp only at hs ⊢; rw [hs]
    | ok v =>
      obtain ⟨_, _, _, _, _, h5⟩ := hs
      have := ih fs1 r (fun k hk => hr k (List.mem_cons_of_mem _ hk))
      dsimp only
      rcases hus : upgradeFiles N dflt fs1 w c keys with ⟨res2, fs2⟩
      rw [hus] at this
      cases res2 <;> exact this.trans (h5 r (hr key (by simp)))

theorem upgradeFiles_done (N : Numbers) (hN : N.Sound) (dflt : Name → Name) (w c : Name) (hn : ∀ key, Comparable N (dflt key))
    (keys : List Name) (hk : keys.Nodup) : ∀ (fs fs' : FS) (vs : List Json),
    upgradeFiles N dflt fs w c keys = (.ok vs, fs') → Done N dflt fs' w c keys vs := by
  induction keys with
  | nil => intro fs fs' vs h; cases h; exact .nil
  | cons key keys ih =>
    intro fs fs' vs h
    rw [List.nodup_cons] at hk
    have hs := upgradeFile_spec N dflt fs w c key
    rw [upgradeFiles] at h
    rcases hu : upgradeFile N dflt fs w c key with ⟨res, fs1⟩
    rw [hu] at hs h
    cases res with
    | error e => cases h
    | ok v =>
      obtain ⟨old, text, h1, h2, h3, h5⟩ := hs
      dsimp only at h
      have hf := upgradeFiles_frame N dflt w c keys fs1 (cfgFile w c key)
        (fun k hk' e => hk.1 (by rw [cfgFile_inj e]; exact hk'))
      rcases hus : upgradeFiles N dflt fs1 w c keys with ⟨res2, fs2⟩
      rw [hus] at h hf
      cases res2 with
      | error e => cases h
      | ok vs2 =>
        cases h
        refine .cons ⟨text, ?_, upgrade_again N hN old (dflt key) text v (hn key) h2⟩ (ih hk.2 _ _ _ hus)
        rw [← h3]; exact hf

theorem done_stays (N : Numbers) (dflt : Name → Name) (w c : Name) (keys : List Name) : ∀ (fs : FS) (vs : List Json),
    Done N dflt fs w c keys vs → (upgradeFiles N dflt fs w c keys).1 = .ok vs ∧
      ∀ r, view (upgradeFiles N dflt fs w c keys).2 r = view fs r := by
  induction keys with
  | nil => intro fs vs h; cases h; exact ⟨rfl, fun _ => rfl⟩
  | cons key keys ih =>
    intro fs vs h
    cases h with
    | cons h hrest =>
      rename_i v vs
      obtain ⟨text, h1, h2⟩ := h
      obtain ⟨g1, g2⟩ := upgradeFile_stays N dflt fs w c key text v h1 h2
      rw [upgradeFiles]
      rcases hu : upgradeFile N dflt fs w c key with ⟨res, fs1⟩
      rw [hu] at g1 g2
      dsimp only at g1 g2
      rw [g1]
      dsimp only
      have hd : Done N dflt fs1 w c keys vs := by
        refine List.Forall₂.imp ?_ hrest
        rintro k v ⟨t, ht, ht'⟩
        exact ⟨t, by rw [g2]; exact ht, ht'⟩
      obtain ⟨i1, i2⟩ := ih fs1 vs hd
      rcases hus : upgradeFiles N dflt fs1 w c keys with ⟨res2, fs2⟩
      rw [hus] at i1 i2
      dsimp only at i1 i2
      rw [i1]
      exact ⟨rfl, fun r => (i2 r).trans (g2 r)⟩

/-- C140, all files: after a successful upgrade of the three files another one succeeds, reports the same versions
and leaves every file of the disk byte by byte as it is. -/
theorem upgrade_files_again (N : Numbers) (hN : N.Sound) (dflt : Name → Name) (hn : ∀ key, Comparable N (dflt key)) (fs fs' : FS)
    (w c : Name) (vs : List Json) (h : upgradeFiles N dflt fs w c cfgKeys = (.ok vs, fs')) :
    (upgradeFiles N dflt fs' w c cfgKeys).1 = .ok vs ∧ ∀ r, view (upgradeFiles N dflt fs' w c cfgKeys).2 r = view fs' r :=
  done_stays N dflt w c cfgKeys fs' vs (upgradeFiles_done N hN dflt w c hn cfgKeys (by decide) fs fs' vs h)

/-! ## A case -/

/-- Numbers for the case: the text is kept, and some texts have a value. -/
def demoNumbers : Numbers where
  canonical t := .num t
  value t := if t = ['-', '1'] then -1 else if t = ['1'] then 1 else if t = ['2'] then 2 else 0

theorem demo_sound : demoNumbers.Sound :=
  ⟨fun t h => .inl ⟨t, rfl, h, rfl⟩, rfl⟩

/-- What the file of a user holds: three parameters and no version. -/
def demoMembers : Dict Name Json := [(['b'], .num ['1']), (['c'], .arr [.num ['2']]), (['a'], .num ['2'])]
/-- What a reference holds: it is at version 1, in which `a` is modified and `b` removed. -/
def demoReference : Dict Name Json :=
  [(metaKey, .obj [(versionKey, .num ['1']),
    (changelogKey, .arr [.obj [(versionKey, .num ['1']), (parametersKey, .arr [.arr [.str ['a'], .str ['*'], .str []],
      .arr [.str ['b'], .str ['-']]])]])]), (['a'], .num ['0'])]

/-- The same as configurations. -/
def demoConfig : Upgrade.Config Json :=
  ⟨none, [("b", .num ['1']), ("c", .arr [.num ['2']]), ("a", .num ['2'])]⟩
/-- The same as configurations. -/
def demoDefault : Upgrade.Config Json := ⟨some ⟨some 1, some [⟨1, [("a", "*"), ("b", "-")]⟩]⟩, [("a", .num ['0'])]⟩

theorem demo_number (c : Char) (h : c.isDigit = true) : IsNumber [c] :=
  ⟨[], [c], [], [], rfl, .inl rfl, ⟨⟨by simp, by simpa using h⟩, by simp⟩, .inl rfl, .inl rfl⟩

mutual
theorem demo_read (v : Json) : readNums demoNumbers v = v := by
  cases v with
  | lit l => rw [readNums]
  | num t => rw [readNums]; rfl
  | str s => rw [readNums]
  | arr l => rw [readNums, demo_readItems l]
  | obj m => rw [readNums, demo_readMembers m]
theorem demo_readItems (l : List Json) : readItems demoNumbers l = l := by
  cases l with
  | nil => rw [readItems]
  | cons x l => rw [readItems, demo_read x, demo_readItems l]
theorem demo_readMembers (m : List (Name × Json)) : readMembers demoNumbers m = m := by
  match m with
  | [] => rw [readMembers]
  | (k, v) :: m => rw [readMembers, readMember, demo_read v, demo_readMembers m]
end

theorem demo_good : Good demoNumbers (.obj demoMembers) := by
  refine ⟨.obj _ (by decide) ?_, demo_read _⟩
  simp only [demoMembers, List.mem_cons, List.not_mem_nil, or_false, forall_eq_or_imp, forall_eq]
  refine ⟨.num _ (demo_number _ rfl), .arr _ ?_, .num _ (demo_number _ rfl)⟩
  simp only [List.mem_singleton, forall_eq]
  exact .num _ (demo_number _ rfl)

theorem demo_good_reference : Good demoNumbers (.obj demoReference) := by
  refine ⟨.obj _ (by decide) ?_, demo_read _⟩
  simp only [demoReference, List.mem_cons, List.not_mem_nil, or_false, forall_eq_or_imp, forall_eq]
  refine ⟨.obj _ (by decide) ?_, .num _ (demo_number _ rfl)⟩
  simp only [List.mem_cons, List.not_mem_nil, or_false, forall_eq_or_imp, forall_eq]
  refine ⟨.num _ (demo_number _ rfl), .arr _ ?_⟩
  simp only [List.mem_singleton, forall_eq]
  refine .obj _ (by decide) ?_
  simp only [List.mem_cons, List.not_mem_nil, or_false, forall_eq_or_imp, forall_eq]
  refine ⟨.num _ (demo_number _ rfl), .arr _ ?_⟩
  simp only [List.mem_cons, List.not_mem_nil, or_false, forall_eq_or_imp, forall_eq]
  refine ⟨.arr _ ?_, .arr _ ?_⟩
  · simp only [List.mem_cons, List.not_mem_nil, or_false, forall_eq_or_imp, forall_eq]
    exact ⟨.str _, .str _, .str _⟩
  · simp only [List.mem_cons, List.not_mem_nil, or_false, forall_eq_or_imp, forall_eq]
    exact ⟨.str _, .str _⟩

theorem demo_holds : Holds demoNumbers (dumps (.obj demoMembers)) demoConfig := by
  refine holds_dumps _ demo_sound _ demo_good _ trivial ⟨rfl, ?_⟩
  intro k _
  have e : ∀ s : String, (k.toList = s.toList ↔ k = s) := fun s => ⟨toList_inj, fun h => by rw [h]⟩
  have h1 := e "a"
  have h2 := e "b"
  have h3 := e "c"
  simp only [show "a".toList = ['a'] from rfl, show "b".toList = ['b'] from rfl, show "c".toList = ['c'] from rfl] at h1 h2 h3
  simp only [demoConfig, demoMembers, Dict.get?, h1, h2, h3]
  split
  · exact Same.refl _
  · split
    · exact Same.refl _
    · split
      · exact Same.refl _
      · trivial

theorem demo_value : demoNumbers.value ['1'] = ((1 : Int) : ℚ) := by simp [demoNumbers]
theorem changelogKey_ne : changelogKey ≠ versionKey := by decide
theorem parametersKey_ne : parametersKey ≠ versionKey := by decide

theorem demo_holds_reference : Holds demoNumbers (dumps (.obj demoReference)) demoDefault := by
  refine holds_dumps _ demo_sound _ demo_good_reference _
    ?_ ⟨rfl, ?_⟩
  · simp only [demoReference, Dict.get?, if_true, demoDefault]
    refine ⟨_, rfl, ?_, ?_⟩
    · simp only [Dict.get?, if_true]
      exact ⟨_, rfl, demo_value⟩
    · simp only [Dict.get?, if_neg changelogKey_ne, if_true]
      refine ⟨_, rfl, .cons ⟨_, ['1'], _, rfl, ?_, demo_value, ?_, .cons ⟨[.str []], rfl⟩ (.cons ⟨[], rfl⟩ .nil)⟩ .nil⟩
      · simp only [Dict.get?, if_true]
      · simp only [Dict.get?, if_neg parametersKey_ne, if_true]; rfl
  intro k hk
  have hne : k.toList ≠ metaKey := fun h => hk (toList_inj h)
  have h1 : k.toList = ['a'] ↔ k = "a" := op_eq k 'a' "a" rfl
  simp only [demoDefault, demoReference, Dict.get?, if_neg hne, h1]
  split
  · exact Same.refl _
  · trivial

/-- The hypotheses of `upgrade_refines` are met, and the file is upgraded: `a` takes the value of the reference, `b` is
removed and `c` stays. -/
example : demoNumbers.Sound ∧ Holds demoNumbers (dumps (.obj demoMembers)) demoConfig ∧
    Holds demoNumbers (dumps (.obj demoReference)) demoDefault ∧
    (∀ me log, demoDefault.metainf = some me → me.changelog = some log → ∀ ch ∈ log, ∀ p ∈ ch.parameters,
      p.1 ≠ "__metainf__") ∧
    Upgrade.upgradeConfig demoConfig demoDefault =
      .ok (⟨demoDefault.metainf, [("c", .arr [.num ['2']]), ("a", .num ['0'])]⟩, 1) := by
  refine ⟨demo_sound, demo_holds, demo_holds_reference, ?_, rfl⟩
  intro me log h1 h2
  cases h1
  cases h2
  decide

/-- The hypotheses of `upgrade_again` are met. -/
example : Comparable demoNumbers (dumps (.obj demoReference)) ∧
    ∃ text v, upgradeText demoNumbers (dumps (.obj demoMembers)) (dumps (.obj demoReference)) = .ok (text, v) := by
  constructor
  · intro d v h1 h2
    rw [load_dumps _ demo_sound _ demo_good_reference] at h1
    cases h1
    rw [metaVersion_canon _ demo_good_reference.1] at h2
    cases h2
    rw [operand_canon]
    decide +kernel
  · have := upgrade_refines demoNumbers demo_sound _ _ _ _ demo_holds demo_holds_reference
      (by intro me log h1 h2; cases h1; cases h2; decide)
    obtain ⟨text, t, h, -⟩ := this
    exact ⟨text, _, h⟩

/-- A text with the keys in another order and without the layout. -/
def demoText : Name := "{\"b\":1, \"a\" :\n[2] }".toList

theorem ok_of_isOk {α β : Type} (x : Except α β) (h : x.isOk = true) : ∃ c, x = .ok c := by
  cases x with
  | ok c => exact ⟨c, rfl⟩
  | error e => cases h

/-- Whether the text is the one that is written for what it holds. -/
def demoLaidOut (x : Except PyErr Json) : Bool :=
  match x with
  | .ok c => decide (dumps c = demoText)
  | .error _ => true

theorem demo_isOk : (load demoNumbers demoText).isOk = true := by decide +kernel
theorem demo_laidOut : demoLaidOut (load demoNumbers demoText) = false := by decide +kernel

/-- The hypotheses of `upgrade_same` are met by two texts that differ. -/
example : ∃ cur cur' c c', cur ≠ cur' ∧ load demoNumbers cur = .ok c ∧ load demoNumbers cur' = .ok c' ∧ Same c c' := by
  obtain ⟨c, hc⟩ := ok_of_isOk _ demo_isOk
  have hg := load_good _ demo_sound _ _ hc
  refine ⟨_, dumps c, c, canon c, ?_, hc, load_dumps _ demo_sound c hg, canon_same c hg.1⟩
  intro he
  have h0 := demo_laidOut
  rw [hc] at h0
  exact absurd he.symm (of_decide_eq_false h0)

/-- Upgrading a file that is up to date keeps its values (`upgrade_refines`) but not its bytes: the keys are put in order and the text is
laid out anew. -/
example : ∃ c, load demoNumbers demoText = .ok c ∧ dumps c ≠ demoText := by
  obtain ⟨c, hc⟩ := ok_of_isOk _ demo_isOk
  have h0 := demo_laidOut
  rw [hc] at h0
  exact ⟨c, hc, of_decide_eq_false h0⟩

end Dedop.UpgradeText
