import Verif.Basic.Tactics
import Verif.Upgrade.Spec

namespace Dedop.Upgrade

theorem currentVersion_eq {V : Type} (c : Config V) : currentVersion c = c.storedVersion := by
  unfold currentVersion Config.storedVersion
  cases c.metainf with
  | none => rfl
  | some m => cases h : m.version <;> simp [h]

theorem lastEffect_append (a b : List (String × String)) (k : String) :
    lastEffect (a ++ b) k = (lastEffect b k).or (lastEffect a k) := by
  simp [lastEffect, List.getLast?_append]

theorem lastEffect_nil (k : String) : lastEffect [] k = none := rfl

theorem lastEffect_singleton (p : String × String) (k : String) :
    lastEffect [p] k = if p.1 = k then effectOf p.2 else none := by
  by_cases h : p.1 = k
  · cases he : effectOf p.2 <;> simp [lastEffect, h, he]
  · simp [lastEffect, h]

/-- The replay lists faithfully describe the operations seen so far. -/
structure Tracks (s : Lists) (ops : List (String × String)) : Prop where
  nodupA : s.1.Nodup
  nodupR : s.2.Nodup
  added : ∀ k, k ∈ s.1 ↔ lastEffect ops k = some .put
  removed : ∀ k, k ∈ s.2 ↔ lastEffect ops k = some .del

theorem Tracks.init : Tracks ([], []) [] := by
  constructor <;> simp [lastEffect_nil]

theorem replayParam_tracks {s : Lists} {ops} (h : Tracks s ops) (p : String × String) :
    Tracks (replayParam s p) (ops ++ [p]) := by
  obtain ⟨added, removed⟩ := s
  obtain ⟨key, op⟩ := p
  obtain ⟨hA, hR, ha, hr⟩ := h
  simp only at hA hR ha hr
  have hlast : ∀ k, lastEffect (ops ++ [(key, op)]) k =
      (if key = k then effectOf op else none).or (lastEffect ops k) := by
    intro k; rw [lastEffect_append, lastEffect_singleton]
  by_cases h1 : op = "*" ∨ op = "+"
  · have he : effectOf op = some .put := by
      unfold effectOf; rw [if_pos (by tauto)]
    have hs : replayParam (added, removed) (key, op) =
        (if key ∉ added then added ++ [key] else added,
         if key ∈ removed then removed.erase key else removed) := by
      simp [replayParam, h1]
    rw [hs]
    constructor
    · simp only; split
      · rename_i hn
        exact List.nodup_append.2 ⟨hA, by simp, by
          intro a ha' b hb; simp at hb; subst hb; rintro rfl; exact hn ha'⟩
      · exact hA
    · simp only; split
      · exact hR.erase _
      · exact hR
    · intro k
      rw [hlast k, he]
      simp only
      by_cases hk : key = k
      · subst hk; simp; split <;> simp_all
      · simp [hk]
        split <;> simp_all [Ne.symm hk]
    · intro k
      rw [hlast k, he]
      simp only
      by_cases hk : key = k
      · subst hk; simp
        split
        · exact fun hmem => (List.Nodup.not_mem_erase hR) hmem
        · assumption
      · simp [hk]
        split
        · rw [List.mem_erase_of_ne (Ne.symm hk)]; exact hr k
        · exact hr k
  · by_cases h2 : op = "-"
    · have he : effectOf op = some .del := by
        unfold effectOf; rw [if_neg (by tauto), if_pos h2]
      have hs : replayParam (added, removed) (key, op) =
          (if key ∈ added then added.erase key else added,
           if key ∉ removed then removed ++ [key] else removed) := by
        simp [replayParam, h2]
      rw [hs]
      constructor
      · simp only; split
        · exact hA.erase _
        · exact hA
      · simp only; split
        · rename_i hn
          exact List.nodup_append.2 ⟨hR, by simp, by
            intro a ha' b hb; simp at hb; subst hb; rintro rfl; exact hn ha'⟩
        · exact hR
      · intro k
        rw [hlast k, he]
        simp only
        by_cases hk : key = k
        · subst hk; simp
          split
          · exact fun hmem => (List.Nodup.not_mem_erase hA) hmem
          · assumption
        · simp [hk]
          split
          · rw [List.mem_erase_of_ne (Ne.symm hk)]; exact ha k
          · exact ha k
      · intro k
        rw [hlast k, he]
        simp only
        by_cases hk : key = k
        · subst hk; simp; split <;> simp_all
        · simp [hk]
          split <;> simp_all [Ne.symm hk]
    · have he : effectOf op = none := by
        unfold effectOf; rw [if_neg (by tauto), if_neg h2]
      have hs : replayParam (added, removed) (key, op) = (added, removed) := by
        simp [replayParam, h1, h2]
      rw [hs]
      refine ⟨hA, hR, ?_, ?_⟩ <;> intro k <;> rw [hlast k, he] <;> simp [ha, hr]

theorem foldl_replayParam_tracks {s : Lists} {ops} (h : Tracks s ops)
    (ps : List (String × String)) : Tracks (ps.foldl replayParam s) (ops ++ ps) := by
  induction ps generalizing s ops with
  | nil => simpa using h
  | cons p ps ih =>
    have := ih (replayParam_tracks h p)
    simpa using this

theorem foldl_replayChange_tracks {v : Int} {s : Lists} {ops} (h : Tracks s ops)
    (log : List Change) :
    Tracks (log.foldl (replayChange v) s) (ops ++ opsNewerThan v log) := by
  induction log generalizing s ops with
  | nil => simpa [opsNewerThan] using h
  | cons c log ih =>
    simp only [List.foldl_cons]
    by_cases hc : c.version ≤ v
    · have : replayChange v s c = s := by simp [replayChange, hc]
      rw [this]
      have := ih h
      have hlt : ¬ v < c.version := by omega
      simpa [opsNewerThan, hlt] using this
    · have hs : replayChange v s c = c.parameters.foldl replayParam s := by
        simp [replayChange, hc]
      rw [hs]
      have := ih (foldl_replayParam_tracks h c.parameters)
      have hlt : v < c.version := by omega
      simpa [opsNewerThan, hlt, List.append_assoc] using this

theorem replay_tracks (v : Int) (log : List Change) :
    Tracks (replay v log) (opsNewerThan v log) := by
  simpa [replay] using foldl_replayChange_tracks (v := v) Tracks.init log

theorem applyAdded_ok {V : Type} {dflt cur res : Dict String V} {ks : List String}
    (h : applyAdded dflt cur ks = .ok res) (k : String) :
    (k ∈ ks → (dflt.get? k).isSome ∧ res.get? k = dflt.get? k) ∧
    (k ∉ ks → res.get? k = cur.get? k) := by
  induction ks generalizing cur with
  | nil => simp [applyAdded] at h; subst h; simp
  | cons a ks ih =>
    simp only [applyAdded] at h
    split at h
    · cases h
    · rename_i v hv
      have := ih h
      constructor
      · intro hk
        by_cases hks : k ∈ ks
        · exact this.1 hks
        · have hka : k = a := by simp_all
          subst hka
          rw [this.2 hks, Dict.get?_set]
          simp [hv]
      · intro hk
        simp only [List.mem_cons, not_or] at hk
        rw [this.2 hk.2, Dict.get?_set]
        simp [hk.1]

theorem applyAdded_error {V : Type} {dflt cur : Dict String V} {ks : List String} {e : PyErr}
    (h : applyAdded dflt cur ks = .error e) :
    ∃ k ∈ ks, dflt.get? k = none ∧ e = .keyError k := by
  induction ks generalizing cur with
  | nil => simp [applyAdded] at h
  | cons a ks ih =>
    simp only [applyAdded] at h
    split at h
    · rename_i hv; simp only [Except.error.injEq] at h
      exact ⟨a, by simp, hv, h.symm⟩
    · obtain ⟨k, hk, h1, h2⟩ := ih h
      exact ⟨k, by simp [hk], h1, h2⟩

theorem applyAdded_complete {V : Type} {dflt cur : Dict String V} {ks : List String}
    (h : ∀ k ∈ ks, (dflt.get? k).isSome) : ∃ res, applyAdded dflt cur ks = .ok res := by
  induction ks generalizing cur with
  | nil => exact ⟨cur, rfl⟩
  | cons a ks ih =>
    have ha := h a (by simp)
    obtain ⟨v, hv⟩ := Option.isSome_iff_exists.1 ha
    obtain ⟨r, hr⟩ := ih (cur := cur.set a v) (fun k hk => h k (by simp [hk]))
    exact ⟨r, by simp [applyAdded, hv, hr]⟩

theorem applyRemoved_get {V : Type} (cur : Dict String V) (ks : List String) (k : String) :
    (applyRemoved cur ks).get? k = if k ∈ ks then none else cur.get? k := by
  induction ks generalizing cur with
  | nil => simp [applyRemoved]
  | cons a ks ih =>
    simp only [applyRemoved]
    rw [ih]
    by_cases hks : k ∈ ks
    · simp [hks]
    · by_cases hka : k = a
      · subst hka
        cases hc : cur.get? k <;> simp [hks, hc, Dict.get?_erase]
      · cases hc : cur.get? a <;> simp [hks, hka, Dict.get?_erase]

theorem opsNewerThan_append (v : Int) (a b : List Change) :
    opsNewerThan v (a ++ b) = opsNewerThan v a ++ opsNewerThan v b := by
  simp [opsNewerThan]

theorem opsNewerThan_eq_nil {v : Int} {log : List Change} (h : ∀ c ∈ log, c.version ≤ v) :
    opsNewerThan v log = [] := by
  have : log.filter (fun c => decide (v < c.version)) = [] := by
    rw [List.filter_eq_nil_iff]
    intro c hc; have := h c hc; simp; omega
  simp [opsNewerThan, this]

theorem opsNewerThan_of_all_newer {v w : Int} {log : List Change}
    (hv : ∀ c ∈ log, v < c.version) (hw : ∀ c ∈ log, w < c.version) :
    opsNewerThan v log = opsNewerThan w log := by
  have h1 : log.filter (fun c => decide (v < c.version)) = log := by
    rw [List.filter_eq_self]; intro c hc; simpa using hv c hc
  have h2 : log.filter (fun c => decide (w < c.version)) = log := by
    rw [List.filter_eq_self]; intro c hc; simpa using hw c hc
  simp [opsNewerThan, h1, h2]

theorem lastEffect_eq_none {ops : List (String × String)} {k : String} :
    lastEffect ops k = none ↔ ∀ p ∈ ops, p.1 = k → effectOf p.2 = none := by
  simp [lastEffect]

theorem untouched_of_lastEffect_none {v : Int} {ext : List Change} {k : String}
    (hext : ∀ c ∈ ext, v < c.version) (h : lastEffect (opsNewerThan v ext) k = none) :
    ∀ c ∈ ext, ∀ p ∈ c.parameters, p.1 = k → effectOf p.2 = none := by
  intro c hc p hp hk
  refine lastEffect_eq_none.1 h p ?_ hk
  simp only [opsNewerThan, List.mem_flatMap, List.mem_filter, decide_eq_true_eq]
  exact ⟨c, ⟨hc, hext c hc⟩, hp⟩

theorem exists_of_lastEffect_some {v : Int} {log : List Change} {k : String} {e : Effect}
    (h : lastEffect (opsNewerThan v log) k = some e) :
    ∃ c ∈ log, ∃ p ∈ c.parameters, p.1 = k ∧ effectOf p.2 = some e := by
  unfold lastEffect at h
  have := List.mem_of_getLast? h
  simp only [List.mem_filterMap, List.mem_filter, decide_eq_true_eq, opsNewerThan,
    List.mem_flatMap] at this
  obtain ⟨p, ⟨⟨c, ⟨hc, _⟩, hp⟩, hk⟩, he⟩ := this
  exact ⟨c, hc, p, hp, hk, he⟩

end Dedop.Upgrade
