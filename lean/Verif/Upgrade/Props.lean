import Verif.Upgrade.Lemmas
import Verif.Upgrade.Shipped

/-!
# Configuration upgrade (properties C01, C02, C03, C18 in part)
-/
namespace Dedop.Upgrade

/-- **C01.** After a successful upgrade from an older version, the metadata is the default's, and
every parameter has the value determined by its last recognised changelog operation newer than the
old version: the default's value, absent, or the user's own value. -/
theorem upgrade_gives_changelog_value {V : Type} (cur dflt res : Config V) (m : Meta) (dv : Int)
    (log : List Change) (hm : dflt.metainf = some m) (hv : m.version = some dv)
    (hl : m.changelog = some log) (hold : cur.storedVersion < dv)
    (hok : doUpgrade cur dflt = .ok res) :
    res.metainf = dflt.metainf ∧
    ∀ k,
      match lastEffect (opsNewerThan (cur.storedVersion) log) k with
      | some .put => (∃ v, dflt.params.get? k = some v ∧ res.params.get? k = some v)
      | some .del => res.params.get? k = none
      | none => res.params.get? k = cur.params.get? k := by
  have ht := replay_tracks (cur.storedVersion) log
  unfold doUpgrade at hok
  rw [currentVersion_eq] at hok
  simp only [defaultVersion, hm, hv, hl] at hok
  rw [if_neg (by omega)] at hok
  revert hok ht
  generalize replay (cur.storedVersion) log = s
  obtain ⟨added, removed⟩ := s
  intro ht hok
  simp only at hok
  split at hok
  · cases hok
  · rename_i ps hps
    simp only [Except.ok.injEq] at hok
    subst hok
    refine ⟨hm.symm, ?_⟩
    intro k
    have hA := ht.added k
    have hR := ht.removed k
    have hps' := applyAdded_ok hps k
    simp only [applyRemoved_get]
    simp only at hA hR
    split
    · rename_i he
      rw [he] at hA hR
      simp only [reduceCtorEq, iff_false, Option.some.injEq, iff_true] at hA hR
      obtain ⟨h1, h2⟩ := hps'.1 hA
      obtain ⟨v, hv'⟩ := Option.isSome_iff_exists.1 h1
      refine ⟨v, hv', ?_⟩
      rw [if_neg hR, h2, hv']
    · rename_i he
      rw [he] at hR
      simp only [iff_true] at hR
      rw [if_pos hR]
    · rename_i he
      rw [he] at hA hR
      simp only [reduceCtorEq, iff_false] at hA hR
      rw [if_neg hR, hps'.2 hA]

/-- Hypotheses of C01 are met by upgrading an unversioned configuration to the shipped CNF. -/
example : ∃ res, doUpgrade { metainf := none, params := [("ambiguity_mask_margin_cnf", "1"),
      ("zp_fact_range_cnf", "4")] } Shipped.defaultCNF = .ok res ∧
    res.params.get? "ambiguity_mask_margin_cnf" = none ∧
    res.params.get? "zp_fact_range_cnf" = some "4" ∧
    res.params.get? "flag_azimuth_processing_method_cnf" = some "\"approx\"" := by
  refine ⟨_, rfl, ?_⟩; decide +kernel

/-- **C02 (failures).** An upgrade fails exactly when the default lacks its version; or, for an older
file, lacks its changelog or lacks a parameter whose last operation in its own changelog (newer than
the file) says it must be present. -/
theorem upgrade_fails_iff_default_broken {V : Type} (cur dflt : Config V) :
    (∃ e, doUpgrade cur dflt = .error e) ↔
      match dflt.metainf with
      | none => True
      | some m =>
        match m.version with
        | none => True
        | some dv => cur.storedVersion < dv ∧
          match m.changelog with
          | none => True
          | some log => ∃ k, lastEffect (opsNewerThan (cur.storedVersion) log) k = some .put ∧
              dflt.params.get? k = none := by
  unfold doUpgrade
  simp only [currentVersion_eq]
  cases hm : dflt.metainf with
  | none => simp [defaultVersion, hm]
  | some m =>
    cases hv : m.version with
    | none => simp [defaultVersion, hm, hv]
    | some dv =>
      simp only [defaultVersion, hm, hv]
      by_cases hge : cur.storedVersion ≥ dv
      · rw [if_pos hge]
        constructor
        · rintro ⟨e, he⟩; cases he
        · rintro ⟨h, _⟩; omega
      · rw [if_neg hge]
        cases hl : m.changelog with
        | none => simp; omega
        | some log =>
          have ht := replay_tracks (cur.storedVersion) log
          simp only
          generalize replay (cur.storedVersion) log = s at ht
          obtain ⟨added, removed⟩ := s
          simp only
          constructor
          · rintro ⟨e, he⟩
            refine ⟨by omega, ?_⟩
            split at he
            · rename_i e' he'
              obtain ⟨k, hk, h1, _⟩ := applyAdded_error he'
              exact ⟨k, (ht.added k).1 hk, h1⟩
            · cases he
          · rintro ⟨_, k, hk, hnone⟩
            split
            · rename_i e _; exact ⟨e, rfl⟩
            · rename_i ps hps
              have := (applyAdded_ok hps k).1 ((ht.added k).2 hk)
              rw [hnone] at this
              simp at this

/-- Both outcomes of the failure characterisation occur. -/
example : (∃ e, doUpgrade (V := Nat) ⟨none, []⟩
    ⟨some ⟨some 1, some [⟨1, [("a", "+")]⟩]⟩, []⟩ = .error e) ∧
    doUpgrade (V := Nat) ⟨none, []⟩
    ⟨some ⟨some 1, some [⟨1, [("a", "+")]⟩]⟩, [("a", 3)]⟩ =
      .ok ⟨some ⟨some 1, some [⟨1, [("a", "+")]⟩]⟩, [("a", 3)]⟩ := by
  exact ⟨⟨_, rfl⟩, by decide +kernel⟩

/-- **C02 (no downgrade).** A configuration at or above the shipped version is returned unchanged. -/
theorem upgrade_noop_if_current {V : Type} (cur dflt : Config V) (dv : Int)
    (hd : defaultVersion dflt = .ok dv) (h : dv ≤ cur.storedVersion) :
    doUpgrade cur dflt = .ok cur := by
  unfold doUpgrade; simp [hd, h, currentVersion_eq]

example : defaultVersion Shipped.defaultCHD = .ok 1 ∧
    (1 : Int) ≤ Shipped.defaultCHD.storedVersion := by decide

/-- **C02 (version reached).** A successful upgrade ends at the maximum of the two versions. -/
theorem upgrade_reaches_max_version {V : Type} (cur dflt res : Config V) (dv : Int)
    (hd : defaultVersion dflt = .ok dv) (hok : doUpgrade cur dflt = .ok res) :
    res.storedVersion = max (cur.storedVersion) dv := by
  by_cases h : dv ≤ cur.storedVersion
  · rw [upgrade_noop_if_current cur dflt dv hd h] at hok
    cases hok; omega
  · have hmax : max (cur.storedVersion) dv = dv := by omega
    rw [hmax]
    have hmeta : res.metainf = dflt.metainf := by
      unfold doUpgrade at hok
      simp only [hd, currentVersion_eq] at hok
      rw [if_neg (by omega)] at hok
      split at hok
      · cases hok
      · split at hok
        · cases hok
        · split at hok
          · cases hok
          · cases hok; rfl
    unfold defaultVersion at hd
    unfold Config.storedVersion
    rw [hmeta]
    split at hd
    · cases hd
    · rename_i m hm
      split at hd
      · cases hd
      · rename_i v hv
        cases hd; simp_all

/-- **C02 (idempotence).** Upgrading an upgraded configuration again changes nothing. -/
theorem upgrade_idempotent {V : Type} (cur dflt res : Config V)
    (hok : doUpgrade cur dflt = .ok res) : doUpgrade res dflt = .ok res := by
  cases hd : defaultVersion dflt with
  | error e => unfold doUpgrade at hok; simp [hd] at hok
  | ok dv =>
    refine upgrade_noop_if_current res dflt dv hd ?_
    rw [upgrade_reaches_max_version cur dflt res dv hd hok]
    omega

example : ∃ res, doUpgrade { metainf := none, params := [("c_cst", "3")] } Shipped.defaultCST
    = .ok res ∧ res.params.get? "c_cst" = some "3" := ⟨_, rfl, by decide +kernel⟩

/-- **C02 (reported version).** What `upgrade_config` reports is the version of the file it writes,
and after it no further upgrade is required. -/
theorem upgradeConfig_reports_written_version {V : Type} (cur dflt res : Config V) (v : Int)
    (hok : upgradeConfig cur dflt = .ok (res, v)) :
    configVersion res = .ok v ∧ requireUpgrade res dflt = .ok false := by
  unfold upgradeConfig at hok
  split at hok
  · cases hok
  · rename_i c hc
    split at hok
    · cases hok
    · rename_i v' hv'
      cases hok
      refine ⟨hv', ?_⟩
      cases hd : defaultVersion dflt with
      | error e => unfold doUpgrade at hc; simp [hd] at hc
      | ok dv =>
        have hmax := upgrade_reaches_max_version cur dflt res dv hd hc
        have hdv : configVersion dflt = .ok dv := by
          unfold defaultVersion at hd; unfold configVersion
          split at hd
          · cases hd
          · split at hd
            · cases hd
            · simp_all
        have hrv : res.storedVersion = v := by
          unfold configVersion at hv'; unfold Config.storedVersion
          split at hv'
          · cases hv'; simp_all
          · split at hv'
            · cases hv'
            · simp_all
        simp only [requireUpgrade, hv', hdv]
        simp only [Except.ok.injEq, decide_eq_false_iff_not]
        omega

example : upgradeConfig (V := String) ⟨none, []⟩ Shipped.defaultCST =
    .ok (⟨Shipped.defaultCST.metainf, []⟩, 0) := by rfl

/-- **C03.** Upgrading release by release equals upgrading once, provided the newer changelog
extends the older one with strictly newer entries and every parameter on which the extension has no
recognised operation has the same default value in both releases. -/
theorem upgrade_path_independent {V : Type} (cur d1 d2 c1 c2 : Config V) (m1 m2 : Meta)
    (v1 v2 : Int) (log ext : List Change)
    (hm1 : d1.metainf = some m1) (hv1 : m1.version = some v1) (hl1 : m1.changelog = some log)
    (hm2 : d2.metainf = some m2) (hv2 : m2.version = some v2) (hl2 : m2.changelog = some (log ++ ext))
    (h12 : v1 < v2)
    (hlog : ∀ c ∈ log, c.version ≤ v1) (hext : ∀ c ∈ ext, v1 < c.version)
    (hsame : ∀ k, (∀ c ∈ ext, ∀ p ∈ c.parameters, p.1 = k → effectOf p.2 = none) →
      d1.params.get? k = d2.params.get? k)
    (hop1 : doUpgrade cur d1 = .ok c1) (hop2 : doUpgrade c1 d2 = .ok c2) :
    ∃ direct, doUpgrade cur d2 = .ok direct ∧ direct.Same c2 := by
  have hd1 : defaultVersion d1 = .ok v1 := by simp [defaultVersion, hm1, hv1]
  by_cases hc : v1 ≤ cur.storedVersion
  · rw [upgrade_noop_if_current cur d1 v1 hd1 hc] at hop1
    cases hop1
    exact ⟨c2, hop2, rfl, fun _ => rfl⟩
  · have hlt1 : cur.storedVersion < v1 := by omega
    have hc1v : c1.storedVersion = v1 := by
      rw [upgrade_reaches_max_version cur d1 c1 v1 hd1 hop1]; omega
    obtain ⟨-, hr1⟩ := upgrade_gives_changelog_value cur d1 c1 m1 v1 log hm1 hv1 hl1 hlt1 hop1
    obtain ⟨hmeta2, hr2⟩ := upgrade_gives_changelog_value c1 d2 c2 m2 v2 (log ++ ext) hm2 hv2 hl2
      (by omega) hop2
    rw [hc1v] at hr2
    have hops2 : opsNewerThan v1 (log ++ ext) = opsNewerThan v1 ext := by
      rw [opsNewerThan_append, opsNewerThan_eq_nil hlog]; simp
    rw [hops2] at hr2
    have hopsC : opsNewerThan (cur.storedVersion) (log ++ ext) =
        opsNewerThan (cur.storedVersion) log ++ opsNewerThan v1 ext := by
      rw [opsNewerThan_append]
      congr 1
      exact opsNewerThan_of_all_newer (fun c h => by have := hext c h; omega) hext
    have hput : ∀ k, lastEffect (opsNewerThan (cur.storedVersion) (log ++ ext)) k = some .put →
        ∃ v, d2.params.get? k = some v ∧ c2.params.get? k = some v := by
      intro k hk
      rw [hopsC, lastEffect_append] at hk
      have h2 := hr2 k
      have h1 := hr1 k
      cases he : lastEffect (opsNewerThan v1 ext) k with
      | some ef =>
        rw [he] at hk h2; simp at hk; subst hk; simpa using h2
      | none =>
        rw [he] at hk h2; simp at hk h2
        rw [hk] at h1; simp at h1
        obtain ⟨v, hv, hv'⟩ := h1
        refine ⟨v, ?_, by rw [h2, hv']⟩
        rw [← hsame k ?_, hv]
        exact untouched_of_lastEffect_none hext he
    cases hdir : doUpgrade cur d2 with
    | error e =>
      exfalso
      have := (upgrade_fails_iff_default_broken cur d2).1 ⟨e, hdir⟩
      simp only [hm2, hv2, hl2] at this
      obtain ⟨_, k, hk, hnone⟩ := this
      obtain ⟨v, hv, _⟩ := hput k hk
      rw [hnone] at hv; cases hv
    | ok direct =>
      refine ⟨direct, rfl, ?_⟩
      obtain ⟨hmetaD, hrD⟩ := upgrade_gives_changelog_value cur d2 direct m2 v2 (log ++ ext)
        hm2 hv2 hl2 (by omega) hdir
      refine ⟨by rw [hmetaD, hmeta2], ?_⟩
      intro k
      have hD := hrD k
      have h2 := hr2 k
      have h1 := hr1 k
      have hp := hput k
      rw [hopsC] at hD hp
      rw [lastEffect_append] at hD hp
      cases he : lastEffect (opsNewerThan v1 ext) k with
      | some ef =>
        rw [he] at hD h2 hp
        cases ef <;> simp at hD h2
        · obtain ⟨a, ha, ha'⟩ := hD
          obtain ⟨b, hb, hb'⟩ := h2
          rw [ha', hb', ← ha, ← hb]
        · rw [hD, h2]
      | none =>
        rw [he] at hD h2 hp
        simp at hD h2 hp
        cases he1 : lastEffect (opsNewerThan (cur.storedVersion) log) k with
        | none => rw [he1] at hD h1; simp at hD h1; rw [hD, h2, h1]
        | some ef =>
          rw [he1] at hD h1 hp
          cases ef <;> simp at hD h1 hp
          · obtain ⟨a, ha, ha'⟩ := hD
            obtain ⟨b, hb, hb'⟩ := hp
            rw [ha', hb', ← ha, ← hb]
          · rw [hD, h2, h1]

/-- The hypotheses of C03 are met: version 0 → 1 → 2 where a key is added, then removed, and another
one is modified twice. -/
example :
    let log : List Change := [⟨1, [("a", "+"), ("b", "*")]⟩]
    let ext : List Change := [⟨2, [("a", "-"), ("b", "*")]⟩]
    let d1 : Config Nat := ⟨some ⟨some 1, some log⟩, [("a", 1), ("b", 10), ("c", 5)]⟩
    let d2 : Config Nat := ⟨some ⟨some 2, some (log ++ ext)⟩, [("b", 20), ("c", 5)]⟩
    let cur : Config Nat := ⟨none, [("b", 0), ("c", 7)]⟩
    (∃ c1 c2, doUpgrade cur d1 = .ok c1 ∧ doUpgrade c1 d2 = .ok c2 ∧
      c1.params = [("b", 10), ("c", 7), ("a", 1)] ∧ c2.params = [("b", 20), ("c", 7)]) ∧
    (∀ c ∈ log, c.version ≤ 1) ∧ (∀ c ∈ ext, 1 < c.version) ∧
    (∀ k, (∀ c ∈ ext, ∀ p ∈ c.parameters, p.1 = k → effectOf p.2 = none) →
      d1.params.get? k = d2.params.get? k) := by
  refine ⟨⟨_, _, rfl, rfl, by decide +kernel, by decide +kernel⟩, by decide, by decide, ?_⟩
  intro k hk
  have ha : ¬ "a" = k := fun h => by
    have := hk ⟨2, [("a", "-"), ("b", "*")]⟩ (by simp) ("a", "-") (by simp) h
    exact absurd this (by decide)
  have hb : ¬ "b" = k := fun h => by
    have := hk ⟨2, [("a", "-"), ("b", "*")]⟩ (by simp) ("b", "*") (by simp) h
    exact absurd this (by decide)
  simp [Dict.get?, Ne.symm ha, Ne.symm hb]

/-- Every shipped default is well formed: each key its changelog puts last is present. -/
theorem shipped_default_wellFormed :
    ∀ d ∈ [Shipped.defaultCHD, Shipped.defaultCNF, Shipped.defaultCST],
      ∃ m dv log, d.metainf = some m ∧ m.version = some dv ∧ m.changelog = some log ∧
        ∀ c ∈ log, ∀ p ∈ c.parameters, effectOf p.2 = some .put → (d.params.get? p.1).isSome := by
  intro d hd
  simp only [List.mem_cons, List.not_mem_nil, or_false] at hd
  rcases hd with rfl | rfl | rfl
  all_goals exact ⟨_, _, _, rfl, rfl, rfl, by decide +kernel⟩

/-- **C02 (shipped defaults).** No user file of any content or version makes the upgrade to a
shipped default fail. -/
theorem upgrade_to_shipped_never_fails (cur : Config String) :
    ∀ d ∈ [Shipped.defaultCHD, Shipped.defaultCNF, Shipped.defaultCST],
      ∃ res, doUpgrade cur d = .ok res := by
  intro d hd
  obtain ⟨m, dv, log, hm, hv, hl, hp⟩ := shipped_default_wellFormed d hd
  cases h : doUpgrade cur d with
  | ok res => exact ⟨res, rfl⟩
  | error e =>
    exfalso
    have := (upgrade_fails_iff_default_broken cur d).1 ⟨e, h⟩
    simp only [hm, hv, hl] at this
    obtain ⟨_, k, hk, hnone⟩ := this
    obtain ⟨c, hc, p, hpm, rfl, hpe⟩ := exists_of_lastEffect_some hk
    have := hp c hc p hpm hpe
    rw [hnone] at this; simp at this

/-- **C18 (default template).** A file copied from the shipped default never requires an upgrade. -/
theorem fresh_default_config_up_to_date :
    requireUpgrade Shipped.defaultCHD Shipped.defaultCHD = .ok false ∧
    requireUpgrade Shipped.defaultCNF Shipped.defaultCNF = .ok false ∧
    requireUpgrade Shipped.defaultCST Shipped.defaultCST = .ok false := by decide

/-- **C18 is violated for the CryoSat template**: a configuration freshly created from the CryoSat
template requires an upgrade, because its CHD is at version 0 and the reference CHD at version 1. -/
theorem fresh_cryosat_config_up_to_date_violated :
    requireUpgrade Shipped.cryosatCHD Shipped.defaultCHD = .ok true := by decide

/-- The remedy the tool proposes works: upgrading the fresh CryoSat CHD succeeds and leaves every
CryoSat value unchanged (the three listed parameters happen to agree with the reference). -/
theorem fresh_cryosat_upgrade_keeps_values :
    ∃ res, doUpgrade Shipped.cryosatCHD Shipped.defaultCHD = .ok res ∧
      res.params = Shipped.cryosatCHD.params ∧
      requireUpgrade res Shipped.defaultCHD = .ok false :=
  ⟨_, rfl, by decide +kernel, by decide +kernel⟩

end Dedop.Upgrade
