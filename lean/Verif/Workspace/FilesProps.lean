import Verif.Workspace.FilesLemmas
import Verif.Upgrade.Props

/-! # Files of a workspace: properties C14 – C18 -/
namespace Dedop.Workspace
open Dedop.Names

/-! ## C14 -/

/-- **C14, on return.**  Whatever the lengths of the old and the new text, the file then holds exactly
the new text; every other path is unchanged. -/
theorem rewrite_replaces_content (fs : FS) (w c key old text : Name)
    (h : view fs (cfgFile w c key) = some (.file old)) :
    (writeConfigFile fs w c key text).1 = .ok () ∧
    view (writeConfigFile fs w c key text).2 (cfgFile w c key) = some (.file text) ∧
    ∀ r, r ≠ cfgFile w c key → view (writeConfigFile fs w c key text).2 r = view fs r := by
  have hok : (writeConfigFile fs w c key text).1 = .ok () := by
    unfold writeConfigFile; unfold view at h; rw [h]
  refine ⟨hok, ?_, ?_⟩
  · rw [get?_writeConfigFile, if_pos ⟨hok, rfl⟩, h]
    simp only [rewritten, write_from_start, OpenFile.truncate, List.take_left]
  · intro r hr
    rw [get?_writeConfigFile, if_neg (fun h => hr h.2)]

/-- **C14, missing file.**  Rewriting a file that is not there is an error and changes nothing. -/
theorem rewrite_missing_file (fs : FS) (w c key text : Name)
    (h : ∀ old, view fs (cfgFile w c key) ≠ some (.file old)) :
    ∃ e, writeConfigFile fs w c key text = (.error e, fs) := by
  unfold writeConfigFile
  unfold view at h
  split
  · rename_i old ho; exact absurd ho (h old)
  · exact ⟨_, rfl⟩

/-- **C14, crash points.**  If the process dies in between, the file holds some first part of the new
text followed by the rest of the old one; before the first character it is the old text, and if the
new text is not shorter it is the new one after the last. -/
theorem rewrite_crash_content_partial (old text : Name) (k : Nat) :
    contentAfter old text k = text.take k ++ old.drop (min k text.length) ∧
    contentAfter old text 0 = old ∧
    (old.length ≤ text.length → contentAfter old text text.length = text) := by
  refine ⟨?_, ?_, ?_⟩
  · unfold contentAfter; rw [write_from_start, List.length_take]
  · unfold contentAfter; rw [write_from_start]; simp
  · intro h
    unfold contentAfter
    rw [write_from_start, List.take_length, List.drop_eq_nil_of_le h, List.append_nil]

/-- **C14 is violated at crash points**: the file can hold a mixture that is neither the old nor the new
text. -/
theorem rewrite_not_atomic_violated :
    ∃ old text k, contentAfter old text k ≠ old ∧ contentAfter old text k ≠ text :=
  ⟨"{\"a\": 1}".toList, "{\"b\": 22}".toList, 3, by decide +kernel, by decide +kernel⟩

example : rewritten "long old text".toList "new".toList = "new".toList := by decide +kernel

/-! ## C15 -/

/-- **C15, saving.**  Dying after the first `n` of the files leaves exactly these new and the others old
(`texts` in the order CHD, CNF, CST); nothing else changes.  All files exist before. -/
theorem save_interrupted (fs : FS) (w c : Name) (texts : List (Name × Name))
    (hkeys : (texts.map (·.1)).Nodup)
    (hex : ∀ kt ∈ texts, ∃ old, view fs (cfgFile w c kt.1) = some (.file old)) (n : Nat) :
    (saveConfigs fs w c (texts.take n)).1 = .ok () ∧
    (∀ kt ∈ texts.take n, view (saveConfigs fs w c (texts.take n)).2 (cfgFile w c kt.1) =
      some (.file kt.2)) ∧
    ∀ r, (∀ kt ∈ texts.take n, r ≠ cfgFile w c kt.1) →
      view (saveConfigs fs w c (texts.take n)).2 r = view fs r := by
  have hk : ((texts.take n).map (·.1)).Nodup := hkeys.sublist ((List.take_sublist _ _).map _)
  have hx : ∀ kt ∈ texts.take n, ∃ old, view fs (cfgFile w c kt.1) = some (.file old) :=
    fun kt h => hex kt (List.mem_of_mem_take h)
  clear hkeys hex
  generalize texts.take n = l at hk hx
  induction l generalizing fs with
  | nil => exact ⟨rfl, by simp, fun _ _ => rfl⟩
  | cons kt l ih =>
    obtain ⟨key, text⟩ := kt
    obtain ⟨old, ho⟩ := hx (key, text) List.mem_cons_self
    obtain ⟨h1, h2, h3⟩ := rewrite_replaces_content fs w c key old text ho
    rw [List.map_cons, List.nodup_cons] at hk
    have hne : ∀ kt ∈ l, cfgFile w c kt.1 ≠ cfgFile w c key := by
      intro kt hkt he
      exact hk.1 (List.mem_map.2 ⟨kt, hkt, cfgFile_inj he⟩)
    have hx1 : ∀ kt ∈ l, ∃ old,
        view (writeConfigFile fs w c key text).2 (cfgFile w c kt.1) = some (.file old) := by
      intro kt hkt
      rw [h3 _ (hne kt hkt)]
      exact hx kt (List.mem_cons_of_mem _ hkt)
    obtain ⟨i1, i2, i3⟩ := ih _ hk.2 hx1
    have hs : saveConfigs fs w c ((key, text) :: l) =
        saveConfigs (writeConfigFile fs w c key text).2 w c l := by
      rcases hw : writeConfigFile fs w c key text with ⟨r, fs1⟩
      rw [hw] at h1
      simp only at h1
      subst h1
      simp only [saveConfigs, hw]
    rw [hs]
    refine ⟨i1, ?_, ?_⟩
    · intro kt hkt
      rcases List.mem_cons.1 hkt with rfl | hkt
      · rw [i3]
        · exact h2
        · intro kt hkt h; exact hne kt hkt h.symm
      · exact i2 kt hkt
    · intro r hr
      rw [i3 r (fun kt hkt => hr kt (List.mem_cons_of_mem _ hkt)),
        h3 r (hr (key, text) List.mem_cons_self)]

open Upgrade in
theorem upgradeKeys_untouched {V : Type} (dflt cur : Name → Config V) (keys : List Name) (k : Name)
    (hk : k ∉ keys) : (upgradeKeys dflt cur keys).2 k = cur k := by
  induction keys generalizing cur with
  | nil => rfl
  | cons key keys ih =>
    simp only [List.mem_cons, not_or] at hk
    simp only [upgradeKeys]
    split
    · rfl
    · rename_i c v h
      have := ih (fun k => if k = key then c else cur k) hk.2
      rw [if_neg hk.1] at this
      rcases hu : upgradeKeys dflt (fun k => if k = key then c else cur k) keys with ⟨r, cur'⟩
      rw [hu] at this
      cases r <;> exact this

open Upgrade in
/-- **C15, upgrading, interrupted.**  Dying after the first `n` files leaves each of these upgraded and
the others as they were. -/
theorem upgrade_interrupted {V : Type} (dflt cur : Name → Config V) (keys : List Name)
    (hk : keys.Nodup) (n : Nat) (vs : List Int)
    (hok : (upgradeKeys dflt cur (keys.take n)).1 = .ok vs) :
    (∀ k ∈ keys.take n, ∃ v, upgradeConfig (cur k) (dflt k) =
      .ok ((upgradeKeys dflt cur (keys.take n)).2 k, v)) ∧
    ∀ k, k ∉ keys.take n → (upgradeKeys dflt cur (keys.take n)).2 k = cur k := by
  refine ⟨?_, fun k h => upgradeKeys_untouched dflt cur _ k h⟩
  have hk' : (keys.take n).Nodup := hk.sublist (List.take_sublist _ _)
  clear hk
  generalize keys.take n = l at hk' hok
  induction l generalizing cur vs with
  | nil => simp
  | cons key l ih =>
    rw [List.nodup_cons] at hk'
    intro k hkm
    simp only [upgradeKeys] at hok ⊢
    cases hu : upgradeConfig (cur key) (dflt key) with
    | error e => rw [hu] at hok; cases hok
    | ok cv =>
      obtain ⟨c, v⟩ := cv
      rw [hu] at hok
      simp only at hok ⊢
      rcases hr : upgradeKeys dflt (fun k => if k = key then c else cur k) l with ⟨r, cur'⟩
      rw [hr] at hok
      cases r with
      | error e => cases hok
      | ok vs' =>
        simp only
        have hih := ih (fun k => if k = key then c else cur k) vs' hk'.2 (by rw [hr])
        rw [hr] at hih
        rcases List.mem_cons.1 hkm with rfl | hkl
        · have hun := upgradeKeys_untouched dflt (fun j => if j = k then c else cur j) l k hk'.1
          rw [hr] at hun
          simp only [if_true] at hun
          exact ⟨v, by rw [hun, hu]⟩
        · obtain ⟨v', hv'⟩ := hih k hkl
          have hne : k ≠ key := by rintro rfl; exact hk'.1 hkl
          rw [if_neg hne] at hv'
          exact ⟨v', hv'⟩

open Upgrade in
theorem upgradeConfig_idem {V : Type} (cur dflt c : Config V) (v : Int)
    (h : upgradeConfig cur dflt = .ok (c, v)) : upgradeConfig c dflt = .ok (c, v) := by
  unfold upgradeConfig at h ⊢
  split at h
  · cases h
  · rename_i c' hc
    split at h
    · cases h
    · rename_i v' hv
      simp only [Except.ok.injEq, Prod.mk.injEq] at h
      obtain ⟨rfl, rfl⟩ := h
      rw [upgrade_idempotent cur dflt c' hc]
      simp only [hv]

open Upgrade in
theorem upgradeKeys_congr {V : Type} (dflt : Name → Config V) (keys : List Name) (hk : keys.Nodup)
    (a b : Name → Config V) (h1 : ∀ k ∈ keys, upgradeConfig (a k) (dflt k) = upgradeConfig (b k) (dflt k))
    (h2 : ∀ k, k ∉ keys → a k = b k) (vs : List Int) (hok : (upgradeKeys dflt a keys).1 = .ok vs) :
    upgradeKeys dflt b keys = upgradeKeys dflt a keys := by
  induction keys generalizing a b vs with
  | nil =>
    have : a = b := funext fun k => h2 k (by simp)
    rw [this]
  | cons key keys ih =>
    rw [List.nodup_cons] at hk
    simp only [upgradeKeys] at hok ⊢
    rw [← h1 key List.mem_cons_self]
    cases hu : upgradeConfig (a key) (dflt key) with
    | error e => rw [hu] at hok; cases hok
    | ok cv =>
      obtain ⟨c, v⟩ := cv
      rw [hu] at hok
      simp only at hok ⊢
      rcases hr : upgradeKeys dflt (fun k => if k = key then c else a k) keys with ⟨r, cur'⟩
      rw [hr] at hok
      cases r with
      | error e => cases hok
      | ok vs' =>
        have := ih hk.2 (fun k => if k = key then c else a k) (fun k => if k = key then c else b k)
          (by
            intro k hkm
            have hne : k ≠ key := by rintro rfl; exact hk.1 hkm
            simp only [if_neg hne]
            exact h1 k (List.mem_cons_of_mem _ hkm))
          (by
            intro k hkm
            by_cases hke : k = key
            · simp [hke]
            · simp only [if_neg hke]
              exact h2 k (by simp [hke, hkm]))
          vs' (by rw [hr])
        rw [this, hr]

open Upgrade in
/-- **C15, re-run.**  If the whole upgrade would succeed, then after an interruption behind any number of
files a re-run gives exactly the same files and reported versions as an uninterrupted upgrade. -/
theorem upgrade_rerun_completes {V : Type} (dflt cur : Name → Config V) (keys : List Name)
    (hk : keys.Nodup) (n : Nat) (vs : List Int) (hok : (upgradeKeys dflt cur keys).1 = .ok vs) :
    upgradeKeys dflt (upgradeKeys dflt cur (keys.take n)).2 keys = upgradeKeys dflt cur keys := by
  have hprefix : ∃ vs', (upgradeKeys dflt cur (keys.take n)).1 = .ok vs' := by
    clear hk
    induction keys generalizing cur n vs with
    | nil => exact ⟨[], by simp [upgradeKeys]⟩
    | cons key keys ih =>
      cases n with
      | zero => exact ⟨[], rfl⟩
      | succ n =>
        simp only [upgradeKeys, List.take_succ_cons] at hok ⊢
        cases hu : upgradeConfig (cur key) (dflt key) with
        | error e => rw [hu] at hok; cases hok
        | ok cv =>
          obtain ⟨c, v⟩ := cv
          rw [hu] at hok
          simp only at hok ⊢
          rcases hr : upgradeKeys dflt (fun k => if k = key then c else cur k) keys with ⟨r, cur'⟩
          rw [hr] at hok
          cases r with
          | error e => cases hok
          | ok vs1 =>
            obtain ⟨vs', h'⟩ := ih (fun k => if k = key then c else cur k) n vs1 (by rw [hr])
            rcases hr2 : upgradeKeys dflt (fun k => if k = key then c else cur k) (keys.take n)
              with ⟨r2, cur2⟩
            rw [hr2] at h'
            simp only at h'
            subst h'
            exact ⟨_, rfl⟩
  obtain ⟨vs', hvs'⟩ := hprefix
  obtain ⟨h1, h2⟩ := upgrade_interrupted dflt cur keys hk n vs' hvs'
  refine upgradeKeys_congr dflt keys hk cur _ ?_ ?_ vs hok
  · intro k _
    by_cases hkn : k ∈ keys.take n
    · obtain ⟨v, hv⟩ := h1 k hkn
      rw [hv]
      exact (upgradeConfig_idem _ _ _ _ hv).symm
    · rw [h2 k hkn]
  · intro k hkn
    exact (h2 k (fun h => hkn (List.mem_of_mem_take h))).symm

example :
    let dflt : Name → Upgrade.Config String := fun k =>
      if k = "CHD".toList then Upgrade.Shipped.defaultCHD
      else if k = "CNF".toList then Upgrade.Shipped.defaultCNF else Upgrade.Shipped.defaultCST
    let cur : Name → Upgrade.Config String := fun _ => ⟨none, []⟩
    cfgKeys.Nodup ∧ (upgradeKeys dflt cur cfgKeys).1 = .ok [1, 3, 0] := by
  decide +kernel

/-! ## C16 -/

/-- The contents of the last given path with a base name. -/
def lastContent (paths : List Source) (base : Name) : Option Name :=
  (paths.reverse.find? (fun s => s.base = base)).bind (·.content)

/-- All entries of `dir` are regular files. -/
def OnlyFiles (g : View) (dir : Path) : Prop := ∀ n, g (dir ++ [n]) ≠ some .dir

theorem addLoop_spec (fs : FS) (dir : Path) (progress : Nat) (paths : List Source)
    (hfiles : OnlyFiles (view fs) dir) (hd : view fs dir = some .dir) :
    ((∀ s ∈ paths, s.base ≠ [] ∧ s.content ≠ none) →
      (addLoop fs dir progress paths).1 = .ok ()) ∧
    ((addLoop fs dir progress paths).1 = .ok () →
      (addLoop fs dir progress paths).2.2 = progress + paths.length ∧
      (∀ s ∈ paths, s.base ≠ [] ∧ s.content ≠ none) ∧
      ∀ r, view (addLoop fs dir progress paths).2.1 r =
        match paths.reverse.find? (fun s => decide (r = dir ++ [s.base])) with
        | some s => s.content.map Entry.file
        | none => view fs r) := by
  induction paths generalizing fs progress with
  | nil =>
    refine ⟨fun _ => rfl, fun _ => ⟨rfl, by simp, fun r => rfl⟩⟩
  | cons s rest ih =>
    have hnd : ¬ fs.isDir (dir ++ [s.base]) = true := by
      rw [FS.isDir_iff]; exact hfiles s.base
    have hcopy : ∀ text, s.content = some text → s.base ≠ [] →
        copyInto fs dir s = .ok (Dict.set fs (dir ++ [s.base]) (.file text)) := by
      intro text h1 h2
      unfold copyInto
      rw [h1]
      simp only [if_neg h2, if_neg hnd]
      exact FS.write_succeeds fs _ _ (by rw [List.dropLast_concat]; exact hd) (hfiles s.base)
    have hv1 : ∀ text r, view (Dict.set fs (dir ++ [s.base]) (.file text)) r =
        if r = dir ++ [s.base] then some (.file text) else view fs r :=
      fun text r => FS.get?_set _ _ _ _
    have hfiles1 : ∀ text, OnlyFiles (view (Dict.set fs (dir ++ [s.base]) (.file text))) dir := by
      intro text n
      rw [hv1]
      split
      · simp
      · exact hfiles n
    have hd1 : ∀ text, view (Dict.set fs (dir ++ [s.base]) (.file text)) dir = some .dir := by
      intro text
      rw [hv1, if_neg (fun h => by have := congrArg List.length h; simp at this)]
      exact hd
    constructor
    · intro hall
      obtain ⟨hb, hc⟩ := hall s List.mem_cons_self
      obtain ⟨text, htext⟩ := Option.ne_none_iff_exists'.1 hc
      simp only [addLoop, hcopy text htext hb]
      exact (ih _ _ (hfiles1 text) (hd1 text)).1 (fun x hx => hall x (List.mem_cons_of_mem _ hx))
    · intro hok
      have hb : s.base ≠ [] := by
        intro hb
        simp only [addLoop] at hok
        unfold copyInto at hok
        cases hc : s.content with
        | none => rw [hc] at hok; cases hok
        | some text => rw [hc] at hok; simp only [if_pos hb] at hok; cases hok
      have hc : s.content ≠ none := by
        intro hc
        simp only [addLoop] at hok
        unfold copyInto at hok
        rw [hc] at hok; cases hok
      obtain ⟨text, htext⟩ := Option.ne_none_iff_exists'.1 hc
      simp only [addLoop, hcopy text htext hb] at hok ⊢
      obtain ⟨h1, h2, h3⟩ := (ih _ _ (hfiles1 text) (hd1 text)).2 hok
      refine ⟨by rw [h1, List.length_cons]; omega, ?_, ?_⟩
      · intro x hx
        rcases List.mem_cons.1 hx with rfl | hx
        · exact ⟨hb, hc⟩
        · exact h2 x hx
      · intro r
        rw [h3 r, List.reverse_cons, List.find?_append]
        cases hf : rest.reverse.find? (fun s => decide (r = dir ++ [s.base])) with
        | some x => simp
        | none =>
          simp only [Option.none_or, List.find?_cons, List.find?_nil]
          rw [hv1]
          by_cases hr : r = dir ++ [s.base]
          · simp [hr, htext]
          · simp [hr]

/-- **C16, adding.**  If `add_inputs` succeeds (the inputs directory holding regular files only), then for
every given path the inputs directory has a file of its base name with the contents of the last given
path of that base name, every other path is unchanged, and progress was reported once per path. -/
theorem add_inputs_exact (fs : FS) (w : Name) (paths : List Source)
    (hdir : view fs (comp w ++ ["inputs".toList]) = some .dir)
    (hfiles : OnlyFiles (view fs) (comp w ++ ["inputs".toList]))
    (hok : (addInputs fs w paths).1 = .ok ()) :
    (∀ s ∈ paths, view (addInputs fs w paths).2.1 (comp w ++ ["inputs".toList] ++ [s.base]) =
      (lastContent paths s.base).map Entry.file ∧ (lastContent paths s.base).isSome) ∧
    (∀ r, (∀ s ∈ paths, r ≠ comp w ++ ["inputs".toList] ++ [s.base]) →
      view (addInputs fs w paths).2.1 r = view fs r) ∧
    (addInputs fs w paths).2.2 = paths.length := by
  have he : addInputs fs w paths = addLoop fs (comp w ++ ["inputs".toList]) 0 paths := by
    unfold addInputs ensureDir
    rw [if_pos (by
      rw [FS.exists?_iff]
      show view fs (comp w ++ ["inputs".toList]) ≠ none
      rw [hdir]; simp)]
    rfl
  rw [he] at hok ⊢
  obtain ⟨h1, h2, h3⟩ := (addLoop_spec fs _ 0 paths hfiles hdir).2 hok
  refine ⟨?_, ?_, by simpa using h1⟩
  · intro s hs
    rw [h3]
    have hfind : paths.reverse.find? (fun x => decide
        (comp w ++ ["inputs".toList] ++ [s.base] = comp w ++ ["inputs".toList] ++ [x.base])) =
        paths.reverse.find? (fun x => x.base = s.base) := by
      congr 1
      funext x
      by_cases hx : x.base = s.base
      · simp [hx]
      · have : ¬ s.base = x.base := fun h => hx h.symm
        simp [hx, this]
    rw [hfind]
    unfold lastContent
    cases hf : paths.reverse.find? (fun x => decide (x.base = s.base)) with
    | none =>
      have := List.find?_eq_none.1 hf s (by simpa using hs)
      simp at this
    | some x =>
      have hx : x ∈ paths := by simpa using List.mem_of_find?_eq_some hf
      refine ⟨rfl, ?_⟩
      simpa using Option.isSome_iff_ne_none.2 (h2 x hx).2
  · intro r hr
    rw [h3]
    have : paths.reverse.find? (fun s => decide (r = comp w ++ ["inputs".toList] ++ [s.base])) = none := by
      rw [List.find?_eq_none]
      intro s hs
      simpa using hr s (by simpa using hs)
    rw [this]

/-- **C16, adding succeeds** when every source can be read. -/
theorem add_inputs_succeeds (fs : FS) (w : Name) (paths : List Source)
    (hdir : view fs (comp w ++ ["inputs".toList]) = some .dir)
    (hfiles : OnlyFiles (view fs) (comp w ++ ["inputs".toList]))
    (hread : ∀ s ∈ paths, s.base ≠ [] ∧ s.content ≠ none) :
    (addInputs fs w paths).1 = .ok () := by
  have he : addInputs fs w paths = addLoop fs (comp w ++ ["inputs".toList]) 0 paths := by
    unfold addInputs ensureDir
    rw [if_pos (by
      rw [FS.exists?_iff]
      show view fs (comp w ++ ["inputs".toList]) ≠ none
      rw [hdir]; simp)]
    rfl
  rw [he]
  exact (addLoop_spec fs _ 0 paths hfiles hdir).1 hread

theorem view_erase (fs : FS) (p r : Path) :
    view (Dict.erase fs p) r = if r = p then none else view fs r := Dict.get?_erase fs p r

/-- **C16, removing.**  Successful `remove_inputs` removes exactly the named files (names that are not
there are skipped), and reports progress once per name; it succeeds unless a name is that of a
directory. -/
theorem remove_inputs_exact (fs : FS) (w : Name) (names : List Name) :
    ((∀ n ∈ names, view fs (comp w ++ ["inputs".toList] ++ comp n) ≠ some .dir) →
      (removeInputs fs w names).1 = .ok ()) ∧
    ((removeInputs fs w names).1 = .ok () →
      (∀ n ∈ names, view (removeInputs fs w names).2.1 (comp w ++ ["inputs".toList] ++ comp n) = none) ∧
      (∀ r, (∀ n ∈ names, r ≠ comp w ++ ["inputs".toList] ++ comp n) →
        view (removeInputs fs w names).2.1 r = view fs r) ∧
      (removeInputs fs w names).2.2 = names.length) := by
  have key : ∀ (ps : List Path) (fs : FS) (k : Nat),
      ((∀ p ∈ ps, view fs p ≠ some .dir) → (removeLoop fs k ps).1 = .ok ()) ∧
      ((removeLoop fs k ps).1 = .ok () →
        (∀ p ∈ ps, view (removeLoop fs k ps).2.1 p = none) ∧
        (∀ r, (∀ p ∈ ps, r ≠ p) → view (removeLoop fs k ps).2.1 r = view fs r) ∧
        (∀ r, view fs r = none → view (removeLoop fs k ps).2.1 r = none) ∧
        (removeLoop fs k ps).2.2 = k + ps.length) := by
    intro ps
    induction ps with
    | nil =>
      intro fs k
      exact ⟨fun _ => rfl, fun _ => ⟨by simp, fun _ _ => rfl, fun _ h => h, rfl⟩⟩
    | cons p ps ih =>
      intro fs k
      cases hp : view fs p with
      | none =>
        have hstep : removeLoop fs k (p :: ps) = removeLoop fs (k + 1) ps := by
          unfold view at hp; simp only [removeLoop, hp]
        rw [hstep]
        obtain ⟨i1, i2⟩ := ih fs (k + 1)
        refine ⟨fun h => i1 (fun q hq => h q (List.mem_cons_of_mem _ hq)), fun hok => ?_⟩
        obtain ⟨j1, j2, j3, j4⟩ := i2 hok
        refine ⟨?_, fun r hr => j2 r (fun q hq => hr q (List.mem_cons_of_mem _ hq)), j3, ?_⟩
        · intro q hq
          rcases List.mem_cons.1 hq with rfl | hq
          · exact j3 _ hp
          · exact j1 q hq
        · rw [j4, List.length_cons]; omega
      | some e =>
        cases e with
        | dir =>
          have hstep : removeLoop fs k (p :: ps) =
              (.error (.workspaceError "cannot remove"), fs, k) := by
            unfold view at hp; simp only [removeLoop, hp]
          rw [hstep]
          exact ⟨fun h => absurd hp (h p List.mem_cons_self), fun h => by cases h⟩
        | file s =>
          have hstep : removeLoop fs k (p :: ps) = removeLoop (Dict.erase fs p) (k + 1) ps := by
            unfold view at hp; simp only [removeLoop, hp]
          rw [hstep]
          obtain ⟨i1, i2⟩ := ih (Dict.erase fs p) (k + 1)
          refine ⟨fun h => i1 (fun q hq => ?_), fun hok => ?_⟩
          · rw [view_erase]
            split
            · simp
            · exact h q (List.mem_cons_of_mem _ hq)
          · obtain ⟨j1, j2, j3, j4⟩ := i2 hok
            refine ⟨?_, ?_, ?_, ?_⟩
            · intro q hq
              rcases List.mem_cons.1 hq with rfl | hq
              · exact j3 _ (by rw [view_erase, if_pos rfl])
              · exact j1 q hq
            · intro r hr
              rw [j2 r (fun q hq => hr q (List.mem_cons_of_mem _ hq)), view_erase,
                if_neg (hr p List.mem_cons_self)]
            · intro r hr
              exact j3 r (by rw [view_erase]; split <;> [rfl; exact hr])
            · rw [j4, List.length_cons]; omega
  unfold removeInputs
  obtain ⟨k1, k2⟩ := key (names.map (fun n => comp w ++ [inputsDir] ++ comp n)) fs 0
  refine ⟨fun h => k1 ?_, fun hok => ?_⟩
  · intro p hp
    obtain ⟨n, hn, rfl⟩ := List.mem_map.1 hp
    exact h n hn
  · obtain ⟨j1, j2, -, j4⟩ := k2 hok
    refine ⟨fun n hn => j1 _ (List.mem_map.2 ⟨n, hn, rfl⟩), fun r hr => j2 r ?_, by simpa using j4⟩
    intro p hp
    obtain ⟨n, hn, rfl⟩ := List.mem_map.1 hp
    exact hr n hn

/-- A workspace with two inputs. -/
def inputsExample : FS :=
  [([], .dir), (["w".toList], .dir), (["w".toList, "inputs".toList], .dir),
   (["w".toList, "inputs".toList, "a.nc".toList], .file "old".toList)]

example :
    let r := addInputs inputsExample "w".toList
      [⟨"a.nc".toList, some "1".toList⟩, ⟨"b.nc".toList, some "2".toList⟩,
       ⟨"a.nc".toList, some "3".toList⟩]
    r.1 = .ok () ∧ r.2.2 = 3 ∧
    view r.2.1 ["w".toList, "inputs".toList, "a.nc".toList] = some (.file "3".toList) ∧
    (removeInputs r.2.1 "w".toList ["b.nc".toList, "zz".toList]).1 = .ok () := by
  decide +kernel

/-! ## C17 -/

theorem removeOutLoop_ok (d : Dict Name Kind) (names : List Name)
    (hok : (removeOutLoop d names).1 = .ok ()) :
    (∀ n ∈ names, Dict.get? (removeOutLoop d names).2 n = none ∨
      Dict.get? (removeOutLoop d names).2 n = some .brokenLink) ∧
    ∀ n v, Dict.get? (removeOutLoop d names).2 n = some v → Dict.get? d n = some v := by
  induction names generalizing d with
  | nil => exact ⟨by simp, fun _ _ h => h⟩
  | cons m rest ih =>
    have herase : ∀ (j1 : ∀ n ∈ rest, Dict.get? (removeOutLoop (Dict.erase d m) rest).2 n = none ∨
          Dict.get? (removeOutLoop (Dict.erase d m) rest).2 n = some .brokenLink)
        (j2 : ∀ n v, Dict.get? (removeOutLoop (Dict.erase d m) rest).2 n = some v →
          Dict.get? (Dict.erase d m) n = some v),
        (∀ n ∈ m :: rest, Dict.get? (removeOutLoop (Dict.erase d m) rest).2 n = none ∨
          Dict.get? (removeOutLoop (Dict.erase d m) rest).2 n = some .brokenLink) ∧
        ∀ n v, Dict.get? (removeOutLoop (Dict.erase d m) rest).2 n = some v →
          Dict.get? d n = some v := by
      intro j1 j2
      refine ⟨?_, ?_⟩
      · intro n hn
        rcases List.mem_cons.1 hn with rfl | hn
        · left
          by_contra hne
          obtain ⟨v, hv⟩ := Option.ne_none_iff_exists'.1 hne
          have := j2 _ _ hv
          rw [Dict.get?_erase, if_pos rfl] at this
          cases this
        · exact j1 n hn
      · intro n v hv
        have := j2 n v hv
        rw [Dict.get?_erase] at this
        split at this
        · cases this
        · exact this
    simp only [removeOutLoop] at hok ⊢
    cases hm : Dict.get? d m with
    | none =>
      rw [hm] at hok
      simp only at hok ⊢
      obtain ⟨j1, j2⟩ := ih d hok
      refine ⟨?_, j2⟩
      intro n hn
      rcases List.mem_cons.1 hn with rfl | hn
      · left
        by_contra hne
        obtain ⟨v, hv⟩ := Option.ne_none_iff_exists'.1 hne
        rw [j2 _ _ hv] at hm; cases hm
      · exact j1 n hn
    | some kd =>
      rw [hm] at hok
      cases kd with
      | brokenLink =>
        simp only at hok ⊢
        obtain ⟨j1, j2⟩ := ih d hok
        refine ⟨?_, j2⟩
        intro n hn
        rcases List.mem_cons.1 hn with rfl | hn
        · by_cases hne : Dict.get? (removeOutLoop d rest).2 n = none
          · exact Or.inl hne
          · obtain ⟨v, hv⟩ := Option.ne_none_iff_exists'.1 hne
            have hv' := j2 _ _ hv
            rw [hm] at hv'
            cases hv'
            exact Or.inr hv
        · exact j1 n hn
      | dir => cases hok
      | file =>
        simp only at hok ⊢
        obtain ⟨j1, j2⟩ := ih _ hok
        exact herase j1 j2
      | link =>
        simp only at hok ⊢
        obtain ⟨j1, j2⟩ := ih _ hok
        exact herase j1 j2

/-- **C17 (`_partial`: no broken symbolic links).**  `remove_outputs` fails with `WorkspaceError` or leaves
an empty directory.  With broken links exactly these may remain.  Missing: broken links, for which
the claim is false (`outputs_remain_violated`). -/
theorem outputs_removed_partial (d : Dict Name Kind) :
    ((removeOutputs (some d)).1 = .ok () →
      ∃ d', (removeOutputs (some d)).2 = some d' ∧
        ∀ n k, Dict.get? d' n = some k → k = .brokenLink ∧ Dict.get? d n = some .brokenLink) ∧
    ((∀ n, Dict.get? d n ≠ some .brokenLink) → (removeOutputs (some d)).1 = .ok () →
      ∃ d', (removeOutputs (some d)).2 = some d' ∧ ∀ n, Dict.get? d' n = none) ∧
    (∀ e, (removeOutputs (some d)).1 = .error e → ∃ m, e = .workspaceError m) ∧
    ∃ m, (removeOutputs none).1 = .error (.workspaceError m) := by
  have main : (removeOutputs (some d)).1 = .ok () →
      ∃ d', (removeOutputs (some d)).2 = some d' ∧
        ∀ n k, Dict.get? d' n = some k → k = .brokenLink ∧ Dict.get? d n = some .brokenLink := by
    intro hok
    refine ⟨_, rfl, ?_⟩
    obtain ⟨h1, h2⟩ := removeOutLoop_ok d (List.map Prod.fst d) hok
    intro n k hk
    have hd := h2 n k hk
    have hmem : n ∈ List.map Prod.fst d := by
      by_contra hn
      rw [get?_none_of_not_mem d n hn] at hd; cases hd
    rcases h1 n hmem with h | h
    · rw [hk] at h; cases h
    · rw [hk] at h
      cases h
      exact ⟨rfl, hd⟩
  refine ⟨main, ?_, ?_, ⟨_, rfl⟩⟩
  · intro hnb hok
    obtain ⟨d', h1, h2⟩ := main hok
    refine ⟨d', h1, fun n => ?_⟩
    by_contra hne
    obtain ⟨k, hk⟩ := Option.ne_none_iff_exists'.1 hne
    exact hnb n (h2 n k hk).2
  · intro e he
    have : ∀ (names : List Name) (d : Dict Name Kind) (e : PyErr),
        (removeOutLoop d names).1 = .error e → ∃ m, e = .workspaceError m := by
      intro names
      induction names with
      | nil => intro d e h; cases h
      | cons n rest ih =>
        intro d e h
        simp only [removeOutLoop] at h
        split at h
        · exact ih _ _ h
        · exact ih _ _ h
        · cases h; exact ⟨_, rfl⟩
        · exact ih _ _ h
        · exact ih _ _ h
    exact this _ _ _ he

/-- **C17 is violated for broken symbolic links**: success is reported although an entry remains. -/
theorem outputs_remain_violated :
    ∃ d d' : Dict Name Kind, removeOutputs (some d) = (.ok (), some d') ∧
      Dict.get? d' "L1B_x.nc".toList ≠ none :=
  ⟨[("L1B_x.nc".toList, .brokenLink), ("L1B_y.nc".toList, .file)], _, rfl, by decide +kernel⟩

example : removeOutputs (some [("a.nc".toList, .file), ("b.nc".toList, .link)]) = (.ok (), some []) ∧
    (removeOutputs (some [("a.nc".toList, .file), ("d".toList, .dir)])).1 =
      .error (.workspaceError "cannot remove") := by decide +kernel

/-! ## C18 -/

theorem copyResource_ok (fs : FS) (p : Path) (s : Name) (h1 : view fs p.dropLast = some .dir)
    (h2 : view fs p ≠ some .dir) :
    ∃ fs', copyResource fs p s = (.ok (), fs') ∧
      ∀ r, view fs' r = if r = p then some (.file s) else view fs r := by
  unfold copyResource
  rcases writeline_cases fs p s with h | h
  · refine ⟨(writeline fs p s).2, ?_, h.2.2.2⟩
    rw [← h.1]
  · exact absurd ⟨h1, h2⟩ h.2.2

/-- **C18, complete.**  In an existing workspace, creating a configuration under a free name succeeds; its
directory then holds exactly the three template files; it is reported as existing; creating it again
is an error that changes nothing. -/
theorem create_config_complete (fs : FS) (htree : IsTree (view fs)) (w c : Name) (hw : w ≠ [])
    (hc : c ≠ []) (t : Templates) (hws : view fs [w] = some .dir)
    (hcfgs : view fs [w, "configs".toList] = none ∨ view fs [w, "configs".toList] = some .dir)
    (hfree : view fs [w, "configs".toList, c] = none) :
    ∃ fs', createConfig fs w c t = (.ok (), fs') ∧
      view fs' [w, "configs".toList, c] = some .dir ∧
      view fs' [w, "configs".toList, c, "CHD.json".toList] = some (.file t.chd) ∧
      view fs' [w, "configs".toList, c, "CNF.json".toList] = some (.file t.cnf) ∧
      view fs' [w, "configs".toList, c, "CST.json".toList] = some (.file t.cst) ∧
      (∀ n, n ∉ ["CHD.json".toList, "CNF.json".toList, "CST.json".toList] →
        view fs' [w, "configs".toList, c, n] = none) ∧
      configExists fs' w c = true ∧
      ∀ t', ∃ e, createConfig fs' w c t' = (.error e, fs') := by
  have hpath : cfgPath w c = [w, "configs".toList, c] := cfgPath_plain hw hc
  have hroot : view fs [] = some .dir := htree [] w (by
    show view fs [w] ≠ none; rw [hws]; simp)
  have hbelow := tree_none_below htree hfree
  -- the directory is made
  have hmk : ∃ fs1, fs.makedirs [w, "configs".toList, c] = .ok fs1 := by
    have m1 : fs.mkdirOk [] = .ok fs := by
      unfold FS.mkdirOk; unfold view at hroot; rw [hroot]
    have m2 : fs.mkdirOk [w] = .ok fs := by
      unfold FS.mkdirOk; unfold view at hws; rw [hws]
    have m3 : ∃ fs2, fs.mkdirOk [w, "configs".toList] = .ok fs2 ∧
        Dict.get? fs2 [w, "configs".toList, c] = none := by
      unfold FS.mkdirOk
      unfold view at hcfgs hfree
      rcases hcfgs with h | h
      · rw [h]
        exact ⟨_, rfl, by rw [FS.get?_set, if_neg (by simp)]; exact hfree⟩
      · rw [h]; exact ⟨_, rfl, hfree⟩
    obtain ⟨fs2, e2, n2⟩ := m3
    have m4 : ∃ fs3, fs2.mkdirOk [w, "configs".toList, c] = .ok fs3 := by
      unfold FS.mkdirOk; rw [n2]; exact ⟨_, rfl⟩
    obtain ⟨fs3, e3⟩ := m4
    unfold FS.makedirs
    simp only [FS.makedirsFrom, List.nil_append, m1, m2, List.cons_append, e2, e3]
    exact ⟨_, rfl⟩
  obtain ⟨fs1, hfs1⟩ := hmk
  have hg1 : ∀ r, view fs1 r = if r <+: [w, "configs".toList, c] then some .dir else view fs r :=
    FS.makedirs_ok hfs1
  have hens : ensureDir fs (cfgPath w c) = (.ok (), fs1) := by
    unfold ensureDir
    rw [hpath, if_neg (by rw [FS.exists?_iff, not_not]; exact hfree), hfs1]
  have hnot : ∀ f : Name, ¬ ([w, "configs".toList, c, f] : Path) <+: [w, "configs".toList, c] := by
    intro f h; have := h.length_le; simp at this
  have hdir1 : view fs1 [w, "configs".toList, c] = some .dir := by
    rw [hg1, if_pos (List.prefix_refl _)]
  have hno1 : ∀ f : Name, view fs1 [w, "configs".toList, c, f] = none := by
    intro f
    rw [hg1, if_neg (hnot f)]
    exact hbelow [f]
  obtain ⟨fs2, e2, g2⟩ := copyResource_ok fs1 [w, "configs".toList, c, "CHD.json".toList] t.chd
    hdir1 (by rw [hno1]; simp)
  have hl : ∀ f : Name, ([w, "configs".toList, c] : Path) ≠ [w, "configs".toList, c, f] := by
    intro f h; have := congrArg List.length h; simp at this
  have hne : ∀ f f' : Name, f ≠ f' →
      ([w, "configs".toList, c, f] : Path) ≠ [w, "configs".toList, c, f'] := by
    intro f f' h1 h2; simp at h2; exact h1 h2
  obtain ⟨fs3, e3, g3⟩ := copyResource_ok fs2 [w, "configs".toList, c, "CNF.json".toList] t.cnf
    (by show view fs2 [w, "configs".toList, c] = _
        rw [g2, if_neg (hl _)]; exact hdir1)
    (by rw [g2, if_neg (hne _ _ (by decide)), hno1]; simp)
  obtain ⟨fs4, e4, g4⟩ := copyResource_ok fs3 [w, "configs".toList, c, "CST.json".toList] t.cst
    (by show view fs3 [w, "configs".toList, c] = _
        rw [g3, if_neg (hl _), g2, if_neg (hl _)]; exact hdir1)
    (by rw [g3, if_neg (hne _ _ (by decide)), g2, if_neg (hne _ _ (by decide)), hno1]; simp)
  have hdir4 : view fs4 [w, "configs".toList, c] = some .dir := by
    rw [g4, if_neg (hl _), g3, if_neg (hl _), g2, if_neg (hl _)]; exact hdir1
  have hchd : view fs4 [w, "configs".toList, c, "CHD.json".toList] = some (.file t.chd) := by
    rw [g4, if_neg (hne _ _ (by decide)), g3, if_neg (hne _ _ (by decide)), g2, if_pos rfl]
  have hexists : configExists fs4 w c = true := by
    unfold configExists
    rw [hpath, Bool.and_eq_true, FS.isDir_iff]
    refine ⟨hdir4, ?_⟩
    have hm : "CHD.json".toList ∈ FS.listdir fs4 [w, "configs".toList, c] :=
      (FS.mem_listdir _ _ _).2 (by
        show view fs4 [w, "configs".toList, c, "CHD.json".toList] ≠ none
        rw [hchd]; simp)
    cases hls : FS.listdir fs4 [w, "configs".toList, c] with
    | nil => rw [hls] at hm; cases hm
    | cons a l => rfl
  have hnoconf : ¬ configExists fs w c = true := by
    unfold configExists
    rw [hpath, Bool.and_eq_true, FS.isDir_iff]
    rintro ⟨h, -⟩
    unfold view at hfree
    rw [hfree] at h; cases h
  have hwsx : ∀ fs' : FS, view fs' [w] ≠ none → fs'.exists? (wsPath w) = true := by
    intro fs' h
    rw [FS.exists?_iff, wsPath, comp_plain hw]; exact h
  have hok : createConfig fs w c t = (.ok (), fs4) := by
    unfold createConfig
    rw [if_neg (by rw [not_not]; exact hwsx fs (by rw [hws]; simp)), if_neg hnoconf, hens]
    simp only [hpath, List.cons_append, List.nil_append]
    have e2' : copyResource fs1 [w, "configs".toList, c, chdFile] t.chd = (.ok (), fs2) := e2
    have e3' : copyResource fs2 [w, "configs".toList, c, cnfFile] t.cnf = (.ok (), fs3) := e3
    have e4' : copyResource fs3 [w, "configs".toList, c, cstFile] t.cst = (.ok (), fs4) := e4
    rw [e2']
    simp only [e3', e4']
  refine ⟨fs4, hok, hdir4, hchd, ?_, ?_, ?_, hexists, ?_⟩
  · rw [g4, if_neg (hne _ _ (by decide)), g3, if_pos rfl]
  · rw [g4, if_pos rfl]
  · intro n hn
    simp only [List.mem_cons, List.not_mem_nil, or_false, not_or] at hn
    rw [g4, if_neg (hne _ _ hn.2.2), g3, if_neg (hne _ _ hn.2.1), g2, if_neg (hne _ _ hn.1), hno1]
  · intro t'
    unfold createConfig
    rw [if_pos hexists]
    split <;> exact ⟨_, rfl⟩

example : view inputsExample ["w".toList] = some .dir ∧
    view inputsExample ["w".toList, "configs".toList] = none ∧
    view inputsExample ["w".toList, "configs".toList, "default".toList] = none := by decide +kernel

end Dedop.Workspace
