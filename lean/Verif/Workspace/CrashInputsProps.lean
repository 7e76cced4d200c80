import Verif.Workspace.CrashInputs
import Verif.Workspace.CrashProps
import Verif.Workspace.FilesProps
import Verif.Report.ListingProps

/-!
# Interrupted addition and removal of inputs and outputs (C129, C130)
-/
namespace Dedop.Workspace
open Dedop.Names

/-! ## Where a source is copied -/

/-- The file which `shutil.copy` writes. -/
def dest (fs : FS) (dir : Path) (s : Source) : Path :=
  if fs.isDir (dir ++ [s.base]) then dir ++ [s.base, s.base] else dir ++ [s.base]

theorem copyInto_eq (fs : FS) (dir : Path) (s : Source) :
    copyInto fs dir s = match s.content with
      | none => .error .ioError
      | some text => if s.base = [] then .error .ioError else fs.write (dest fs dir s) text := by
  unfold copyInto dest
  cases s.content with
  | none => rfl
  | some text =>
    dsimp only
    split
    · rfl
    · split <;> rfl

/-- The same directories. -/
def SameDirs (fs g : FS) : Prop := ∀ r, view g r = some .dir ↔ view fs r = some .dir

theorem SameDirs.isDir {fs g : FS} (h : SameDirs fs g) (p : Path) : g.isDir p = fs.isDir p := by
  rw [Bool.eq_iff_iff, FS.isDir_iff, FS.isDir_iff]; exact h p

theorem SameDirs.dest {fs g : FS} (h : SameDirs fs g) (dir : Path) (s : Source) : dest g dir s = dest fs dir s := by
  unfold Workspace.dest; rw [h.isDir]

theorem write_sameDirs {fs g : FS} {p : Path} {text : Name} (h : fs.write p text = .ok g) : SameDirs fs g := by
  intro r
  have hv : view g r = if r = p then some (.file text) else view fs r := FS.write_ok h r
  rw [hv]
  split
  · rename_i hr
    subst hr
    constructor
    · intro h1; cases h1
    · intro h1
      unfold FS.write at h
      rw [if_neg (by rw [(FS.isDir_iff fs r).2 h1]; simp)] at h
      cases h
  · exact Iff.rfl

theorem write_same {fs g : FS} (h : SameDirs fs g) (p : Path) (text : Name) :
    (∃ fs1 g1, fs.write p text = .ok fs1 ∧ g.write p text = .ok g1) ∨
    (∃ e, fs.write p text = .error e ∧ g.write p text = .error e) := by
  unfold FS.write
  rw [h.isDir, h.isDir]
  split
  · exact .inl ⟨_, _, rfl, rfl⟩
  · exact .inr ⟨_, rfl, rfl⟩

/-- The files which the loop writes before it fails. -/
def written (fs : FS) (dir : Path) : List Source → List Path
  | [] => []
  | s :: rest =>
    match copyInto fs dir s with
    | .error _ => []
    | .ok fs1 => dest fs dir s :: written fs1 dir rest

/-- `g` differs from `fs` only in regular files of the list. -/
def DiffersIn (fs g : FS) (l : List Path) : Prop := SameDirs fs g ∧ ∀ r, r ∉ l → view g r = view fs r

theorem addLoop_same (dir : Path) : ∀ (paths : List Source) (fs g : FS) (n : Nat), DiffersIn fs g (written fs dir paths) →
    (addLoop g dir n paths).1 = (addLoop fs dir n paths).1 ∧ (addLoop g dir n paths).2.2 = (addLoop fs dir n paths).2.2 ∧
    ∀ r, view (addLoop g dir n paths).2.1 r = view (addLoop fs dir n paths).2.1 r := by
  intro paths
  induction paths with
  | nil => intro fs g n h; exact ⟨rfl, rfl, fun r => h.2 r (by simp [written])⟩
  | cons s rest ih =>
    intro fs g n ⟨hd, hv⟩
    have hfs := copyInto_eq fs dir s
    have hg := copyInto_eq g dir s
    rw [hd.dest] at hg
    have herr : ∀ e, copyInto fs dir s = .error e → ∀ e', copyInto g dir s = .error e' →
        (addLoop g dir n (s :: rest)).1 = (addLoop fs dir n (s :: rest)).1 ∧
        (addLoop g dir n (s :: rest)).2.2 = (addLoop fs dir n (s :: rest)).2.2 ∧
        ∀ r, view (addLoop g dir n (s :: rest)).2.1 r = view (addLoop fs dir n (s :: rest)).2.1 r := by
      intro e h1 e' h2
      simp only [written, h1] at hv
      simp only [addLoop, h1, h2]
      exact ⟨trivial, trivial, fun r => hv r (by simp)⟩
    cases hc : s.content with
    | none =>
      rw [hc] at hfs hg
      exact herr _ hfs _ hg
    | some text =>
      rw [hc] at hfs hg
      dsimp only at hfs hg
      by_cases hb : s.base = []
      · rw [if_pos hb] at hfs hg
        exact herr _ hfs _ hg
      rw [if_neg hb] at hfs hg
      rcases write_same hd (dest fs dir s) text with ⟨fs1, g1, h1, h2⟩ | ⟨e, h1, h2⟩
      · rw [h1] at hfs
        rw [h2] at hg
        simp only [addLoop, hfs, hg]
        simp only [written, hfs] at hv
        refine ih fs1 g1 (n + 1) ⟨?_, ?_⟩
        · intro r
          rw [write_sameDirs h2 r, write_sameDirs h1 r]
          exact hd r
        · intro r hr
          have e1 : view fs1 r = if r = dest fs dir s then some (.file text) else view fs r := FS.write_ok h1 r
          have e2 : view g1 r = if r = dest fs dir s then some (.file text) else view g r := FS.write_ok h2 r
          rw [e1, e2]
          split
          · rfl
          · rename_i hne
            exact hv r (by simp [hne, hr])
      · rw [h1] at hfs
        rw [h2] at hg
        exact herr _ hfs _ hg

theorem copyInto_begun {fs fs1 : FS} {dir : Path} {s : Source} {text : Name} {k : Nat} (hc : s.content = some text)
    (h : copyInto fs dir { s with content := some (text.take k) } = .ok fs1) :
    s.base ≠ [] ∧ fs.write (dest fs dir s) (text.take k) = .ok fs1 ∧ ∃ fs2, copyInto fs dir s = .ok fs2 := by
  rw [copyInto_eq] at h
  dsimp only at h
  split at h
  · cases h
  · rename_i hb
    have hdest : dest fs dir { s with content := some (text.take k) } = dest fs dir s := rfl
    rw [hdest] at h
    refine ⟨hb, h, ?_⟩
    rw [copyInto_eq, hc]
    dsimp only
    rw [if_neg hb]
    rcases write_same (fs := fs) (g := fs) (fun _ => Iff.rfl) (dest fs dir s) text with ⟨a, _, h1, -⟩ | ⟨e, h1, -⟩
    · exact ⟨a, h1⟩
    · exfalso
      unfold FS.write at h h1
      split at h
      · rename_i hw; rw [if_pos hw] at h1; cases h1
      · cases h

theorem copyInto_ok {fs fs1 : FS} {dir : Path} {s : Source} (h : copyInto fs dir s = .ok fs1) :
    ∃ text, s.content = some text ∧ s.base ≠ [] ∧ fs.write (dest fs dir s) text = .ok fs1 := by
  rw [copyInto_eq] at h
  cases hc : s.content with
  | none => rw [hc] at h; cases h
  | some text =>
    rw [hc] at h
    dsimp only at h
    split at h
    · cases h
    · rename_i hb; exact ⟨text, rfl, hb, h⟩

theorem write_differs {fs g : FS} {p : Path} {text : Name} (h : fs.write p text = .ok g) (r : Path) (hr : r ≠ p) : view g r = view fs r := by
  have : view g r = if r = p then some (.file text) else view fs r := FS.write_ok h r
  rw [this, if_neg hr]

theorem written_longer (dir : Path) : ∀ (paths : List Source) (fs : FS) (p : Path), p ∈ written fs dir paths → dir.length < p.length := by
  intro paths
  induction paths with
  | nil => intro fs p h; cases h
  | cons s rest ih =>
    intro fs p h
    simp only [written] at h
    split at h
    · cases h
    · rcases List.mem_cons.1 h with rfl | h
      · unfold dest; split <;> simp
      · exact ih _ p h

theorem written_below (dir : Path) : ∀ (paths : List Source) (fs : FS) (p : Path), p ∈ written fs dir paths → dir <+: p := by
  intro paths
  induction paths with
  | nil => intro fs p h; cases h
  | cons s rest ih =>
    intro fs p h
    simp only [written] at h
    split at h
    · cases h
    · rcases List.mem_cons.1 h with rfl | h
      · unfold dest; split <;> simp
      · exact ih _ p h

theorem duringAddLoop_differs (dir : Path) : ∀ (paths : List Source) (fs g : FS), duringAddLoop fs dir paths g →
    DiffersIn fs g (written fs dir paths) := by
  intro paths
  induction paths with
  | nil => rintro fs g rfl; exact ⟨fun _ => Iff.rfl, fun _ _ => rfl⟩
  | cons s rest ih =>
    intro fs g h
    rcases h with (rfl | ⟨text, k, hc, hw⟩) | h
    · exact ⟨fun _ => Iff.rfl, fun _ _ => rfl⟩
    · obtain ⟨-, hw, fs2, h2⟩ := copyInto_begun hc hw
      refine ⟨write_sameDirs hw, fun r hr => write_differs hw r ?_⟩
      simp only [written, h2, List.mem_cons, not_or] at hr
      exact hr.1
    · cases h1 : copyInto fs dir s with
      | error e => rw [h1] at h; cases h
      | ok fs1 =>
        rw [h1] at h
        obtain ⟨text, -, -, hw⟩ := copyInto_ok h1
        obtain ⟨hd, hv⟩ := ih fs1 g h
        refine ⟨fun r => (hd r).trans (write_sameDirs hw r), fun r hr => ?_⟩
        simp only [written, h1, List.mem_cons, not_or] at hr
        rw [hv r hr.2, write_differs hw r hr.1]

/-! ## The directory of the inputs -/

theorem makedirsFrom_iff (fs : FS) (pre t : Path) :
    (∃ g, fs.makedirsFrom pre t = .ok g) ↔ ∀ r, pre <+: r → r <+: pre ++ t → ∀ s, view fs r ≠ some (.file s) := by
  induction t generalizing fs pre with
  | nil =>
    simp only [FS.makedirsFrom, List.append_nil]
    constructor
    · rintro ⟨g, h⟩ r h1 h2 s hs
      have hr : r = pre := List.IsPrefix.eq_of_length_le h2 h1.length_le
      subst hr
      unfold FS.mkdirOk at h
      unfold view at hs
      rw [hs] at h
      cases h
    · intro h
      have h1 := h pre (List.prefix_refl _) (List.prefix_refl _)
      unfold FS.mkdirOk
      unfold view at h1
      split
      · exact ⟨_, rfl⟩
      · exact ⟨_, rfl⟩
      · rename_i s hs; exact absurd hs (h1 s)
  | cons c t ih =>
    simp only [FS.makedirsFrom]
    cases hm : fs.mkdirOk pre with
    | error e =>
      constructor
      · rintro ⟨g, h⟩; cases h
      · intro h
        have h1 := h pre (List.prefix_refl _) (List.prefix_append _ _)
        unfold FS.mkdirOk at hm
        unfold view at h1
        split at hm
        · cases hm
        · cases hm
        · rename_i s hs; exact absurd hs (h1 s)
    | ok fs1 =>
      dsimp only
      rw [ih]
      have hv : ∀ r, view fs1 r = if r = pre then some .dir else view fs r := FS.mkdirOk_ok hm
      constructor
      · intro h r h1 h2 s
        by_cases hr : r = pre
        · subst hr
          intro hs
          unfold FS.mkdirOk at hm
          unfold view at hs
          rw [hs] at hm
          cases hm
        · obtain ⟨u, rfl⟩ := h1
          cases u with
          | nil => simp at hr
          | cons d u =>
            have h3 := h2
            rw [List.prefix_append_right_inj, List.cons_prefix_cons] at h3
            obtain ⟨rfl, h3⟩ := h3
            have := h (pre ++ d :: u) ⟨u, by simp⟩ (by simpa using h2) s
            rw [hv, if_neg hr] at this
            exact this
      · intro h r h1 h2 s
        rw [hv]
        split
        · simp
        · exact h r ((List.prefix_append _ _).trans h1) (by simpa using h2) s

theorem makedirs_iff (fs : FS) (p : Path) : (∃ g, fs.makedirs p = .ok g) ↔ ∀ r, r <+: p → ∀ s, view fs r ≠ some (.file s) := by
  have := makedirsFrom_iff fs [] p
  simpa [FS.makedirs] using this

theorem ensureDir_again {fs g : FS} (ht : IsTree (view fs)) {p : Path} (h : duringEnsureDir fs p g) :
    (ensureDir g p).1 = (ensureDir fs p).1 ∧ ∀ r, view (ensureDir g p).2 r = view (ensureDir fs p).2 r := by
  rcases h with rfl | ⟨hex, k, hk⟩
  · exact ⟨rfl, fun _ => rfl⟩
  have hg : ∀ r, view g r = if r <+: p.take k then some .dir else view fs r := FS.makedirs_ok hk
  have hnone : view fs p = none := by
    by_contra h1
    rw [(FS.exists?_iff fs p).2 h1] at hex; cases hex
  have hkp : p.take k <+: p := List.take_prefix _ _
  cases hm : fs.makedirs p with
  | ok fs1 =>
    have h1 : ∀ r, view fs1 r = if r <+: p then some .dir else view fs r := FS.makedirs_ok hm
    have hfs : ensureDir fs p = (.ok (), fs1) := by unfold ensureDir; rw [hex, hm]; simp
    rw [hfs]
    cases hgx : g.exists? p with
    | true =>
      have : ensureDir g p = (.ok (), g) := by unfold ensureDir; rw [hgx]; simp
      rw [this]
      refine ⟨rfl, fun r => ?_⟩
      have hp : p <+: p.take k := by
        by_contra hp
        have := (FS.exists?_iff g p).1 hgx
        have h2 := hg p
        rw [if_neg hp, hnone] at h2
        exact this h2
      have he : p.take k = p := (List.IsPrefix.eq_of_length_le hp hkp.length_le).symm
      show view g r = view fs1 r
      rw [hg, h1, he]
    | false =>
      obtain ⟨g1, hg1⟩ := (makedirs_iff g p).2 (by
        intro r hr s
        rw [hg]
        split
        · simp
        · exact (makedirs_iff fs p).1 ⟨fs1, hm⟩ r hr s)
      have : ensureDir g p = (.ok (), g1) := by unfold ensureDir; rw [hgx, hg1]; simp
      rw [this]
      refine ⟨rfl, fun r => ?_⟩
      show view g1 r = view fs1 r
      have h2 : view g1 r = if r <+: p then some .dir else view g r := FS.makedirs_ok hg1 r
      rw [h2, h1, hg]
      split
      · rfl
      · rename_i h3; rw [if_neg (fun h4 => h3 (h4.trans hkp))]
  | error e =>
    have hfs : ensureDir fs p = (.error (.workspaceError "cannot create directory"), fs) := by unfold ensureDir; rw [hex, hm]; simp
    have hno : ¬ ∃ g, fs.makedirs p = .ok g := by rw [hm]; rintro ⟨g, h⟩; cases h
    rw [makedirs_iff] at hno
    push Not at hno
    obtain ⟨r0, hr0, s, hs⟩ := hno
    have hnk : ¬ r0 <+: p.take k := fun h1 => (makedirs_iff fs (p.take k)).1 ⟨g, hk⟩ r0 h1 s hs
    have hgx : g.exists? p = false := by
      rw [Bool.eq_false_iff, ne_eq, FS.exists?_iff, not_not]
      show view g p = none
      rw [hg, if_neg (fun h1 => hnk (hr0.trans h1))]
      exact hnone
    obtain ⟨e', he'⟩ : ∃ e', g.makedirs p = .error e' := by
      cases h2 : g.makedirs p with
      | error e' => exact ⟨e', rfl⟩
      | ok g1 =>
        exfalso
        refine (makedirs_iff g p).1 ⟨g1, h2⟩ r0 hr0 s ?_
        rw [hg, if_neg hnk]
        exact hs
    have : ensureDir g p = (.error (.workspaceError "cannot create directory"), g) := by unfold ensureDir; rw [hgx, he']; simp
    rw [this, hfs]
    refine ⟨rfl, fun r => ?_⟩
    show view g r = view fs r
    rw [hg]
    split
    · rename_i hr
      rcases List.prefix_or_prefix_of_prefix (hr.trans hkp) hr0 with h3 | h3
      · obtain ⟨u, rfl⟩ := h3
        cases u with
        | nil => exact absurd (by simpa using hr) hnk
        | cons n u =>
          refine (ht r n ?_).symm
          intro h4
          have := tree_none_below ht h4 u
          rw [List.append_assoc, List.singleton_append, hs] at this
          cases this
      · exact absurd (h3.trans hr) hnk
    · rfl

theorem makedirs_take_again {fs g : FS} {p : Path} (hg : duringEnsureDir fs p g) (r : Path) (hr : ¬ r <+: p) : view g r = view fs r :=
  only_duringEnsureDir hg r (fun h => hr h.1)

/-! ## C129: repeating -/

/-- **C129, adding.**  Wherever `add_inputs` is killed, repeating it has the result, and leaves the files, which it would have had and left without
the interruption. -/
theorem add_inputs_repeat (fs g : FS) (ht : IsTree (view fs)) (w : Name) (paths : List Source) (h : duringAddInputs fs w paths g) :
    (addInputs g w paths).1 = (addInputs fs w paths).1 ∧ (addInputs g w paths).2.2 = (addInputs fs w paths).2.2 ∧
    ∀ r, view (addInputs g w paths).2.1 r = view (addInputs fs w paths).2.1 r := by
  have tail : ∀ fs1 g1 : FS, DiffersIn fs1 g1 (written fs1 (comp w ++ [inputsDir]) paths) →
      ensureDir g (comp w ++ [inputsDir]) = (.ok (), g1) → ensureDir fs (comp w ++ [inputsDir]) = (.ok (), fs1) →
      (addInputs g w paths).1 = (addInputs fs w paths).1 ∧ (addInputs g w paths).2.2 = (addInputs fs w paths).2.2 ∧
      ∀ r, view (addInputs g w paths).2.1 r = view (addInputs fs w paths).2.1 r := by
    intro fs1 g1 hd h1 h2
    unfold addInputs
    rw [h1, h2]
    exact addLoop_same _ paths fs1 g1 0 hd
  rcases h with h | h
  · obtain ⟨h1, h2⟩ := ensureDir_again ht h
    cases hf : ensureDir fs (comp w ++ [inputsDir]) with
    | mk rf fs1 =>
      cases hgg : ensureDir g (comp w ++ [inputsDir]) with
      | mk rg g1 =>
        rw [hf, hgg] at h1 h2
        dsimp only at h1 h2
        subst h1
        cases rg with
        | error e =>
          unfold addInputs
          rw [hf, hgg]
          exact ⟨rfl, rfl, h2⟩
        | ok u =>
          exact tail fs1 g1 ⟨fun r => by rw [h2], fun r _ => h2 r⟩ hgg hf
  · cases hf : ensureDir fs (comp w ++ [inputsDir]) with
    | mk rf fs1 =>
      rw [hf] at h
      cases rf with
      | error e => cases h
      | ok u =>
        dsimp only at h
        have hd := duringAddLoop_differs _ paths fs1 g h
        refine tail fs1 g hd ?_ hf
        have hex : fs1.exists? (comp w ++ [inputsDir]) = true := by
          unfold ensureDir at hf
          split at hf
          · rename_i h1; cases hf; exact h1
          · split at hf
            · rename_i hm
              cases hf
              rw [FS.exists?_iff, FS.makedirs_ok hm, if_pos (List.prefix_refl _)]
              simp
            · cases hf
        have hv : view g (comp w ++ [inputsDir]) = view fs1 (comp w ++ [inputsDir]) :=
          hd.2 _ (fun h1 => absurd (written_longer _ paths fs1 _ h1) (lt_irrefl _))
        have hgx : g.exists? (comp w ++ [inputsDir]) = true := by
          rw [FS.exists?_iff] at hex ⊢
          show view g _ ≠ none
          rw [hv]; exact hex
        unfold ensureDir
        rw [if_pos hgx]

theorem removeLoop_again : ∀ (ps : List Path) (fs g : FS) (k : Nat), duringRemoveLoop fs ps g →
    removeLoop g k ps = removeLoop fs k ps ∧ ∀ r, Dict.get? fs r = none → Dict.get? g r = none := by
  intro ps
  induction ps with
  | nil => rintro fs g k rfl; exact ⟨rfl, fun _ h => h⟩
  | cons p rest ih =>
    intro fs g k h
    rcases h with rfl | h
    · exact ⟨rfl, fun _ h => h⟩
    cases hp : Dict.get? fs p with
    | none =>
      rw [hp] at h
      obtain ⟨h1, h2⟩ := ih fs g (k + 1) h
      refine ⟨?_, h2⟩
      simp only [removeLoop, hp, h2 p hp]
      exact h1
    | some e =>
      cases e with
      | dir => rw [hp] at h; cases h
      | file s =>
        rw [hp] at h
        obtain ⟨h1, h2⟩ := ih _ g (k + 1) h
        refine ⟨?_, fun r hr => h2 r (by rw [Dict.get?_erase, hr]; simp)⟩
        simp only [removeLoop, hp, h2 p (by rw [Dict.get?_erase]; simp)]
        exact h1

/-- **C129, removing.**  Wherever `remove_inputs` is killed, repeating it does what it would have done without the interruption. -/
theorem remove_inputs_repeat (fs g : FS) (w : Name) (names : List Name) (h : duringRemoveInputs fs w names g) :
    removeInputs g w names = removeInputs fs w names :=
  (removeLoop_again _ fs g 0 h).1

theorem keys_erase (d : Dict Name Kind) (n : Name) : (Dict.erase d n).map (·.1) = (d.map (·.1)).filter (fun m => m ≠ n) := by
  induction d with
  | nil => rfl
  | cons x d ih =>
    obtain ⟨k, v⟩ := x
    by_cases h : n = k
    · subst h; simp [Dict.erase, ih]
    · have h' : k ≠ n := fun h1 => h h1.symm
      simp [Dict.erase, h, h', ih]

theorem get?_of_key {d : Dict Name Kind} {n : Name} (h : n ∈ d.map (·.1)) : (Dict.get? d n).isSome = true := by
  induction d with
  | nil => cases h
  | cons x d ih =>
    obtain ⟨k, v⟩ := x
    unfold Dict.get?
    split
    · rfl
    · rename_i hk
      simp only [List.map_cons, List.mem_cons] at h
      exact ih (h.resolve_left hk)

theorem gone_stays : ∀ (names : List Name) (d g : Dict Name Kind), duringRemoveOutLoop d names g → ∀ n, Dict.get? d n = none →
    Dict.get? g n = none := by
  intro names
  induction names with
  | nil => rintro d g rfl n h; exact h
  | cons m rest ih =>
    intro d g h n hn
    rcases h with rfl | h
    · exact hn
    have he : Dict.get? (Dict.erase d m) n = none := by rw [Dict.get?_erase, hn]; simp
    cases hp : Dict.get? d m with
    | none => rw [hp] at h; exact ih d g h n hn
    | some e =>
      rw [hp] at h
      cases e with
      | brokenLink => exact ih d g h n hn
      | dir => cases h
      | file => exact ih _ g h n he
      | link => exact ih _ g h n he

theorem kept_kind : ∀ (names : List Name) (d g : Dict Name Kind), duringRemoveOutLoop d names g → ∀ n k, Dict.get? d n = some k →
    Dict.get? g n = none ∨ Dict.get? g n = some k := by
  intro names
  induction names with
  | nil => rintro d g rfl n k h; exact .inr h
  | cons m rest ih =>
    intro d g h n k hn
    rcases h with rfl | h
    · exact .inr hn
    have step : duringRemoveOutLoop (Dict.erase d m) rest g → Dict.get? g n = none ∨ Dict.get? g n = some k := by
      intro h
      by_cases hm : n = m
      · subst hm
        exact .inl (gone_stays rest _ g h n (by rw [Dict.get?_erase]; simp))
      · exact ih _ g h n k (by rw [Dict.get?_erase, if_neg hm]; exact hn)
    cases hp : Dict.get? d m with
    | none => rw [hp] at h; exact ih d g h n k hn
    | some e =>
      rw [hp] at h
      cases e with
      | brokenLink => exact ih d g h n k hn
      | dir => cases h
      | file => exact step h
      | link => exact step h

theorem removeOut_again : ∀ (names : List Name) (d g : Dict Name Kind), duringRemoveOutLoop d names g →
    removeOutLoop g names = removeOutLoop d names ∧ (∀ n, Dict.get? d n = none → Dict.get? g n = none) ∧
    (d.map (·.1)).filter (fun n => (Dict.get? g n).isSome) = g.map (·.1) := by
  have base : ∀ d : Dict Name Kind, (d.map (·.1)).filter (fun n => (Dict.get? d n).isSome) = d.map (·.1) := by
    intro d
    rw [List.filter_eq_self]
    exact fun n hn => get?_of_key hn
  have gone : ∀ (n : Name) (rest : List Name) (d g : Dict Name Kind),
      removeOutLoop g rest = removeOutLoop (Dict.erase d n) rest ∧ (∀ m, Dict.get? (Dict.erase d n) m = none → Dict.get? g m = none) ∧
        ((Dict.erase d n).map (·.1)).filter (fun m => (Dict.get? g m).isSome) = g.map (·.1) →
      removeOutLoop g (n :: rest) = removeOutLoop (Dict.erase d n) rest ∧ (∀ m, Dict.get? d m = none → Dict.get? g m = none) ∧
        (d.map (·.1)).filter (fun m => (Dict.get? g m).isSome) = g.map (·.1) := by
    rintro n rest d g ⟨h1, h2, h3⟩
    have hn : Dict.get? g n = none := h2 n (by rw [Dict.get?_erase]; simp)
    refine ⟨?_, fun m hm => h2 m (by rw [Dict.get?_erase, hm]; simp), ?_⟩
    · simp only [removeOutLoop, hn]; exact h1
    · rw [← h3, keys_erase, List.filter_filter]
      apply List.filter_congr
      intro m _
      by_cases hm : m = n
      · subst hm; simp [hn]
      · simp [hm]
  intro names
  induction names with
  | nil => rintro d g rfl; exact ⟨rfl, fun _ h => h, base _⟩
  | cons n rest ih =>
    intro d g h
    rcases h with rfl | h
    · exact ⟨rfl, fun _ h => h, base _⟩
    have same : duringRemoveOutLoop d rest g → (Dict.get? g n = none ∨ Dict.get? g n = some .brokenLink) →
        removeOutLoop d (n :: rest) = removeOutLoop d rest →
        removeOutLoop g (n :: rest) = removeOutLoop d (n :: rest) ∧ (∀ m, Dict.get? d m = none → Dict.get? g m = none) ∧
        (d.map (·.1)).filter (fun m => (Dict.get? g m).isSome) = g.map (·.1) := by
      intro h hn hd
      obtain ⟨h1, h2, h3⟩ := ih d g h
      refine ⟨?_, h2, h3⟩
      rw [hd, ← h1]
      rcases hn with hn | hn <;> simp only [removeOutLoop, hn]
    cases hp : Dict.get? d n with
    | none =>
      rw [hp] at h
      exact same h (.inl ((ih d g h).2.1 n hp)) (by simp only [removeOutLoop, hp])
    | some e =>
      cases e with
      | brokenLink =>
        rw [hp] at h
        refine same h ?_ (by simp only [removeOutLoop, hp])
        exact kept_kind rest d g h n .brokenLink hp
      | dir => rw [hp] at h; cases h
      | file =>
        rw [hp] at h
        have := gone n rest d g (ih _ g h)
        refine ⟨?_, this.2⟩
        rw [this.1]; simp only [removeOutLoop, hp]
      | link =>
        rw [hp] at h
        have := gone n rest d g (ih _ g h)
        refine ⟨?_, this.2⟩
        rw [this.1]; simp only [removeOutLoop, hp]

theorem removeOut_present : ∀ (names : List Name) (g : Dict Name Kind),
    removeOutLoop g (names.filter (fun n => (Dict.get? g n).isSome)) = removeOutLoop g names := by
  have erased : ∀ (n : Name) (rest : List Name) (g : Dict Name Kind),
      (∀ g' : Dict Name Kind, ∀ l, l.length ≤ rest.length → removeOutLoop g' (l.filter (fun m => (Dict.get? g' m).isSome)) = removeOutLoop g' l) →
      removeOutLoop (Dict.erase g n) (rest.filter (fun m => (Dict.get? g m).isSome)) = removeOutLoop (Dict.erase g n) rest := by
    intro n rest g h
    rw [← h _ (rest.filter _) (List.length_filter_le _ _), ← h _ rest le_rfl, List.filter_filter]
    congr 1
    apply List.filter_congr
    intro m _
    rw [Dict.get?_erase]
    split <;> simp
  have key : ∀ (k : Nat) (g : Dict Name Kind) (names : List Name), names.length ≤ k →
      removeOutLoop g (names.filter (fun n => (Dict.get? g n).isSome)) = removeOutLoop g names := by
    intro k
    induction k with
    | zero =>
      intro g names hk
      rw [List.length_eq_zero_iff.1 (Nat.le_zero.1 hk)]
      rfl
    | succ k ih =>
      intro g names hk
      cases names with
      | nil => rfl
      | cons n rest =>
        have hr : rest.length ≤ k := by simpa using hk
        cases hp : Dict.get? g n with
        | none =>
          rw [List.filter_cons_of_neg (by simp [hp])]
          simp only [removeOutLoop, hp]
          exact ih g rest hr
        | some e =>
          rw [List.filter_cons_of_pos (by simp [hp])]
          cases e with
          | brokenLink => simp only [removeOutLoop, hp]; exact ih g rest hr
          | dir => simp only [removeOutLoop, hp]
          | file => simp only [removeOutLoop, hp]; exact erased n rest g (fun g' l hl => ih g' l (hl.trans hr))
          | link => simp only [removeOutLoop, hp]; exact erased n rest g (fun g' l hl => ih g' l (hl.trans hr))
  intro names g
  exact key _ g names le_rfl

/-- **C129, outputs.**  Wherever `remove_outputs` is killed, repeating it does what it would have done without the interruption. -/
theorem remove_outputs_repeat (d g : Dict Name Kind) (h : duringRemoveOutputs d g) : removeOutputs (some g) = removeOutputs (some d) := by
  obtain ⟨h1, -, h3⟩ := removeOut_again _ d g h
  have : removeOutLoop g (g.map (·.1)) = removeOutLoop d (d.map (·.1)) := by
    rw [← h1, ← h3, removeOut_present]
  unfold removeOutputs
  simp only [this]

/-- **C129, `dedop input add`.**  The same message and the same files. -/
theorem input_add_repeat (fs g : FS) (ht : IsTree (view fs)) (w : Name) (paths : List Source) (h : duringAddInputs fs w paths g) :
    (Report.inputAdd g w paths).1 = (Report.inputAdd fs w paths).1 ∧
    (paths ≠ [] → ∀ r, view (Report.inputAdd g w paths).2 r = view (Report.inputAdd fs w paths).2 r) := by
  obtain ⟨h1, -, h3⟩ := add_inputs_repeat fs g ht w paths h
  unfold Report.inputAdd
  by_cases hp : paths = []
  · rw [if_pos hp, if_pos hp]; exact ⟨rfl, fun h => absurd hp h⟩
  rw [if_neg hp, if_neg hp]
  generalize addInputs g w paths = a at h1 h3
  generalize addInputs fs w paths = b at h1 h3
  obtain ⟨ra, fa, na⟩ := a
  obtain ⟨rb, fb, nb⟩ := b
  dsimp only at h1 h3
  subst h1
  cases ra with
  | error e => exact ⟨rfl, fun _ => h3⟩
  | ok u => exact ⟨rfl, fun _ => h3⟩

/-! ## C130: the files found after the interruption -/

/-- A file which is complete: it is as it was, or has the content of one of the given paths. -/
def Complete (fs g : FS) (paths : List Source) (r : Path) : Prop :=
  view g r = view fs r ∨ ∃ s ∈ paths, s.content.isSome ∧ view g r = s.content.map Entry.file

theorem duringAddLoop_complete (dir : Path) : ∀ (paths : List Source) (fs g : FS), duringAddLoop fs dir paths g →
    ∃ p, ∀ r, r ≠ p → Complete fs g paths r := by
  intro paths
  induction paths with
  | nil => rintro fs g rfl; exact ⟨[], fun r _ => .inl rfl⟩
  | cons s rest ih =>
    intro fs g h
    rcases h with (rfl | ⟨text, k, hc, hw⟩) | h
    · exact ⟨[], fun r _ => .inl rfl⟩
    · obtain ⟨-, hw, -⟩ := copyInto_begun hc hw
      exact ⟨dest fs dir s, fun r hr => .inl (write_differs hw r hr)⟩
    · cases h1 : copyInto fs dir s with
      | error e => rw [h1] at h; cases h
      | ok fs1 =>
        rw [h1] at h
        obtain ⟨text, hc, -, hw⟩ := copyInto_ok h1
        obtain ⟨p, hp⟩ := ih fs1 g h
        refine ⟨p, fun r hr => ?_⟩
        rcases hp r hr with h2 | ⟨x, hx, h2⟩
        · have hv : view fs1 r = if r = dest fs dir s then some (.file text) else view fs r := FS.write_ok hw r
          by_cases hd : r = dest fs dir s
          · rw [if_pos hd] at hv
            exact .inr ⟨s, List.mem_cons_self, by simp [hc], by rw [h2, hv, hc]; rfl⟩
          · rw [if_neg hd] at hv
            exact .inl (h2.trans hv)
        · exact .inr ⟨x, List.mem_cons_of_mem _ hx, h2⟩

/-- **C130**, the part that holds: wherever `add_inputs` is killed, all files in the inputs directory but one are complete, and everything
outside of it is as it was. -/
theorem interrupted_add_partial (fs g : FS) (w : Name) (paths : List Source) (h : duringAddInputs fs w paths g) :
    (∃ p, ∀ r, r ≠ p → comp w ++ [inputsDir] <+: r → r ≠ comp w ++ [inputsDir] → Complete fs g paths r) ∧
    (∀ r, ¬ comp w ++ [inputsDir] <+: r → ¬ r <+: comp w ++ [inputsDir] → view g r = view fs r) := by
  rcases h with h | h
  · refine ⟨⟨[], fun r _ h1 h2 => .inl (only_duringEnsureDir h r (fun h3 => h2 ?_))⟩, fun r _ h2 => makedirs_take_again h r h2⟩
    exact List.IsPrefix.eq_of_length_le h3.1 h1.length_le
  · cases hf : ensureDir fs (comp w ++ [inputsDir]) with
    | mk rf fs1 =>
      rw [hf] at h
      have hd : duringEnsureDir fs (comp w ++ [inputsDir]) fs1 := by
        have := @during_ensure_ends fs (comp w ++ [inputsDir])
        rw [hf] at this; exact this
      cases rf with
      | error e => cases h
      | ok u =>
        dsimp only at h
        constructor
        · obtain ⟨p, hp⟩ := duringAddLoop_complete _ paths fs1 g h
          refine ⟨p, fun r hr h1 h2 => ?_⟩
          have hv : view fs1 r = view fs r := only_duringEnsureDir hd r (fun h3 => h2 (List.IsPrefix.eq_of_length_le h3.1 h1.length_le))
          unfold Complete
          rw [← hv]
          exact hp r hr
        · intro r h1 h2
          rw [(duringAddLoop_differs _ paths fs1 g h).2 r (fun h3 => h1 (written_below _ paths fs1 r h3)), makedirs_take_again hd r h2]

/-- **C130 is violated.**  In every workspace, and for every file that is added: killed while it is copied, the command leaves any beginning
of the file in place of what was there before, and this is listed as an input like the others. -/
theorem interrupted_add_violated (fs : FS) (w : Name) (hd : view fs (comp w ++ ["inputs".toList]) = some .dir)
    (s : Source) (rest : List Source) (text : Name) (hc : s.content = some text) (m : Name) (hb : s.base = m ++ ".nc".toList)
    (hn : view fs (comp w ++ ["inputs".toList] ++ [s.base]) ≠ some .dir) (k : Nat) :
    ∃ g, duringAddInputs fs w (s :: rest) g ∧
      view g (comp w ++ ["inputs".toList] ++ [s.base]) = some (.file (text.take k)) ∧
      s.base ∈ Report.inputNames (fun _ (_ : Unit) => true) g w .absent := by
  have hne : s.base ≠ [] := by rw [hb]; simp
  have hdest : dest fs (comp w ++ [inputsDir]) s = comp w ++ [inputsDir] ++ [s.base] := by
    unfold dest
    rw [if_neg]
    rw [FS.isDir_iff]; exact hn
  have hw := FS.write_succeeds fs (comp w ++ [inputsDir] ++ [s.base]) (text.take k) (by rw [List.dropLast_concat]; exact hd) hn
  have hv : ∀ r, view (Dict.set fs (comp w ++ [inputsDir] ++ [s.base]) (.file (text.take k))) r =
      if r = comp w ++ [inputsDir] ++ [s.base] then some (.file (text.take k)) else view fs r := fun r => FS.get?_set _ _ _ _
  refine ⟨_, ?_, (hv _).trans (if_pos rfl), ?_⟩
  · right
    have : ensureDir fs (comp w ++ [inputsDir]) = (.ok (), fs) := by
      unfold ensureDir
      rw [if_pos]
      rw [FS.exists?_iff]
      show view fs _ ≠ none
      rw [show view fs (comp w ++ [inputsDir]) = some .dir from hd]; simp
    rw [this]
    left
    right
    refine ⟨text, k, hc, ?_⟩
    rw [copyInto_eq]
    dsimp only
    rw [if_neg hne]
    have : dest fs (comp w ++ [inputsDir]) { s with content := some (text.take k) } = dest fs (comp w ++ [inputsDir]) s := rfl
    rw [this, hdest]
    exact hw
  · unfold Report.inputNames
    rw [if_pos]
    · show _ ∈ ncList _ _ _
      unfold ncList
      dsimp only
      rw [(sortNames_perm _).mem_iff, List.mem_map]
      refine ⟨(s.base, true), ?_, rfl⟩
      rw [List.mem_filter, List.mem_map]
      refine ⟨⟨s.base, ?_, ?_⟩, ?_⟩
      · rw [FS.mem_listdir]
        show view _ _ ≠ none
        rw [show Report.inputs w = comp w ++ [inputsDir] from rfl, hv, if_pos rfl]; simp
      · have : ¬ FS.isDir (Dict.set fs (comp w ++ [inputsDir] ++ [s.base]) (.file (text.take k))) (Report.inputs w ++ [s.base]) = true := by
          rw [FS.isDir_iff]
          show view _ _ ≠ _
          rw [show Report.inputs w = comp w ++ [inputsDir] from rfl, hv, if_pos rfl]; simp
        rw [Bool.not_eq_true] at this
        simp only [this, Bool.not_false]
      · rw [hb]; simp [isNc]
    · rw [FS.exists?_iff]
      show view _ _ ≠ none
      rw [show Report.inputs w = comp w ++ [inputsDir] from rfl, hv, if_neg (by intro h; have := congrArg List.length h; simp at this)]
      rw [show view fs (comp w ++ [inputsDir]) = some .dir from hd]; simp

/-- **C130, removing.**  What a killed removal has left is as it was. -/
theorem interrupted_remove_keeps (fs g : FS) (w : Name) (names : List Name) (h : duringRemoveInputs fs w names g) (r : Path) :
    (view g r ≠ none → view g r = view fs r) ∧
    ((∀ n ∈ names, r ≠ comp w ++ ["inputs".toList] ++ comp n) → view g r = view fs r) := by
  have key : ∀ (ps : List Path) (fs : FS), duringRemoveLoop fs ps g →
      (view g r ≠ none → view g r = view fs r) ∧ ((∀ p ∈ ps, r ≠ p) → view g r = view fs r) := by
    intro ps
    induction ps with
    | nil => rintro fs rfl; exact ⟨fun _ => rfl, fun _ => rfl⟩
    | cons p ps ih =>
      intro fs h
      rcases h with rfl | h
      · exact ⟨fun _ => rfl, fun _ => rfl⟩
      cases hp : Dict.get? fs p with
      | none =>
        rw [hp] at h
        exact ⟨(ih fs h).1, fun h1 => (ih fs h).2 (fun q hq => h1 q (List.mem_cons_of_mem _ hq))⟩
      | some e =>
        cases e with
        | dir => rw [hp] at h; cases h
        | file s =>
          rw [hp] at h
          obtain ⟨h1, h2⟩ := ih _ h
          rw [view_erase] at h1 h2
          refine ⟨fun hr => ?_, fun hr => ?_⟩
          · have h3 := h1 hr
            split at h3
            · exact absurd h3 hr
            · exact h3
          · have h3 := h2 (fun q hq => hr q (List.mem_cons_of_mem _ hq))
            rw [if_neg (hr p List.mem_cons_self)] at h3
            exact h3
  obtain ⟨h1, h2⟩ := key _ fs h
  refine ⟨h1, fun hr => h2 ?_⟩
  intro p hp
  obtain ⟨n, hn, rfl⟩ := List.mem_map.1 hp
  exact hr n hn

/-! ## Examples -/

/-- A workspace with an input. -/
def oneInput : FS := [([], .dir), (["w".toList], .dir), (["w".toList, "inputs".toList], .dir), (["w".toList, "inputs".toList, "a.nc".toList], .file "old".toList)]

example : IsTree (view oneInput) ∧ view oneInput (comp "w".toList ++ ["inputs".toList]) = some .dir := by
  refine ⟨fun p n h => ?_, by decide +kernel⟩
  have hm : ∀ e ∈ oneInput, e.1 = [] ∨ Dict.get? oneInput e.1.dropLast = some .dir := by decide +kernel
  obtain ⟨e, he⟩ := Option.ne_none_iff_exists'.1 h
  rcases hm _ (FS.mem_of_get? he) with h1 | h1
  · simp at h1
  · rw [List.dropLast_concat] at h1; exact h1

/-- Two paths, of which the second replaces an input. -/
def twoSources : List Source := [⟨"b.nc".toList, some "bbb".toList⟩, ⟨"a.nc".toList, some "new".toList⟩]

/-- Killed after the first character of the second file: the old input is gone and the new one is not there; the repetition repairs it. -/
example : ∃ g, duringAddInputs oneInput "w".toList twoSources g ∧
    view g ["w".toList, "inputs".toList, "a.nc".toList] = some (.file "n".toList) ∧
    view g ["w".toList, "inputs".toList, "b.nc".toList] = some (.file "bbb".toList) ∧
    view (addInputs g "w".toList twoSources).2.1 ["w".toList, "inputs".toList, "a.nc".toList] = some (.file "new".toList) := by
  refine ⟨Dict.set (Dict.set oneInput ["w".toList, "inputs".toList, "b.nc".toList] (.file "bbb".toList))
    ["w".toList, "inputs".toList, "a.nc".toList] (.file "n".toList), .inr ?_, by decide +kernel, by decide +kernel, by decide +kernel⟩
  have h1 : ensureDir oneInput (comp "w".toList ++ [inputsDir]) = (.ok (), oneInput) := by decide +kernel
  rw [h1]
  right
  have h2 : copyInto oneInput (comp "w".toList ++ [inputsDir]) ⟨"b.nc".toList, some "bbb".toList⟩ =
    .ok (Dict.set oneInput ["w".toList, "inputs".toList, "b.nc".toList] (.file "bbb".toList)) := by decide +kernel
  rw [h2]
  exact .inl (.inr ⟨"new".toList, 1, rfl, by decide +kernel⟩)

/-- Killed after the first of two removals. -/
example : ∃ g, duringRemoveInputs oneInput "w".toList ["a.nc".toList, "b.nc".toList] g ∧ view g ["w".toList, "inputs".toList, "a.nc".toList] = none ∧
    (removeInputs g "w".toList ["a.nc".toList, "b.nc".toList]).1 = .ok () := by
  refine ⟨Dict.erase oneInput ["w".toList, "inputs".toList, "a.nc".toList], ?_, by decide +kernel, by decide +kernel⟩
  show duringRemoveLoop _ [["w".toList, "inputs".toList, "a.nc".toList], _] _
  right
  have h : Dict.get? oneInput ["w".toList, "inputs".toList, "a.nc".toList] = some (.file "old".toList) := by decide +kernel
  rw [h]
  exact .inl rfl

example : duringRemoveOutputs [("a".toList, .file), ("b".toList, .file)] [("b".toList, .file)] := .inr (.inl rfl)

end Dedop.Workspace
