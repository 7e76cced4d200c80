import Verif.Inputs.Add
import Verif.Workspace.FSLemmas
import Verif.Workspace.Spec
import Verif.Report.Props

/-!
# What the paths on the command line stand for

C119.
-/
namespace Dedop.Inputs

open Dedop.Names Dedop.Workspace Dedop.Report

/-! ## Specification -/

/-- What an element of a pattern stands for: any text, or one character. -/
def Tok.Text : Tok → Name → Prop
  | .star, _ => True
  | .any, s => ∃ c, s = [c]
  | .lit a, s => s = [a]
  | .cls neg items, s => ∃ c, s = [c] ∧ ((∃ r ∈ items, r.1 ≤ c ∧ c ≤ r.2) ↔ neg = false)

/-- A name fits the elements if it is made of what they stand for. -/
def Fits (ts : List Tok) (s : Name) : Prop := ∃ parts, List.Forall₂ Tok.Text ts parts ∧ s = parts.flatten

/-- What one component of a path stands for: a plain component for itself, `**` for any number of names that are not hidden, any other
pattern for one name which fits it, hidden ones only if the pattern begins with a dot. -/
def Stands (pat : Name) (names : Path) : Prop :=
  if hasMagic pat then
    if pat = doubleStar then ∀ n ∈ names, hidden n = false
    else ∃ n, names = [n] ∧ (hidden n = true → hidden pat = true) ∧ Fits (tokens pat.length pat) n
  else names = [pat]

/-- A path denotes another if its components stand for the parts of the other. -/
def Denotes (pat p : Path) : Prop := ∃ parts, List.Forall₂ Stands pat parts ∧ p = parts.flatten

/-! ## Matching of names -/

theorem matchToks_iff (ts : List Tok) (s : Name) : matchToks ts s = true ↔ Fits ts s := by
  induction ts generalizing s with
  | nil =>
    constructor
    · intro h
      exact ⟨[], .nil, by simpa [matchToks] using h⟩
    · rintro ⟨parts, h, rfl⟩
      cases h
      rfl
  | cons t ts ih =>
    have one : ∀ (a : Name), t ≠ .star → (t.Text a ↔ ∃ c, a = [c] ∧ t.accepts c = true) := by
      intro a ht
      cases t with
      | star => exact absurd rfl ht
      | any => simp [Tok.Text, Tok.accepts]
      | lit x =>
        simp only [Tok.Text, Tok.accepts, beq_iff_eq]
        constructor
        · rintro rfl; exact ⟨x, rfl, rfl⟩
        · rintro ⟨c, rfl, rfl⟩; rfl
      | cls neg items =>
        simp only [Tok.Text, Tok.accepts]
        refine exists_congr fun c => and_congr_right fun _ => ?_
        cases neg <;> simp
    by_cases ht : t = .star
    · subst ht
      simp only [matchToks, List.any_eq_true, List.mem_tails]
      constructor
      · rintro ⟨r, ⟨a, rfl⟩, hr⟩
        obtain ⟨parts, h1, rfl⟩ := (ih r).1 hr
        exact ⟨a :: parts, .cons trivial h1, rfl⟩
      · rintro ⟨parts, h, rfl⟩
        cases h with
        | cons ha hrest =>
          rename_i a rest
          exact ⟨rest.flatten, ⟨a, rfl⟩, (ih _).2 ⟨rest, hrest, rfl⟩⟩
    · have step : matchToks (t :: ts) s = match s with
          | [] => false
          | c :: s => t.accepts c && matchToks ts s := by
        cases t <;> first | rfl | exact absurd rfl ht
      rw [step]
      constructor
      · intro h
        cases s with
        | nil => simp at h
        | cons c s =>
          rw [Bool.and_eq_true] at h
          obtain ⟨parts, h1, rfl⟩ := (ih s).1 h.2
          exact ⟨[c] :: parts, .cons ((one _ ht).2 ⟨c, rfl, h.1⟩) h1, rfl⟩
      · rintro ⟨parts, h, rfl⟩
        cases h with
        | cons ha hrest =>
          obtain ⟨c, rfl, hc⟩ := (one _ ht).1 ha
          simp only [List.flatten_cons, List.singleton_append, hc, Bool.true_and]
          exact (ih _).2 ⟨_, hrest, rfl⟩

theorem fnmatch_exact (n pat : Name) : fnmatch n pat = true ↔ Fits (tokens pat.length pat) n := matchToks_iff _ _

theorem tokens_plain (s : Name) (hs : hasMagic s = false) (k : Nat) (hk : s.length ≤ k) : tokens k s = s.map .lit := by
  induction s generalizing k with
  | nil => cases k <;> rfl
  | cons c s ih =>
    cases k with
    | zero => simp at hk
    | succ k =>
      simp only [hasMagic, List.any_cons, Bool.or_eq_false_iff, beq_eq_false_iff_ne] at hs
      rw [tokens, if_neg hs.1.1.1, if_neg hs.1.1.2, if_neg hs.1.2, ih (by simpa [hasMagic] using hs.2) k (by simpa using hk)]
      rfl

theorem matchToks_lits (s n : Name) : matchToks (s.map .lit) n = true ↔ n = s := by
  induction s generalizing n with
  | nil => cases n <;> simp [matchToks]
  | cons c s ih =>
    cases n with
    | nil => simp [matchToks]
    | cons d n =>
      simp only [List.map_cons, matchToks, Bool.and_eq_true, Tok.accepts, beq_iff_eq, ih, List.cons.injEq]
      exact ⟨fun h => ⟨h.1.symm, h.2⟩, fun h => ⟨h.1.symm, h.2⟩⟩

/-- **C119, patterns.**  `*` before a plain ending selects the names with that ending. -/
theorem fnmatch_ending (n s : Name) (hs : hasMagic s = false) : fnmatch n ('*' :: s) = true ↔ s <:+ n := by
  have ht : tokens ('*' :: s).length ('*' :: s) = .star :: s.map .lit := by
    rw [List.length_cons, tokens, if_pos rfl, tokens_plain s hs _ le_rfl]
  rw [fnmatch, ht]
  simp only [matchToks, List.any_eq_true, List.mem_tails, matchToks_lits]
  exact ⟨fun ⟨_, h, e⟩ => e ▸ h, fun h => ⟨s, h, rfl⟩⟩

/-- **C119, classes.**  `[a-b]` stands for one character of the range, `[!a-b]` for one outside it, `[!]]` for one which is not a closing
bracket; a bracket that is never closed stands for itself. -/
theorem fnmatch_class (a b c : Char) (ha : a ≠ '!') (ha' : a ≠ ']') (hb : b ≠ ']') :
    fnmatch [c] ['[', a, '-', b, ']'] = decide (a ≤ c ∧ c ≤ b) ∧
    fnmatch [c] ['[', '!', a, '-', b, ']'] = !decide (a ≤ c ∧ c ≤ b) ∧
    (fnmatch [c] ['[', '!', ']', ']'] = true ↔ c ≠ ']') ∧ (fnmatch [c] ['['] = true ↔ c = '[') := by
  have h1 : closing [a, '-', b, ']'] = some ([a, '-', b], []) := by
    unfold closing
    split <;> simp_all
  have h2 : closing ['!', a, '-', b, ']'] = some (['!', a, '-', b], []) := by
    simp [closing, ha', hb]
  have h3 : closing ['!', ']', ']'] = some (['!', ']'], []) := by decide
  have h4 : classTok [a, '-', b] = .cls false [(a, b)] := by
    unfold classTok
    split <;> simp_all [ranges]
  have h5 : closing [] = none := by decide
  refine ⟨?_, ?_, ?_, ?_⟩
  · simp [fnmatch, tokens, h1, h4, matchToks, Tok.accepts]
  · simp [fnmatch, tokens, h2, classTok, ranges, matchToks, Tok.accepts]
  · simp [fnmatch, tokens, h3, classTok, ranges, matchToks, Tok.accepts]
    constructor
    · rintro h rfl
      exact absurd h (by decide)
    · intro h
      by_contra h6
      obtain ⟨h7, h8⟩ := not_or.1 h6
      exact h (Char.le_antisymm (Char.not_lt.1 h8) (Char.not_lt.1 h7))
  · simp [fnmatch, tokens, h5, matchToks, Tok.accepts]
    exact eq_comm

example : fnmatch ['b'] ['[', 'a', '-', 'c', ']'] = true ∧ fnmatch ['b'] ['[', '!', 'a', '-', 'c', ']'] = false := by decide +kernel

/-- A plain pattern selects its own name only. -/
theorem fnmatch_plain (n s : Name) (hs : hasMagic s = false) : fnmatch n s = true ↔ n = s := by
  rw [fnmatch, tokens_plain s hs _ le_rfl, matchToks_lits]

/-! ## Expansion of paths -/

theorem denotes_snoc (dir : Path) (base : Name) (p : Path) :
    Denotes (dir ++ [base]) p ↔ ∃ d names, Denotes dir d ∧ Stands base names ∧ p = d ++ names := by
  constructor
  · rintro ⟨parts, h, rfl⟩
    rw [← List.forall₂_reverse_iff] at h
    rw [List.reverse_append, List.reverse_singleton, List.singleton_append] at h
    rcases hp : parts.reverse with _ | ⟨a, rest⟩
    · rw [hp] at h; cases h
    · rw [hp] at h
      obtain ⟨ha, hrest⟩ := List.forall₂_cons.1 h
      have hparts : parts = rest.reverse ++ [a] := by
        rw [← List.reverse_reverse parts, hp, List.reverse_cons]
      refine ⟨rest.reverse.flatten, a, ⟨rest.reverse, ?_, rfl⟩, ha, by rw [hparts]; simp⟩
      rw [← List.forall₂_reverse_iff]
      simpa using hrest
  · rintro ⟨d, names, ⟨parts, h, rfl⟩, hn, rfl⟩
    exact ⟨parts ++ [names], List.rel_append h (.cons hn .nil), by simp⟩

theorem denotes_plain (pat p : Path) (h : pat.any hasMagic = false) : Denotes pat p ↔ p = pat := by
  induction pat using List.reverseRecOn generalizing p with
  | nil =>
    constructor
    · rintro ⟨parts, h, rfl⟩; cases h; rfl
    · rintro rfl; exact ⟨[], .nil, rfl⟩
  | append_singleton dir base ih =>
    rw [List.any_append, Bool.or_eq_false_iff] at h
    have hb : hasMagic base = false := by simpa using h.2
    rw [denotes_snoc]
    simp only [Stands, hb, Bool.false_eq_true, if_false, ih _ h.1]
    constructor
    · rintro ⟨d, names, rfl, rfl, rfl⟩; rfl
    · rintro rfl; exact ⟨dir, [base], rfl, rfl, rfl⟩

theorem parent_dir {fs : FS} (hwf : IsTree (view fs)) {d names : Path} (hn : names ≠ []) (h : fs.exists? (d ++ names) = true) :
    fs.isDir d = true := by
  induction names using List.reverseRecOn with
  | nil => exact absurd rfl hn
  | append_singleton l x ih =>
    rw [← List.append_assoc, FS.exists?_iff] at h
    have hp := hwf _ _ h
    by_cases hl : l = []
    · subst hl
      rw [FS.isDir_iff]
      simpa [view] using hp
    · apply ih hl
      rw [FS.exists?_iff]
      simp only [view] at hp
      rw [hp]; simp

theorem isDir_exists {fs : FS} {p : Path} (h : fs.isDir p = true) : fs.exists? p = true := by
  rw [FS.isDir_iff] at h
  rw [FS.exists?_iff, h]; simp

theorem mem_keys (fs : FS) (p : Path) : p ∈ fs.map (·.1) ↔ fs.exists? p = true := by
  rw [FS.exists?_iff]
  constructor
  · intro h
    obtain ⟨⟨q, e⟩, he, rfl⟩ := List.mem_map.1 h
    obtain ⟨e', he'⟩ := FS.exists_get?_of_mem he
    rw [he']; simp
  · intro h
    obtain ⟨e, he⟩ := Option.ne_none_iff_exists'.1 h
    exact List.mem_map.2 ⟨(p, e), FS.mem_of_get? he, rfl⟩

theorem mem_below (fs : FS) (dironly : Bool) (d p : Path) :
    p ∈ below fs dironly d ↔ fs.isDir d = true ∧ fs.exists? p = true ∧ (dironly = true → fs.isDir p = true) ∧
      ∃ names, p = d ++ names ∧ ∀ n ∈ names, hidden n = false := by
  unfold below
  by_cases hd : fs.isDir d = true
  · rw [if_pos hd, List.mem_filter, mem_keys]
    simp only [Bool.and_eq_true, decide_eq_true_eq, hd, true_and]
    constructor
    · rintro ⟨he, ⟨⟨t, rfl⟩, ha⟩, hi⟩
      refine ⟨he, ?_, t, rfl, ?_⟩
      · intro hb; subst hb; simpa using hi
      · simpa using ha
    · rintro ⟨he, hi, t, rfl, ha⟩
      refine ⟨he, ⟨⟨t, rfl⟩, by simpa using ha⟩, ?_⟩
      cases dironly
      · rfl
      · simpa using hi rfl
  · rw [if_neg hd]
    simp [hd]

theorem mem_matching (fs : FS) (dironly : Bool) (d : Path) (pat : Name) (p : Path) :
    p ∈ matching fs dironly d pat ↔ fs.isDir d = true ∧ fs.exists? p = true ∧ (dironly = true → fs.isDir p = true) ∧
      ∃ n, p = d ++ [n] ∧ (hidden n = true → hidden pat = true) ∧ fnmatch n pat = true := by
  unfold matching
  by_cases hd : fs.isDir d = true
  · rw [if_pos hd, List.mem_filter, List.mem_map]
    simp only [List.mem_filter, FS.mem_listdir, hd, true_and]
    constructor
    · rintro ⟨⟨n, ⟨hn, hc⟩, rfl⟩, hi⟩
      rw [Bool.and_eq_true] at hc
      refine ⟨(FS.exists?_iff _ _).2 hn, ?_, n, rfl, ?_, hc.2⟩
      · intro hb; subst hb; simpa using hi
      · intro hh; simpa [hh] using hc.1
    · rintro ⟨he, hi, n, rfl, hh, hf⟩
      refine ⟨⟨n, ⟨(FS.exists?_iff _ _).1 he, ?_⟩, rfl⟩, ?_⟩
      · rw [Bool.and_eq_true]
        refine ⟨?_, hf⟩
        by_cases h : hidden n = true
        · simp [hh h]
        · simp [h]
      · cases dironly
        · rfl
        · simpa using hi rfl
  · rw [if_neg hd]
    simp [hd]

theorem mem_component (fs : FS) (hwf : IsTree (view fs)) (dironly : Bool) (d : Path) (pat : Name) (p : Path)
    (he : fs.exists? p = true) (h1 : dironly = true → fs.isDir p = true) (h2 : pat = doubleStar → fs.isDir p = true) :
    p ∈ component fs dironly d pat ↔ ∃ names, Stands pat names ∧ p = d ++ names := by
  unfold component Stands
  by_cases hm : hasMagic pat = true
  · rw [if_pos hm]
    simp only [if_pos hm]
    by_cases hs : pat = doubleStar
    · rw [if_pos hs, mem_below]
      simp only [if_pos hs]
      constructor
      · rintro ⟨-, -, -, names, rfl, hn⟩; exact ⟨names, hn, rfl⟩
      · rintro ⟨names, hn, rfl⟩
        refine ⟨?_, he, h1, names, rfl, hn⟩
        by_cases hnil : names = []
        · subst hnil; simpa using h2 hs
        · exact parent_dir hwf hnil he
    · rw [if_neg hs, mem_matching]
      simp only [if_neg hs, fnmatch_exact]
      constructor
      · rintro ⟨-, -, -, n, rfl, hn⟩; exact ⟨[n], ⟨n, rfl, hn⟩, rfl⟩
      · rintro ⟨names, ⟨n, rfl, hn⟩, rfl⟩
        exact ⟨parent_dir hwf (by simp) he, he, h1, n, rfl, hn⟩
  · rw [if_neg hm]
    simp only [if_neg hm]
    constructor
    · intro h
      split at h
      · rw [List.mem_singleton] at h; exact ⟨[pat], rfl, h⟩
      · simp at h
    · rintro ⟨names, rfl, rfl⟩
      rw [if_pos he]; simp

theorem component_exists (fs : FS) (dironly : Bool) (d : Path) (pat : Name) (p : Path) (h : p ∈ component fs dironly d pat) :
    fs.exists? p = true ∧ ∃ names, p = d ++ names ∧ (pat ≠ doubleStar → names ≠ []) := by
  unfold component at h
  split at h
  · split at h
    · next hs => obtain ⟨-, he, -, names, hn, -⟩ := (mem_below ..).1 h; exact ⟨he, names, hn, fun hh => absurd hs hh⟩
    · obtain ⟨-, he, -, n, hn, -⟩ := (mem_matching ..).1 h; exact ⟨he, [n], hn, by simp⟩
  · split at h
    · next he => rw [List.mem_singleton] at h; subst h; exact ⟨he, [pat], rfl, by simp⟩
    · simp at h

theorem component_dir (fs : FS) (hwf : IsTree (view fs)) (dironly : Bool) (d : Path) (pat : Name) (p : Path)
    (h : p ∈ component fs dironly d pat) : fs.isDir d = true := by
  have he := component_exists fs dironly d pat p h
  unfold component at h
  split at h
  · split at h
    · exact ((mem_below ..).1 h).1
    · exact ((mem_matching ..).1 h).1
  · next hm =>
    obtain ⟨he, names, rfl, hn⟩ := he
    refine parent_dir hwf (hn ?_) he
    rintro rfl
    exact hm (by decide)

theorem mem_iglob (fs : FS) (hwf : IsTree (view fs)) (r : List Name) : ∀ (dironly : Bool) (p : Path), fs.exists? p = true →
    (dironly = true → fs.isDir p = true) → (r.head? = some doubleStar → fs.isDir p = true) →
    (p ∈ iglob fs dironly r ↔ Denotes r.reverse p) := by
  induction r with
  | nil =>
    intro dironly p _ _ _
    rw [List.reverse_nil, denotes_plain [] p rfl]
    simp [iglob]
  | cons base dir ih =>
    intro dironly p he h1 h2
    rw [iglob]
    by_cases hm : (base :: dir).any hasMagic = true
    · rw [if_pos hm, List.mem_flatMap, List.reverse_cons, denotes_snoc]
      have h2' : base = doubleStar → fs.isDir p = true := fun h => h2 (by rw [h]; rfl)
      have key : ∀ d, fs.isDir d = true →
          (d ∈ (if dir.any hasMagic then iglob fs true dir else [dir.reverse]) ↔ Denotes dir.reverse d) := by
        intro d hd
        by_cases hdm : dir.any hasMagic = true
        · rw [if_pos hdm]
          exact ih true d (isDir_exists hd) (fun _ => hd) (fun _ => hd)
        · rw [if_neg hdm, denotes_plain _ _ (by simpa using hdm)]
          simp
      constructor
      · rintro ⟨d, hd, hp⟩
        obtain ⟨names, hs, rfl⟩ := (mem_component fs hwf dironly d base p he h1 h2').1 hp
        exact ⟨d, names, (key d (component_dir fs hwf _ _ _ _ hp)).1 hd, hs, rfl⟩
      · rintro ⟨d, names, hd, hs, rfl⟩
        have hp := (mem_component fs hwf dironly d base _ he h1 h2').2 ⟨names, hs, rfl⟩
        exact ⟨d, (key d (component_dir fs hwf _ _ _ _ hp)).2 hd, hp⟩
    · rw [if_neg hm, denotes_plain _ _ (by rw [List.any_reverse]; simpa using hm)]
      constructor
      · intro h
        split at h
        · simpa using h
        · simp at h
      · rintro rfl
        rw [if_pos he]; simp

theorem iglob_exists (fs : FS) (r : List Name) (hr : r ≠ []) (dironly : Bool) (p : Path) (h : p ∈ iglob fs dironly r) :
    fs.exists? p = true := by
  cases r with
  | nil => exact absurd rfl hr
  | cons base dir =>
    rw [iglob] at h
    split at h
    · obtain ⟨d, -, hp⟩ := List.mem_flatMap.1 h
      exact (component_exists fs dironly d base p hp).1
    · split at h
      · next he => rw [List.mem_singleton] at h; rw [h]; exact he
      · simp at h

/-- **C119, expansion.**  A path with wildcards which does not end in `**` is expanded to exactly the existing paths which it denotes. -/
theorem glob_exact (fs : FS) (hwf : IsTree (view fs)) (pat : Path) (hne : pat ≠ []) (hlast : pat.getLast? ≠ some doubleStar) (p : Path) :
    p ∈ glob fs pat ↔ fs.exists? p = true ∧ Denotes pat p := by
  have hg : glob fs pat = iglob fs false pat.reverse := by
    unfold glob
    rw [if_neg (by rintro rfl; exact hlast rfl)]
  rw [hg]
  constructor
  · intro h
    have he := iglob_exists fs _ (by simpa using hne) false p h
    refine ⟨he, ?_⟩
    have := (mem_iglob fs hwf pat.reverse false p he (by simp) (by rw [List.head?_reverse]; exact fun h => absurd h hlast)).1 h
    simpa using this
  · rintro ⟨he, hd⟩
    refine (mem_iglob fs hwf pat.reverse false p he (by simp) (by rw [List.head?_reverse]; exact fun h => absurd h hlast)).2 ?_
    simpa using hd

/-- A plain path is expanded to itself if it exists and to nothing otherwise. -/
theorem glob_plain (fs : FS) (pat : Path) (hne : pat ≠ []) (h : pat.any hasMagic = false) :
    glob fs pat = if fs.exists? pat = true then [pat] else [] := by
  unfold glob
  rw [if_neg (by rintro rfl; exact absurd h (by decide))]
  rcases hr : pat.reverse with _ | ⟨base, dir⟩
  · rw [List.reverse_eq_nil_iff] at hr; exact absurd hr hne
  · have hb : (base :: dir).any hasMagic = false := by rw [← hr, List.any_reverse]; exact h
    rw [iglob, if_neg (by simp [hb]), ← hr, List.reverse_reverse]

/-! ## Adding the inputs named on the command line -/

/-- **C119, plain names.**  If every path is without wildcards and names a readable file, the base names are distinct and the inputs
directory holds files only, then exactly the named files are added, and the message says how many. -/
theorem named_inputs_added_partial (here fs : FS) (w : Name) (args : List Path) (hne : args ≠ [])
    (hdir : view fs (comp w ++ ["inputs".toList]) = some .dir) (hfiles : OnlyFiles (view fs) (comp w ++ ["inputs".toList]))
    (hplain : ∀ a ∈ args, a.getLastD [] ≠ [] ∧ a.any hasMagic = false) (hnd : (args.map (·.getLastD [])).Nodup)
    (text : Path → Name) (hread : ∀ a ∈ args, view here a = some (.file (text a))) :
    (inputAddPaths here fs w args).1 = .ok args.length ∧
      (∀ a ∈ args, view (inputAddPaths here fs w args).2 (comp w ++ ["inputs".toList] ++ [a.getLastD []]) = some (.file (text a))) ∧
      ∀ r, (∀ a ∈ args, r ≠ comp w ++ ["inputs".toList] ++ [a.getLastD []]) → view (inputAddPaths here fs w args).2 r = view fs r := by
  have hexp : ∀ l : List Path, (∀ a ∈ l, a ∈ args) → expandPaths here l = l := by
    intro l
    induction l with
    | nil => intro _; rfl
    | cons a l ih =>
      intro hl
      have ha := hl a (by simp)
      have hex : here.exists? a = true := by
        rw [FS.exists?_iff]
        have := hread a ha
        simp only [view] at this
        rw [this]; simp
      have hnil : a ≠ [] := by
        rintro rfl
        exact (hplain _ ha).1 rfl
      have := ih fun x hx => hl x (by simp [hx])
      unfold expandPaths at this ⊢
      rw [List.flatMap_cons, this, glob_plain here a hnil (hplain a ha).2, if_pos hex]
      rfl
  have hsrc : ∀ a ∈ args, source here a = ⟨a.getLastD [], some (text a)⟩ := by
    intro a ha
    have := hread a ha
    simp only [view] at this
    unfold source
    rw [this]
  unfold inputAddPaths
  rw [hexp args fun _ h => h]
  have hbase : (args.map (source here)).map (·.base) = args.map (·.getLastD []) := by
    rw [List.map_map]
    exact List.map_congr_left fun a ha => by simp [hsrc a ha]
  have hrd : ∀ s ∈ args.map (source here), s.base ≠ [] ∧ s.content ≠ none := by
    intro s hs
    obtain ⟨a, ha, rfl⟩ := List.mem_map.1 hs
    rw [hsrc a ha]
    exact ⟨(hplain a ha).1, by simp⟩
  obtain ⟨n, h1, h2, h3, h4⟩ := add_reports_partial fs w (args.map (source here)) (by simpa using hne) hdir hfiles hrd (by rw [hbase]; exact hnd)
  refine ⟨?_, ?_, ?_⟩
  · rw [h1, h2, List.dedup_eq_self.2 (by rw [hbase]; exact hnd)]
    simp
  · intro a ha
    have := (h3 _ (List.mem_map_of_mem ha)).2
    rw [hsrc a ha] at this
    simpa using this
  · intro r hr
    apply h4
    intro s hs
    obtain ⟨a, ha, rfl⟩ := List.mem_map.1 hs
    rw [hsrc a ha]
    exact hr a ha

/-- **C119 fails for missing files.**  A named file which does not exist is ignored beside others: the command does what it does without
that argument. -/
theorem missing_input_ignored_violated (here fs : FS) (w : Name) (before after : List Path) (a : Path) (hne : a ≠ [])
    (hplain : a.any hasMagic = false) (hmiss : view here a = none) :
    inputAddPaths here fs w (before ++ a :: after) = inputAddPaths here fs w (before ++ after) := by
  have : glob here a = [] := by
    rw [glob_plain here a hne hplain, if_neg]
    rw [FS.exists?_iff]
    simpa [view] using hmiss
  unfold inputAddPaths expandPaths
  rw [List.flatMap_append, List.flatMap_cons, this, List.nil_append, ← List.flatMap_append]

/-- The tree used below: three files, two of them in a directory, and a hidden one. -/
def hereExample : FS :=
  [([], .dir), (["d".toList], .dir), (["d".toList, "a[1].nc".toList], .file "one".toList), (["d".toList, "a1.nc".toList], .file "two".toList),
   (["d".toList, ".h.nc".toList], .file "three".toList), (["b.nc".toList], .file "four".toList)]

/-- **C119 fails for names with brackets.**  Of two files, the one that is named is not added, and the other one is. -/
theorem bracket_input_violated :
    ∃ (here fs : FS) (w : Name) (a b : Path), view here a = some (.file "one".toList) ∧ view here b = some (.file "two".toList) ∧
      a ≠ b ∧ (inputAddPaths here fs w [a]).1 = .ok 1 ∧
      view (inputAddPaths here fs w [a]).2 (comp w ++ ["inputs".toList] ++ [a.getLastD []]) = none ∧
      view (inputAddPaths here fs w [a]).2 (comp w ++ ["inputs".toList] ++ [b.getLastD []]) = some (.file "two".toList) :=
  ⟨hereExample, [([], .dir), (["w".toList], .dir)], "w".toList, ["d".toList, "a[1].nc".toList], ["d".toList, "a1.nc".toList],
    by decide +kernel, by decide +kernel, by decide +kernel, by decide +kernel, by decide +kernel, by decide +kernel⟩

/-- A directory is never empty of itself: a path which ends in `**` expands to its directory too, which cannot be copied.  **C119 fails for
such paths.** -/
theorem double_star_fails_violated (here fs : FS) (hwf : IsTree (view here)) (w : Name) (dir : Path) (hne : dir ≠ [])
    (hplain : dir.any hasMagic = false) (hd : view here dir = some .dir)
    (hdir : view fs (comp w ++ ["inputs".toList]) = some .dir) (hfiles : OnlyFiles (view fs) (comp w ++ ["inputs".toList])) :
    (inputAddPaths here fs w [dir ++ [doubleStar]]).1 = .error (cmdErr "cannot copy") := by
  have hmem : dir ∈ glob here (dir ++ [doubleStar]) := by
    have hd' : here.isDir dir = true := by rw [FS.isDir_iff]; exact hd
    unfold glob
    rw [if_neg (by intro h; exact hne (List.append_cancel_right (h : dir ++ [doubleStar] = [] ++ [doubleStar])))]
    refine (mem_iglob here hwf _ false dir (isDir_exists hd') (by simp) (fun _ => hd')).2 ?_
    rw [List.reverse_reverse, denotes_snoc]
    refine ⟨dir, [], (denotes_plain dir dir hplain).2 rfl, ?_, by simp⟩
    have hm : hasMagic doubleStar = true := by decide
    simp [Stands, hm]
  have hsrc : source here dir ∈ (expandPaths here [dir ++ [doubleStar]]).map (source here) := by
    refine List.mem_map_of_mem ?_
    unfold expandPaths
    rw [List.flatMap_cons, List.flatMap_nil, List.append_nil]
    exact hmem
  have hc : (source here dir).content = none := by
    simp only [view] at hd
    unfold source
    rw [hd]
  unfold inputAddPaths
  generalize hl : (expandPaths here [dir ++ [doubleStar]]).map (source here) = paths at hsrc ⊢
  have hpne : paths ≠ [] := List.ne_nil_of_mem hsrc
  have herr : (addInputs fs w paths).1 = .error (.workspaceError "cannot copy") := by
    have hor : (addInputs fs w paths).1 = .ok () ∨ (addInputs fs w paths).1 = .error (.workspaceError "cannot copy") := by
      have hloop : ∀ (l : List Source) (fs : FS) (k : Nat), (addLoop fs (comp w ++ [inputsDir]) k l).1 = .ok () ∨
          (addLoop fs (comp w ++ [inputsDir]) k l).1 = .error (.workspaceError "cannot copy") := by
        intro l
        induction l with
        | nil => intro _ _; exact .inl rfl
        | cons s l ih =>
          intro fs k
          rw [addLoop]
          split
          · exact .inr rfl
          · exact ih _ _
      have he : addInputs fs w paths = addLoop fs (comp w ++ [inputsDir]) 0 paths := by
        unfold addInputs ensureDir
        rw [if_pos (by rw [FS.exists?_iff]; show view fs (comp w ++ ["inputs".toList]) ≠ none; rw [hdir]; simp)]
      rw [he]; exact hloop _ _ _
    rcases hor with hok | herr
    · exfalso
      have he : addInputs fs w paths = addLoop fs (comp w ++ [inputsDir]) 0 paths := by
        unfold addInputs ensureDir
        rw [if_pos (by rw [FS.exists?_iff]; show view fs (comp w ++ ["inputs".toList]) ≠ none; rw [hdir]; simp)]
      rw [he] at hok
      obtain ⟨-, h2, -⟩ := (addLoop_spec fs _ 0 paths hfiles hdir).2 hok
      exact (h2 _ hsrc).2 hc
    · exact herr
  unfold inputAdd
  rw [if_neg hpne]
  rcases hr : addInputs fs w paths with ⟨res, fs1, k⟩
  rw [hr] at herr
  dsimp only at herr
  subst herr
  rfl

/-- **C119, a pattern for products.**  `dir/*.nc` is expanded to exactly the entries of `dir` which end in `.nc` and do not begin with a
dot. -/
theorem star_nc_exact (here : FS) (hwf : IsTree (view here)) (dir : Path) (hplain : dir.any hasMagic = false) (p : Path) :
    p ∈ glob here (dir ++ ["*.nc".toList]) ↔ view here p ≠ none ∧ ∃ n, p = dir ++ [n] ∧ ".nc".toList <:+ n ∧ n.head? ≠ some '.' := by
  have hl : (dir ++ ["*.nc".toList]).getLast? ≠ some doubleStar := by
    rw [List.getLast?_append]
    simp (decide := true) [doubleStar]
  rw [glob_exact here hwf _ (by simp) hl, FS.exists?_iff, denotes_snoc]
  refine and_congr Iff.rfl ?_
  have hm : hasMagic "*.nc".toList = true := by decide
  have hs : "*.nc".toList ≠ doubleStar := by decide
  have hh : hidden "*.nc".toList = false := by decide
  simp only [Stands, if_pos hm, if_neg hs, hh, ← fnmatch_exact, denotes_plain dir _ hplain]
  have hf : ∀ n, fnmatch n "*.nc".toList = true ↔ ".nc".toList <:+ n := fun n => fnmatch_ending n ".nc".toList (by decide)
  have hd : ∀ n : Name, (hidden n = true → False) ↔ n.head? ≠ some '.' := by
    intro n
    simp [hidden]
  constructor
  · rintro ⟨d, names, rfl, ⟨n, rfl, h1, h2⟩, rfl⟩
    exact ⟨n, rfl, (hf n).1 h2, (hd n).1 (by simpa using h1)⟩
  · rintro ⟨n, rfl, h1, h2⟩
    exact ⟨dir, [n], rfl, ⟨n, rfl, by simpa using (hd n).2 h2, (hf n).2 h1⟩, rfl⟩

/-! ## Non-vacuity -/

example : IsTree (view hereExample) := by
  have h : ∀ p ∈ hereExample.map (·.1), p ≠ [] → view hereExample p.dropLast = some .dir := by decide +kernel
  intro p n hp
  have := h (p ++ [n]) ((mem_keys _ _).2 ((FS.exists?_iff _ _).2 hp)) (by simp)
  simpa using this

example : glob hereExample ["d".toList, "*.nc".toList] = [["d".toList, "a[1].nc".toList], ["d".toList, "a1.nc".toList]] := by decide +kernel

example : glob hereExample ["**".toList, "*.nc".toList] =
    [["b.nc".toList], ["d".toList, "a[1].nc".toList], ["d".toList, "a1.nc".toList]] := by decide +kernel

example : (inputAddPaths hereExample [([], .dir), (["w".toList], .dir), (["w".toList, "inputs".toList], .dir)] "w".toList
    [["b.nc".toList], ["d".toList, "a1.nc".toList], ["missing.nc".toList]]).1 = .ok 2 := by decide +kernel

end Dedop.Inputs
