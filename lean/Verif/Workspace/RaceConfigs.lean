import Verif.Workspace.RaceFiles

/-!
# Saving and reading the three files of a configuration at the same time (C177)

`save_configs` and `get_configs` of the web service (`/repo/dedop/webapi/websocket.py:97-109`, `119-125`), whose calls run in a pool of
threads, and the start of a run (`/repo/dedop/proc/sar/processor.py:58-60`).  Here the writing or reading of one file is one step; what
may happen inside of it is C122 and C123.
-/
namespace Dedop.Workspace
open Dedop.Names

/-! ## Model -/

/-- The files, and what a reader has got so far (`websocket.py:98-100`). -/
structure Desk where
  fs : FS
  got : List (Name × Option Name)

/-- The text of a configuration file, `none` if there is no such file (`workspace_manager.py:261-263`). -/
def cfgText (fs : FS) (w c key : Name) : Option Name :=
  match Dict.get? fs (cfgFile w c key) with
  | some (.file t) => some t
  | _ => none

/-- One file is written by `save_configs` (`websocket.py:121`, `123`, `125`). -/
def put (w c : Name) (text : Name → Name) (key : Name) (s : Desk) : Desk :=
  { s with fs := (writeConfigFile s.fs w c key (text key)).2 }

/-- One file is read by `get_configs` (`websocket.py:98-100`) or at the start of a run (`processor.py:58-60`). -/
def fetch (w c : Name) (key : Name) (s : Desk) : Desk :=
  { s with got := s.got ++ [(key, cfgText s.fs w c key)] }

/-- The steps of `save_configs` (`websocket.py:119-125`). -/
def saveCall (w c : Name) (text : Name → Name) : List (Desk → Desk) := cfgKeys.map (put w c text)

/-- The steps of `get_configs` (`websocket.py:97-100`). -/
def getCall (w c : Name) : List (Desk → Desk) := cfgKeys.map (fetch w c)

/-- The order in which a run reads the files (`processor.py:58-60`). -/
def runKeys : List Name := ["CST".toList, "CHD".toList, "CNF".toList]

/-- The steps of the start of a run (`processor.py:58-60`). -/
def runCall (w c : Name) : List (Desk → Desk) := runKeys.map (fetch w c)

/-- Steps one after the other; not tied to a line of the code. -/
def happen (steps : List (Desk → Desk)) (s : Desk) : Desk := steps.foldl (fun s f => f s) s

/-! ## Lemmas -/

theorem happen_cons (f : Desk → Desk) (l : List (Desk → Desk)) (s : Desk) : happen (f :: l) s = happen l (f s) := rfl

theorem rewritten_eq (old text : Name) : rewritten old text = text := by
  rw [rewritten]
  simp only [write_from_start, OpenFile.truncate, List.take_left]

theorem cfgText_put (w c : Name) (text : Name → Name) (key k : Name) (s : Desk) (h : cfgText s.fs w c key ≠ none) :
    cfgText (put w c text key s).fs w c k = if k = key then some (text key) else cfgText s.fs w c k := by
  unfold put
  dsimp only
  unfold writeConfigFile
  unfold cfgText at h
  cases hg : Dict.get? s.fs (cfgFile w c key) with
  | none => rw [hg] at h; exact absurd rfl h
  | some e =>
    cases e with
    | dir => rw [hg] at h; exact absurd rfl h
    | file old =>
      dsimp only
      unfold cfgText
      rw [Dict.get?_set, rewritten_eq]
      by_cases hk : k = key
      · rw [if_pos hk, if_pos (by rw [hk])]
      · rw [if_neg hk, if_neg (fun hh => hk (cfgFile_inj hh))]

theorem get_put (w c : Name) (text : Name → Name) (key : Name) (s : Desk) (p : Path) (h : p ≠ cfgFile w c key) :
    Dict.get? (put w c text key s).fs p = Dict.get? s.fs p := by
  unfold put
  dsimp only
  unfold writeConfigFile
  cases hg : Dict.get? s.fs (cfgFile w c key) with
  | none => rfl
  | some e =>
    cases e with
    | dir => rfl
    | file old => dsimp only; rw [Dict.get?_set, if_neg h]

/-- All files with these keys exist. -/
def Present (w c : Name) (keys : List Name) (fs : FS) : Prop := ∀ k ∈ keys, cfgText fs w c k ≠ none

theorem present_put {w c : Name} {text : Name → Name} {key : Name} {keys : List Name} {s : Desk} (hk : cfgText s.fs w c key ≠ none)
    (h : Present w c keys s.fs) : Present w c keys (put w c text key s).fs := by
  intro k hk'
  rw [cfgText_put w c text key k s hk]
  split
  · simp
  · exact h k hk'

theorem saves_aux (w c : Name) (a b : Name → Name) : ∀ {as bs steps : List (Desk → Desk)}, Shuffle as bs steps →
    ∀ ks ls, as = ks.map (put w c a) → bs = ls.map (put w c b) → ∀ s, Present w c (ks ++ ls) s.fs →
    ∀ k, (k ∉ ks ∧ k ∉ ls ∧ cfgText (happen steps s).fs w c k = cfgText s.fs w c k) ∨
      (k ∈ ks ∧ cfgText (happen steps s).fs w c k = some (a k)) ∨ (k ∈ ls ∧ cfgText (happen steps s).fs w c k = some (b k)) := by
  intro as bs steps h
  induction h with
  | nil =>
    intro ks ls h1 h2 s _ k
    have h1 : ks = [] := by simpa using h1.symm
    have h2 : ls = [] := by simpa using h2.symm
    subst h1 h2
    exact Or.inl ⟨by simp, by simp, rfl⟩
  | left h ih =>
    intro ks ls h1 h2 s hp k
    cases ks with
    | nil => simp at h1
    | cons x ks =>
      simp only [List.map_cons, List.cons.injEq] at h1
      obtain ⟨rfl, h1⟩ := h1
      have hx := hp x (by simp)
      have hp' : Present w c (ks ++ ls) s.fs := fun y hy => hp y (by simp at hy ⊢; tauto)
      rw [happen_cons]
      rcases ih ks ls h1 h2 _ (present_put hx hp') k with ⟨h3, h4, h5⟩ | ⟨h3, h4⟩ | ⟨h3, h4⟩
      · rw [cfgText_put w c a x k s hx] at h5
        by_cases hk : k = x
        · rw [if_pos hk] at h5
          exact Or.inr (Or.inl ⟨by simp [hk], by rw [h5, hk]⟩)
        · rw [if_neg hk] at h5
          exact Or.inl ⟨by simp [hk, h3], h4, h5⟩
      · exact Or.inr (Or.inl ⟨by simp [h3], h4⟩)
      · exact Or.inr (Or.inr ⟨h3, h4⟩)
  | right h ih =>
    intro ks ls h1 h2 s hp k
    cases ls with
    | nil => simp at h2
    | cons x ls =>
      simp only [List.map_cons, List.cons.injEq] at h2
      obtain ⟨rfl, h2⟩ := h2
      have hx := hp x (by simp)
      have hp' : Present w c (ks ++ ls) s.fs := fun y hy => hp y (by simp at hy ⊢; tauto)
      rw [happen_cons]
      rcases ih ks ls h1 h2 _ (present_put hx hp') k with ⟨h3, h4, h5⟩ | ⟨h3, h4⟩ | ⟨h3, h4⟩
      · rw [cfgText_put w c b x k s hx] at h5
        by_cases hk : k = x
        · rw [if_pos hk] at h5
          exact Or.inr (Or.inr ⟨by simp [hk], by rw [h5, hk]⟩)
        · rw [if_neg hk] at h5
          exact Or.inl ⟨h3, by simp [hk, h4], h5⟩
      · exact Or.inr (Or.inl ⟨h3, h4⟩)
      · exact Or.inr (Or.inr ⟨by simp [h3], h4⟩)

theorem saves_frame (w c : Name) (a b : Name → Name) (p : Path) (hp : ∀ k, p ≠ cfgFile w c k) :
    ∀ {as bs steps : List (Desk → Desk)}, Shuffle as bs steps → ∀ ks ls : List Name, as = ks.map (put w c a) → bs = ls.map (put w c b) →
    ∀ s, Dict.get? (happen steps s).fs p = Dict.get? s.fs p := by
  intro as bs steps h
  induction h with
  | nil => intro _ _ _ _ s; rfl
  | left h ih =>
    intro ks ls h1 h2 s
    cases ks with
    | nil => simp at h1
    | cons x ks =>
      simp only [List.map_cons, List.cons.injEq] at h1
      obtain ⟨rfl, h1⟩ := h1
      rw [happen_cons, ih ks ls h1 h2, get_put _ _ _ _ _ _ (hp x)]
  | right h ih =>
    intro ks ls h1 h2 s
    cases ls with
    | nil => simp at h2
    | cons x ls =>
      simp only [List.map_cons, List.cons.injEq] at h2
      obtain ⟨rfl, h2⟩ := h2
      rw [happen_cons, ih ks ls h1 h2, get_put _ _ _ _ _ _ (hp x)]

theorem reads_aux (w c : Name) (a : Name → Name) : ∀ {as bs steps : List (Desk → Desk)}, Shuffle as bs steps →
    ∀ ks ls : List Name, as = ks.map (put w c a) → bs = ls.map (fetch w c) → ∀ s, Present w c ks s.fs →
    ∃ vs : List (Name × Option Name), (happen steps s).got = s.got ++ vs ∧ vs.map (·.1) = ls ∧
      ∀ e ∈ vs, e.2 = cfgText s.fs w c e.1 ∨ (e.1 ∈ ks ∧ e.2 = some (a e.1)) := by
  intro as bs steps h
  induction h with
  | nil =>
    intro ks ls h1 h2 s _
    have h2 : ls = [] := by simpa using h2.symm
    subst h2
    exact ⟨[], by simp [happen], rfl, by simp⟩
  | left h ih =>
    intro ks ls h1 h2 s hp
    cases ks with
    | nil => simp at h1
    | cons x ks =>
      simp only [List.map_cons, List.cons.injEq] at h1
      obtain ⟨rfl, h1⟩ := h1
      have hx := hp x (by simp)
      have hp' : Present w c ks s.fs := fun y hy => hp y (by simp [hy])
      obtain ⟨vs, h3, h4, h5⟩ := ih ks ls h1 h2 _ (present_put (text := a) hx hp')
      refine ⟨vs, by rw [happen_cons, h3]; rfl, h4, fun e he => ?_⟩
      rcases h5 e he with h6 | ⟨h6, h7⟩
      · rw [cfgText_put w c a x e.1 s hx] at h6
        by_cases hk : e.1 = x
        · rw [if_pos hk] at h6
          exact Or.inr ⟨by simp [hk], by rw [h6, hk]⟩
        · rw [if_neg hk] at h6
          exact Or.inl h6
      · exact Or.inr ⟨by simp [h6], h7⟩
  | right h ih =>
    intro ks ls h1 h2 s hp
    cases ls with
    | nil => simp at h2
    | cons x ls =>
      simp only [List.map_cons, List.cons.injEq] at h2
      obtain ⟨rfl, h2⟩ := h2
      obtain ⟨vs, h3, h4, h5⟩ := ih ks ls h1 h2 (fetch w c x s) hp
      refine ⟨(x, cfgText s.fs w c x) :: vs, by rw [happen_cons, h3]; simp [fetch], by simp [h4], fun e he => ?_⟩
      rcases List.mem_cons.1 he with rfl | he
      · exact Or.inl rfl
      · exact h5 e he

theorem saves_all (w c : Name) (a b : Name → Name) (p : Name → Bool) : ∀ (ks : List Name), ks.Nodup →
    ∃ steps, Shuffle (ks.map (put w c a)) (ks.map (put w c b)) steps ∧ ∀ s, Present w c ks s.fs →
      ∀ k ∈ ks, cfgText (happen steps s).fs w c k = some (if p k then a k else b k)
  | [], _ => ⟨[], .nil, by simp⟩
  | x :: ks, hn => by
    obtain ⟨hx, hn⟩ := List.nodup_cons.1 hn
    obtain ⟨steps, h1, h2⟩ := saves_all w c a b p ks hn
    have step : ∀ (f g : Name → Name) (s : Desk), Present w c (x :: ks) s.fs →
        ∀ k ∈ x :: ks, cfgText (happen steps (put w c g x (put w c f x s))).fs w c k =
          if k = x then some (g x) else some (if p k then a k else b k) := by
      intro f g s hp k hk
      have hpx := hp x (by simp)
      have hp1 : Present w c ks (put w c f x s).fs := present_put hpx fun y hy => hp y (by simp [hy])
      have hpx1 : cfgText (put w c f x s).fs w c x ≠ none := by rw [cfgText_put _ _ _ _ _ _ hpx]; simp
      have hp2 : Present w c ks (put w c g x (put w c f x s)).fs := present_put hpx1 hp1
      by_cases hkx : k = x
      · rw [if_pos hkx]
        rcases saves_aux w c a b h1 ks ks rfl rfl _ (by intro y hy; exact hp2 y (by simpa using hy)) k with ⟨-, -, h⟩ | ⟨h, -⟩ | ⟨h, -⟩
        · rw [h, cfgText_put _ _ _ _ _ _ hpx1, if_pos hkx]
        · exact absurd (hkx ▸ h) hx
        · exact absurd (hkx ▸ h) hx
      · rw [if_neg hkx]
        exact h2 _ hp2 k (by simpa [hkx] using hk)
    cases hpx : p x with
    | true =>
      refine ⟨put w c b x :: put w c a x :: steps, .right (.left h1), fun s hp k hk => ?_⟩
      rw [happen_cons, happen_cons, step b a s hp k hk]
      split
      · rename_i hkx; rw [hkx, hpx]; rfl
      · rfl
    | false =>
      refine ⟨put w c a x :: put w c b x :: steps, .left (.right h1), fun s hp k hk => ?_⟩
      rw [happen_cons, happen_cons, step a b s hp k hk]
      split
      · rename_i hkx; rw [hkx, hpx]; rfl
      · rfl

theorem reads_all (w c : Name) (a : Name → Name) (p : Name → Bool) : ∀ (ks : List Name), ks.Nodup →
    ∃ steps, Shuffle (ks.map (put w c a)) (ks.map (fetch w c)) steps ∧ ∀ s, Present w c ks s.fs →
      (happen steps s).got = s.got ++ ks.map fun k => (k, if p k then some (a k) else cfgText s.fs w c k)
  | [], _ => ⟨[], .nil, by simp [happen]⟩
  | x :: ks, hn => by
    obtain ⟨hx, hn⟩ := List.nodup_cons.1 hn
    obtain ⟨steps, h1, h2⟩ := reads_all w c a p ks hn
    have same : ∀ (s : Desk), cfgText s.fs w c x ≠ none →
        (ks.map fun k => (k, if p k then some (a k) else cfgText (put w c a x s).fs w c k))
          = ks.map fun k => (k, if p k then some (a k) else cfgText s.fs w c k) := by
      intro s hs
      refine List.map_congr_left fun k hk => ?_
      rw [cfgText_put w c a x k s hs, if_neg (show ¬ k = x from fun h => hx (h ▸ hk))]
    cases hpx : p x with
    | true =>
      refine ⟨put w c a x :: fetch w c x :: steps, .left (.right h1), fun s hp => ?_⟩
      have hpx' := hp x (by simp)
      have hp1 : Present w c ks (put w c a x s).fs := present_put hpx' fun y hy => hp y (by simp [hy])
      rw [happen_cons, happen_cons, h2 (fetch w c x (put w c a x s)) hp1]
      simp only [fetch, List.map_cons, hpx, List.append_assoc, List.singleton_append]
      rw [same s hpx', cfgText_put _ _ _ _ _ _ hpx', if_pos rfl]
      rfl
    | false =>
      refine ⟨fetch w c x :: put w c a x :: steps, .right (.left h1), fun s hp => ?_⟩
      have hpx' := hp x (by simp)
      have hp1 : Present w c ks (put w c a x (fetch w c x s)).fs :=
        present_put (s := fetch w c x s) hpx' fun y hy => hp y (by simp [hy])
      rw [happen_cons, happen_cons, h2 _ hp1]
      rw [same (fetch w c x s) hpx']
      simp only [put, fetch, List.map_cons, hpx, List.append_assoc, List.singleton_append]
      rfl

theorem alone_aux (w c : Name) (a : Name → Name) : ∀ (ks : List Name) (s : Desk), Present w c ks s.fs →
    saveConfigs s.fs w c (ks.map fun k => (k, a k)) = (.ok (), (happen (ks.map (put w c a)) s).fs)
  | [], _, _ => rfl
  | x :: ks, s, hp => by
    have hx := hp x (by simp)
    have hp' : Present w c ks (put w c a x s).fs := present_put hx fun y hy => hp y (by simp [hy])
    have ih := alone_aux w c a ks (put w c a x s) hp'
    have h1 : writeConfigFile s.fs w c x (a x) = (.ok (), (put w c a x s).fs) := by
      unfold put
      dsimp only
      unfold cfgText at hx
      unfold writeConfigFile
      cases hg : Dict.get? s.fs (cfgFile w c x) with
      | none => rw [hg] at hx; exact absurd rfl hx
      | some e =>
        cases e with
        | dir => rw [hg] at hx; exact absurd rfl hx
        | file old => rfl
    rw [List.map_cons, List.map_cons, happen_cons, saveConfigs, h1]
    exact ih

/-! ## C177 -/

/-- The steps of a save, without anything between them, are `save_configs`. -/
theorem save_call_alone (w c : Name) (a : Name → Name) (s : Desk) (hp : Present w c cfgKeys s.fs) :
    saveConfigs s.fs w c (cfgKeys.map fun k => (k, a k)) = (.ok (), (happen (saveCall w c a) s).fs) :=
  alone_aux w c a cfgKeys s hp

/-- Two saves at the same time: afterwards every file of the configuration holds the text of one of the two, and nothing else has
changed. -/
theorem saves_per_file_partial (w c : Name) (a b : Name → Name) (s : Desk) (hp : Present w c cfgKeys s.fs)
    (steps : List (Desk → Desk)) (h : Shuffle (saveCall w c a) (saveCall w c b) steps) :
    (∀ k ∈ cfgKeys, cfgText (happen steps s).fs w c k = some (a k) ∨ cfgText (happen steps s).fs w c k = some (b k)) ∧
    ∀ p, (∀ k, p ≠ cfgFile w c k) → Dict.get? (happen steps s).fs p = Dict.get? s.fs p := by
  refine ⟨fun k hk => ?_, fun p hp => saves_frame w c a b p hp h _ _ rfl rfl s⟩
  rcases saves_aux w c a b h _ _ rfl rfl s (by intro y hy; exact hp y (by simpa using hy)) k with ⟨h1, -⟩ | ⟨-, h1⟩ | ⟨-, h1⟩
  · exact absurd hk h1
  · exact Or.inl h1
  · exact Or.inr h1

/-- Every mixture of the two can come out: for each choice of one of the two for each file there is an order of the steps which ends
in it, whatever the files are. -/
theorem saves_mixed_violated (w c : Name) (a b : Name → Name) (choice : Name → Bool) :
    ∃ steps, Shuffle (saveCall w c a) (saveCall w c b) steps ∧ ∀ s, Present w c cfgKeys s.fs →
      ∀ k ∈ cfgKeys, cfgText (happen steps s).fs w c k = some (if choice k then a k else b k) :=
  saves_all w c a b choice cfgKeys (by decide)

/-- A client that asks for the configuration while it is saved gets for every file the old or the new text. -/
theorem reads_per_file_partial (w c : Name) (a : Name → Name) (s : Desk) (hp : Present w c cfgKeys s.fs) (hs : s.got = [])
    (steps : List (Desk → Desk)) (h : Shuffle (saveCall w c a) (getCall w c) steps) :
    (happen steps s).got.map (·.1) = cfgKeys ∧
    ∀ e ∈ (happen steps s).got, e.2 = cfgText s.fs w c e.1 ∨ e.2 = some (a e.1) := by
  obtain ⟨vs, h1, h2, h3⟩ := reads_aux w c a h _ _ rfl rfl s hp
  rw [hs, List.nil_append] at h1
  rw [h1]
  exact ⟨h2, fun e he => (h3 e he).imp id And.right⟩

/-- Every mixture of old and new files can be read, also one in which a new file stands between two old ones. -/
theorem reads_mixed_violated (w c : Name) (a : Name → Name) (new : Name → Bool) :
    ∃ steps, Shuffle (saveCall w c a) (getCall w c) steps ∧ ∀ s, Present w c cfgKeys s.fs → s.got = [] →
      (happen steps s).got = cfgKeys.map fun k => (k, if new k then some (a k) else cfgText s.fs w c k) := by
  obtain ⟨steps, h1, h2⟩ := reads_all w c a new cfgKeys (by decide)
  exact ⟨steps, h1, fun s hp hs => by rw [h2 s hp, hs, List.nil_append]⟩

/-- A run that is started while its configuration is saved reads the files in another order: it has either the old constants, or the new
text of all three files. -/
theorem run_start_partial (w c : Name) (a : Name → Name) (s : Desk) (hp : Present w c cfgKeys s.fs) (hs : s.got = [])
    (steps : List (Desk → Desk)) (h : Shuffle (saveCall w c a) (runCall w c) steps) :
    ("CST".toList, cfgText s.fs w c "CST".toList) ∈ (happen steps s).got ∨
    (happen steps s).got = runKeys.map fun k => (k, some (a k)) := by
  have key : ∀ {as bs steps : List (Desk → Desk)}, Shuffle as bs steps → ∀ ks, as = ks.map (put w c a) → "CST".toList ∈ ks →
      ks.Nodup → ks.getLast? = some "CST".toList → bs = runKeys.map (fetch w c) → ∀ s, Present w c ks s.fs → s.got = [] →
      ("CST".toList, cfgText s.fs w c "CST".toList) ∈ (happen steps s).got ∨
      (happen steps s).got = runKeys.map fun k => (k, cfgText (happen (ks.map (put w c a)) s).fs w c k) := by
    intro as bs steps h
    induction h with
    | nil => intro ks h1 h2; have : ks = [] := by simpa using h1.symm
             subst this; simp at h2
    | @right f as bs cs h ih =>
      intro ks h1 _ _ _ hb s hp hs
      left
      simp only [runKeys, List.map_cons, List.map_nil, List.cons.injEq] at hb
      obtain ⟨rfl, hb⟩ := hb
      obtain ⟨vs, h3, -, -⟩ := reads_aux w c a h ks ["CHD".toList, "CNF".toList] h1 hb (fetch w c "CST".toList s) hp
      rw [happen_cons, h3]
      simp [fetch]
    | @left f as bs cs h ih =>
      intro ks h1 hin hn hl hb s hp hs
      cases ks with
      | nil => simp at hin
      | cons x ks =>
        simp only [List.map_cons, List.cons.injEq] at h1
        obtain ⟨rfl, h1⟩ := h1
        have hx := hp x (by simp)
        have hp' : Present w c ks (put w c a x s).fs := present_put hx fun y hy => hp y (by simp [hy])
        obtain ⟨hxn, hn'⟩ := List.nodup_cons.1 hn
        rw [happen_cons]
        cases ks with
        | nil =>
          right
          have has : as = [] := by simpa using h1
          subst has
          subst hb
          have hsh : ∀ {bs cs : List (Desk → Desk)}, Shuffle [] bs cs → cs = bs := by
            intro bs
            induction bs with
            | nil => intro cs h; cases h; rfl
            | cons b bs ih => intro cs h; cases h with | right h => rw [ih h]
          rw [hsh h]
          simp only [runKeys, List.map_cons, List.map_nil, happen, List.foldl_cons, List.foldl_nil, fetch]
          have hg : (put w c a x s).got = [] := hs
          simp [hg]
        | cons y ks =>
          have hxc : "CST".toList ≠ x := by
            intro hc
            rw [List.getLast?_cons_cons] at hl
            exact hxn (hc ▸ List.mem_of_getLast? hl)
          have hin' : "CST".toList ∈ y :: ks := by
            rcases List.mem_cons.1 hin with h | h
            · exact absurd h hxc
            · exact h
          rcases ih (y :: ks) h1 hin' hn' (by rwa [List.getLast?_cons_cons] at hl) hb (put w c a x s) hp' hs with h3 | h3
          · left
            rw [cfgText_put _ _ _ _ _ _ hx, if_neg hxc] at h3
            exact h3
          · right
            rw [h3]
            rfl
  refine (key h cfgKeys rfl (by decide) (by decide) (by decide) rfl s hp hs).imp id fun h1 => ?_
  rw [h1]
  refine List.map_congr_left fun k hk => ?_
  have hsub : k ∈ cfgKeys := by revert k; decide
  have hsh : ∀ l : List (Desk → Desk), Shuffle l [] l := by
    intro l
    induction l with
    | nil => exact .nil
    | cons x l ih => exact .left ih
  rcases saves_aux w c a a (hsh (cfgKeys.map (put w c a))) cfgKeys [] rfl rfl s (by simpa using hp) k with ⟨h2, -⟩ | ⟨-, h2⟩ | ⟨h2, -⟩
  · exact absurd hsub h2
  · rw [h2]
  · simp at h2

/-- The three files of a configuration. -/
def demoDesk : Desk :=
  ⟨[(cfgFile ['w'] ['c'] "CHD".toList, .file ['1']), (cfgFile ['w'] ['c'] "CNF".toList, .file ['2']),
    (cfgFile ['w'] ['c'] "CST".toList, .file ['3'])], []⟩

example : Present ['w'] ['c'] cfgKeys demoDesk.fs := by
  unfold Present
  decide +kernel

/-- A client gets the old characterisation, the new configuration and the old constants. -/
example : ∃ steps, Shuffle (saveCall ['w'] ['c'] fun _ => ['9']) (getCall ['w'] ['c']) steps ∧
    (happen steps demoDesk).got.map (·.2) = [some ['1'], some ['9'], some ['3']] := by
  obtain ⟨steps, h1, h2⟩ := reads_mixed_violated ['w'] ['c'] (fun _ => ['9']) (fun k => k = "CNF".toList)
  refine ⟨steps, h1, ?_⟩
  rw [h2 demoDesk (by unfold Present; decide +kernel) rfl]
  decide +kernel

end Dedop.Workspace
