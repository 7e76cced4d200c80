import Verif.Surface.Meridian
import Verif.Surface.Witness
import Verif.Writer.Model

/-!
# The origin of the clock (C138): surfaces

The times of the bursts of a track all get later by the same amount `d`, their UTC days by `n`, and the difference between the two
clocks by `e` (`leap_secs_since_2000`, `/repo/dedop/model/l1a_processing_data.py:791-793`).
-/
namespace Dedop.Surface.Epoch

open Dedop.Surface

/-- A burst measured later (`l1a_processing_data.py:791-793`, `l1a_dataset.py:176-181`): only the attributes which tell when it was measured differ. -/
def later (d n e : ℝ) (b : Burst) : Burst :=
  { b with time := b.time + d, days := b.days + n, leap := b.leap + e }

/-- What a location tells about time (`surface_locations.py:17, 38-40`). -/
structure Stamp where
  time : ℝ
  tai : ℝ
  days : ℝ
  secs : ℝ

/-- The time attributes of a location (`surface_locations.py:17, 38-40`). -/
def stamp (l : Loc) : Stamp := ⟨l.time, l.prevTai, l.prevDays, l.prevSecs⟩

/-- A location with other time attributes, everything else being the same (`surface_locations.py:12-42`). -/
def put (x : Stamp) (l : Loc) : Loc :=
  { l with time := x.time, prevTai := x.tai, prevDays := x.days, prevSecs := x.secs }

/-- The same for a surface (`surface_data.py:1063-1139`). -/
def putS (x : Stamp) (s : Surf) : Surf := { s with loc := put x s.loc }

/-- The time of the record before the surface is later as well. -/
def Follows (d n : ℝ) (u x : Stamp) : Prop := x.tai = u.tai + d ∧ x.days = u.days + n ∧ x.secs = u.secs

/-- The time of the record before the surface is the one with which the object started. -/
def Stale (i : Loc) (x : Stamp) : Prop := x.tai = i.prevTai ∧ x.days = i.prevDays ∧ x.secs = i.prevSecs

/-- The time attributes of a location which is later. -/
def Good (d n : ℝ) (i i' : Loc) (u x : Stamp) : Prop :=
  x.time = u.time + d ∧ (Follows d n u x ∨ Stale i u ∧ Stale i' x)

/-- A location which differs in its time attributes only, and is later. -/
def LocLater (d n : ℝ) (i i' l l' : Loc) : Prop := ∃ x, l' = put x l ∧ Good d n i i' (stamp l) x

/-- The same for surfaces. -/
def SurfLater (d n : ℝ) (i i' : Loc) (s s' : Surf) : Prop := ∃ x, s' = putS x s ∧ Good d n i i' (stamp s.loc) x

/-- The state of the algorithm: nothing but its time attributes differs. -/
def AlgLater (d n : ℝ) (i i' : Loc) (a a' : Alg) : Prop :=
  a'.focusFound = a.focusFound ∧ ∃ x, a'.loc = put x a.loc ∧ (Follows d n (stamp a.loc) x ∨ Stale i (stamp a.loc) ∧ Stale i' x)

theorem interpolate_later (k : Conf) (d n e : ℝ) (i i' : Loc) (p c : Burst) (α : ℝ) :
    LocLater d n i i' (interpolate k p c α) (interpolate k (later d n e p) (later d n e c) α) := by
  refine ⟨⟨lerp α p.time c.time + d, p.time + d, p.days + n, p.secs⟩, ?_, rfl, .inl ⟨rfl, rfl, rfl⟩⟩
  unfold interpolate later put
  dsimp only
  congr 1
  · unfold lerp; ring
  · ring

theorem findNew_later (k : Conf) (d n e : ℝ) (i i' : Loc) {s s' : Surf} (h : SurfLater d n i i' s s') (p c : Burst) :
    match findNew k s p c with
    | .nan => findNew k s' (later d n e p) (later d n e c) = .nan
    | .val none => findNew k s' (later d n e p) (later d n e c) = .val none
    | .val (some l) => ∃ l', findNew k s' (later d n e p) (later d n e c) = .val (some l') ∧ LocLater d n i i' l l' := by
  obtain ⟨x, rfl, -⟩ := h
  have e1 : angleTo (putS x s) (later d n e c).surf = angleTo s c.surf := rfl
  have e2 : angleTo (putS x s) (later d n e p).surf = angleTo s p.surf := rfl
  have e3 : (putS x s).res = s.res := rfl
  unfold findNew
  rw [e1, e2, e3]
  cases angleTo s c.surf with
  | none => cases s.res <;> rfl
  | some a =>
    cases s.res with
    | none => rfl
    | some r =>
      dsimp only
      by_cases h1 : a < r
      · rw [if_pos h1, if_pos h1]
      · rw [if_neg h1, if_neg h1]
        cases angleTo s p.surf with
        | none => rfl
        | some ap =>
          dsimp only
          by_cases h2 : a = ap
          · rw [if_pos h2, if_pos h2]
          · rw [if_neg h2, if_neg h2]
            exact ⟨_, rfl, interpolate_later k d n e i i' p c _⟩

theorem last_later {A B : Type} {P : A → B → Prop} {l : List A} {l' : List B} (h : List.Forall₂ P l l') :
    (l.getLast? = none ∧ l'.getLast? = none) ∨ ∃ x x', l.getLast? = some x ∧ l'.getLast? = some x' ∧ P x x' := by
  induction h with
  | nil => exact .inl ⟨rfl, rfl⟩
  | @cons a b t t' hab ht ih =>
    right
    cases ht with
    | nil => exact ⟨a, b, rfl, rfl, hab⟩
    | cons h1 h2 =>
      rw [List.getLast?_cons_cons, List.getLast?_cons_cons]
      rcases ih with ⟨h, -⟩ | h
      · simp at h
      · exact h

theorem locate_later (k : Conf) (d n e : ℝ) (i i' : Loc) {a a' : Alg} (ha : AlgLater d n i i' a a') {ss ss' : List Surf}
    (hs : List.Forall₂ (SurfLater d n i i') ss ss') (bs : List Burst) (force : Bool) :
    match locate k a ss bs force with
    | .error x => locate k a' ss' (bs.map (later d n e)) force = .error x
    | .ok .nan => locate k a' ss' (bs.map (later d n e)) force = .ok .nan
    | .ok (.val none) => locate k a' ss' (bs.map (later d n e)) force = .ok (.val none)
    | .ok (.val (some l)) => ∃ l', locate k a' ss' (bs.map (later d n e)) force = .ok (.val (some l')) ∧ LocLater d n i i' l l' := by
  have hnil : (ss' = [] ∨ force = true) ↔ (ss = [] ∨ force = true) := by
    cases hs <;> simp
  unfold locate
  by_cases h : ss = [] ∨ force = true
  · rw [if_pos h, if_pos (hnil.2 h), List.getLast?_map]
    cases bs.getLast? with
    | none => rfl
    | some b =>
      refine ⟨_, rfl, ?_⟩
      obtain ⟨-, x, hx, hg⟩ := ha
      refine ⟨{ x with time := b.time + d }, ?_, rfl, ?_⟩
      · rw [hx]; rfl
      · exact hg
  · rw [if_neg h, if_neg (fun x => h (hnil.1 x)), ← List.map_reverse]
    rcases last_later hs with ⟨h1, h2⟩ | ⟨x, x', h1, h2, hx⟩
    · rw [h1, h2]
    · rw [h1, h2]
      rcases bs.reverse with _ | ⟨c, _ | ⟨p, rest⟩⟩
      · rfl
      · rfl
      · have := findNew_later k d n e i i' hx p c
        dsimp only [List.map_cons]
        revert this
        cases findNew k x p c with
        | nan => intro this; exact congrArg Except.ok this
        | val o =>
          cases o with
          | none => intro this; exact congrArg Except.ok this
          | some l =>
            rintro ⟨l', h3, h4⟩
            exact ⟨l', congrArg Except.ok h3, h4⟩

theorem fillDist_put (k : Conf) (x : Stamp) (s : Surf) : fillDist k (putS x s) = putS x (fillDist k s) := by
  unfold fillDist
  have : (putS x s).dist = s.dist := rfl
  rw [this]
  cases s.dist <;> rfl

theorem fillDist_loc (k : Conf) (s : Surf) : (fillDist k s).loc = s.loc := by
  unfold fillDist
  cases s.dist <;> rfl

theorem fill_later (k : Conf) (d n : ℝ) (i i' : Loc) {ss ss' : List Surf} (hs : List.Forall₂ (SurfLater d n i i') ss ss') :
    List.Forall₂ (SurfLater d n i i') (ss.map (fillDist k)) (ss'.map (fillDist k)) := by
  induction hs with
  | nil => exact .nil
  | cons h _ ih =>
    refine .cons ?_ ih
    obtain ⟨x, rfl, hg⟩ := h
    exact ⟨x, fillDist_put k x _, by rw [fillDist_loc]; exact hg⟩

theorem focusSurface_later (k : Conf) (d n : ℝ) (i i' : Loc) {s s' p p' : Surf} (hs : SurfLater d n i i' s s')
    (hp : SurfLater d n i i' p p') :
    match focusSurface k s p with
    | .nan => focusSurface k s' p' = .nan
    | .val r => ∃ r', focusSurface k s' p' = .val r' ∧ SurfLater d n i i' r r' := by
  obtain ⟨x, rfl, hg⟩ := hs
  obtain ⟨y, rfl, -⟩ := hp
  have e1 : (putS x s).loc.surf = s.loc.surf := rfl
  have e2 : (putS y p).loc.surf = p.loc.surf := rfl
  unfold focusSurface
  rw [e1, e2]
  dsimp only
  by_cases h : ‖s.loc.surf - p.loc.surf‖ = 0 ∨ ‖target k - p.loc.surf‖ = 0
  · rw [if_pos h, if_pos h]
  · rw [if_neg h, if_neg h]
    exact ⟨_, rfl, x, rfl, hg⟩

theorem focusStep_later (k : Conf) (d n : ℝ) (i i' : Loc) {a a' : Alg} (hl : a'.loc.surf = a.loc.surf) (hf : a'.focusFound = a.focusFound)
    {ss ss' : List Surf} (hs : List.Forall₂ (SurfLater d n i i') ss ss') :
    match focusStep k a ss with
    | .nan => focusStep k a' ss' = .nan
    | .val r => ∃ xs, focusStep k a' ss' = .val (r.1, xs) ∧ List.Forall₂ (SurfLater d n i i') r.2 xs := by
  unfold focusStep
  by_cases hk : k.focusing = false
  · rw [if_pos hk, if_pos hk]
    exact ⟨_, by rw [hf], hs⟩
  · rw [if_neg hk, if_neg hk]
    have hq := fill_later k d n i i' hs
    generalize ss.map (fillDist k) = ts at hq ⊢
    generalize ss'.map (fillDist k) = ts' at hq ⊢
    have hr := List.rel_reverse hq
    dsimp only
    revert hr
    generalize ts.reverse = rs
    generalize ts'.reverse = rs'
    intro hr
    rcases hr with _ | ⟨h1, h2⟩
    · exact ⟨_, by rw [hf], hq⟩
    · rename_i s s' t t'
      rcases h2 with _ | ⟨h3, h4⟩
      · exact ⟨_, by rw [hf], hq⟩
      · rename_i p p' t t'
        dsimp only
        have ed : s'.dist = s.dist := by obtain ⟨x, rfl, -⟩ := h1; rfl
        rw [ed, hf, hl]
        cases hd : s.dist with
        | none => rfl
        | some q =>
          dsimp only
          by_cases hc : a.focusFound = false ∧ targetDistance k a.loc.surf - q > 0
          · rw [if_pos hc, if_pos hc]
            have := focusSurface_later k d n i i' h1 h3
            revert this
            cases focusSurface k s p with
            | nan => intro this; dsimp only at this ⊢; rw [this]
            | val r =>
              rintro ⟨r', e, hr⟩
              rw [e]
              exact ⟨_, rfl, List.rel_reverse (.cons hr (.cons h3 h4))⟩
          · rw [if_neg hc, if_neg hc]
            exact ⟨_, rfl, hq⟩

theorem makeSurf_later (k : Conf) (d n : ℝ) (i i' : Loc) {l l' : Loc} (h : LocLater d n i i' l l') :
    SurfLater d n i i' (makeSurf k l) (makeSurf k l') := by
  obtain ⟨x, rfl, hg⟩ := h
  exact ⟨x, rfl, hg⟩

theorem step_later (k : Conf) (d n e : ℝ) (i i' : Loc) {a a' : Alg} (ha : AlgLater d n i i' a a') {ss ss' : List Surf}
    (hs : List.Forall₂ (SurfLater d n i i') ss ss') (bs : List Burst) (b : Burst) (force : Bool) :
    match step k a ss bs b force with
    | .err x => step k a' ss' (bs.map (later d n e)) (later d n e b) force = .err x
    | .nan => step k a' ss' (bs.map (later d n e)) (later d n e b) force = .nan
    | .ok y ys new => ∃ y' ys', step k a' ss' (bs.map (later d n e)) (later d n e b) force = .ok y' ys' new ∧
        AlgLater d n i i' y y' ∧ List.Forall₂ (SurfLater d n i i') ys ys' := by
  have hloc := locate_later k d n e i i' ha hs (bs ++ [b]) force
  have hmap : (bs ++ [b]).map (later d n e) = bs.map (later d n e) ++ [later d n e b] := by simp
  rw [hmap] at hloc
  unfold step call
  revert hloc
  cases locate k a ss (bs ++ [b]) force with
  | error x => intro h; dsimp only at h ⊢; rw [h]
  | ok o =>
    cases o with
    | nan => intro h; dsimp only at h ⊢; rw [h]
    | val o =>
      cases o with
      | none =>
        intro h; dsimp only at h ⊢; rw [h]
        exact ⟨_, _, rfl, ha, hs⟩
      | some l =>
        rintro ⟨l', h, x, rfl, hg⟩
        rw [h]
        dsimp only
        have hf := focusStep_later k d n i i' (a := { a with loc := l }) (a' := { a' with loc := put x l }) rfl ha.1 hs
        revert hf
        cases focusStep k { a with loc := l } ss with
        | nan => intro hf; dsimp only at hf ⊢; rw [hf]
        | val r =>
          rintro ⟨xs, hf, hx⟩
          rw [hf]
          exact ⟨_, _, rfl, ⟨rfl, x, rfl, hg.2⟩, List.rel_append hx (.cons (makeSurf_later k d n i i' ⟨x, rfl, hg⟩) .nil)⟩

/-- **C138, surfaces.**  A track measured later has the same surfaces, at the same places and with everything else the same, each of them
later by the same amount; with errors and numbers which are not defined at the same place.  The record before a surface, from which its UTC
time is computed, is later too unless it is the one with which the algorithm started. -/
theorem epoch_track (k : Conf) (d n e : ℝ) (i i' : Loc) (l : List (Burst × Bool)) {a a' : Alg} (ha : AlgLater d n i i' a a')
    {ss ss' : List Surf} (hs : List.Forall₂ (SurfLater d n i i') ss ss') (bs : List Burst) :
    match track k a ss bs l with
    | .err x => track k a' ss' (bs.map (later d n e)) (l.map fun q => (later d n e q.1, q.2)) = .err x
    | .nan => track k a' ss' (bs.map (later d n e)) (l.map fun q => (later d n e q.1, q.2)) = .nan
    | .ok y ys new => ∃ y' ys', track k a' ss' (bs.map (later d n e)) (l.map fun q => (later d n e q.1, q.2)) = .ok y' ys' new ∧
        AlgLater d n i i' y y' ∧ List.Forall₂ (SurfLater d n i i') ys ys' := by
  induction l generalizing a a' ss ss' bs with
  | nil => exact ⟨_, _, rfl, ha, hs⟩
  | cons q rest ih =>
    obtain ⟨b, force⟩ := q
    have h := step_later k d n e i i' ha hs bs b force
    rw [List.map_cons, track, track]
    revert h
    cases step k a ss bs b force with
    | err x => intro h; dsimp only at h ⊢; rw [h]
    | nan => intro h; dsimp only at h ⊢; rw [h]
    | ok y ys new =>
      rintro ⟨y', ys', h, h1, h2⟩
      rw [h]
      dsimp only
      have := ih h1 h2 (bs ++ [b])
      rw [List.map_append] at this
      exact this

/-- **C138, surfaces of a run.**  The surfaces of a whole run on the same bursts measured later are the same ones, later by the same amount.
The time of the record before a surface follows, or is the zero with which the program starts in both runs. -/
theorem epoch_run (k : Conf) (d n e : ℝ) (l : List (Burst × Bool)) {y : Alg} {ys : List Surf} {new : Bool}
    (h : track k alg0 [] [] l = .ok y ys new) :
    ∃ y' ys', track k alg0 [] [] (l.map fun q => (later d n e q.1, q.2)) = .ok y' ys' new ∧
      List.Forall₂ (SurfLater d n alg0.loc alg0.loc) ys ys' := by
  have := epoch_track k d n e alg0.loc alg0.loc l (a := alg0) (a' := alg0)
    ⟨rfl, stamp alg0.loc, rfl, .inr ⟨⟨rfl, rfl, rfl⟩, rfl, rfl, rfl⟩⟩ (ss := []) (ss' := []) .nil []
  rw [h] at this
  obtain ⟨y', ys', h1, -, h2⟩ := this
  exact ⟨y', ys', h1, h2⟩

/-- Two bursts which make two surfaces meet the hypothesis of `epoch_run`. -/
example : ∃ y ys, track (kw false 0 0) alg0 [] [] [(bw 0 0, false), (bw (Real.pi / 6) 1, false)] = .ok y ys false ∧
    ys.length = 2 := by
  refine ⟨⟨l2 (kw false 0 0), false⟩,
    [makeSurf (kw false 0 0) (l1 (kw false 0 0) alg0), makeSurf (kw false 0 0) (l2 (kw false 0 0))], ?_, rfl⟩
  rw [track, first_step]
  dsimp only
  rw [track, List.nil_append, second_step false 0 0 alg0]
  rfl

/-! ### Written UTC times -/

/-- **C138, UTC.**  The UTC time written for a surface whose record before it is later by the same amount: the same seconds of a day which is `n` days later. -/
theorem epoch_utc {K : Type} [Field K] [LinearOrder K] (d : K) (n : ℤ) (t : Writer.Times K) :
    Writer.utc { t with timeSurf := t.timeSurf + d, prevTai := t.prevTai + d, prevDays := t.prevDays + n } =
      ((Writer.utc t).1 + n, (Writer.utc t).2) := by
  have h : t.timeSurf + d - (t.prevTai + d) = t.timeSurf - t.prevTai := by ring
  unfold Writer.utc
  dsimp only
  rw [h]
  split
  · exact Prod.ext (by dsimp only; ring) rfl
  · rfl

/-- Across midnight. -/
example : Writer.utc (⟨10, 4, 7, 86398, 86400⟩ : Writer.Times ℚ) = (8, 4) ∧
    Writer.utc (⟨10 + 864000, 4 + 864000, 7 + 10, 86398, 86400⟩ : Writer.Times ℚ) = (18, 4) := by decide +kernel

/-- **C138, UTC, violated.**  The UTC time of the first surface does not follow the clock: if the burst it is made from is measured
`n > 1` days later, the written day is not `n` days later. -/
theorem epoch_utc_violated {K : Type} [Field K] [LinearOrder K] (b : Writer.Burst K) (d : K) (n : ℤ) (hn : 1 < n) :
    (Writer.utc (Writer.firstTimes Writer.noTimes ⟨b.tai + d, b.days + n, b.secs⟩)).1 ≠
      (Writer.utc (Writer.firstTimes Writer.noTimes b)).1 + n := by
  have key : ∀ c : Writer.Burst K, (Writer.utc (Writer.firstTimes Writer.noTimes c)).1 = 0 ∨
      (Writer.utc (Writer.firstTimes Writer.noTimes c)).1 = 1 := by
    intro c
    unfold Writer.utc Writer.firstTimes Writer.noTimes
    dsimp only
    split
    · right; norm_num
    · left; rfl
  rcases key b with h | h <;> rcases key ⟨b.tai + d, b.days + n, b.secs⟩ with h' | h' <;> omega

end Dedop.Surface.Epoch
