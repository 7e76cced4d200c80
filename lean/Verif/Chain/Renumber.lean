import Verif.Chain.Own
import Verif.Chain.AntennaModel

/-!
# Renumbering the bursts (lemmas)

If all bursts have a number which is larger by `a`, the results for a surface are the same with the numbers of the bursts larger
by `a`.
-/
namespace Dedop.Chain

open Stack

/-! ## The renumbered objects -/

/-- The burst with its counter larger by `a`. -/
def moveBurst (a : ℕ) (b : L1A) : L1A := { b with seqCount := b.seqCount + a }

/-- The looks of the renumbered bursts. -/
def moveLooks (a : ℕ) (looks : Looks) : Looks := looks.map (fun l => (l.1, l.2.1, l.2.2 + a))

/-- An entry of a stack with its burst renumbered. -/
def moveEntry (a : ℕ) (e : Entry ℝ (ℕ → ℂ)) : Entry ℝ (ℕ → ℂ) :=
  { e with burst := { e.burst with id := e.burst.id + a, seqCount := e.burst.seqCount + a } }

/-- A look with its burst renumbered. -/
def moveRow (a : ℕ) (r : Row ℝ (ℕ → ℂ)) : Row ℝ (ℕ → ℂ) := { r with burst := r.burst + a, lookCounter := r.lookCounter + a }

/-- A gathered stack with its bursts renumbered. -/
def moveGathered (a : ℕ) (g : Gathered ℝ (ℕ → ℂ)) : Gathered ℝ (ℕ → ℂ) := { g with rows := g.rows.map (moveRow a) }

/-- A beam with its burst renumbered. -/
def moveBeam (a : ℕ) (b : Multilook.Beam ℝ) : Multilook.Beam ℝ := { b with seqCount := b.seqCount + a }

/-- The results of the multilooking with the first and the last burst, if there are any, renumbered. -/
def moveOut (a : ℕ) (o : Multilook.Out ℝ) : Multilook.Out ℝ :=
  { o with startBurst := if o.start = none then o.startBurst else o.startBurst + a
           stopBurst := if o.start = none then o.stopBurst else o.stopBurst + a }

/-- The results for a surface with the bursts renumbered: only numbers of bursts differ. -/
def moveResult (a : ℕ) (r : Result) : Result :=
  { r with gathered := moveGathered a r.gathered, out := moveOut a r.out }

/-! ## Lemmas -/

theorem azimuth_move (a : ℕ) (c : Conf) (b : L1A) : azimuth c (moveBurst a b) = azimuth c b := rfl

theorem entries_move (a : ℕ) (junk : ℕ → ℂ) (c : Conf) (b1 b2 : ℕ → L1A) (looks : Looks)
    (h : ∀ l ∈ looks, b2 (l.2.2 + a) = moveBurst a (b1 l.2.2)) :
    entries junk c b2 (moveLooks a looks) = (entries junk c b1 looks).map (List.map (moveEntry a)) := by
  induction looks with
  | nil => rfl
  | cons l rest ih =>
    obtain ⟨i, x, id⟩ := l
    have ih := ih (fun l hl => h l (by simp [hl]))
    have hi : b2 (id + a) = moveBurst a (b1 id) := h (i, x, id) (by simp)
    show entries junk c b2 ((i, x, id + a) :: moveLooks a rest) = _
    rw [entries, entries, hi, azimuth_move, ih]
    cases azimuth c (b1 id) with
    | error e => rfl
    | ok beams =>
      cases entries junk c b1 rest with
      | error e => rfl
      | ok es => rfl

theorem look_move (a : ℕ) (x : ℝ) (es : List (Entry ℝ (ℕ → ℂ))) : allLooks x (es.map (moveEntry a)) = allLooks x es := by
  induction es with
  | nil => rfl
  | cons e es ih =>
    rw [List.map_cons, allLooks, allLooks, ih]
    rfl

theorem row_move (a : ℕ) (x : ℝ) (e : Entry ℝ (ℕ → ℂ)) : gatherRow x (moveEntry a e) = (gatherRow x e).map (moveRow a) := by
  unfold gatherRow moveEntry
  dsimp only
  cases e.burst.beams[e.index]? with
  | none => rfl
  | some beam =>
    cases e.burst.beamAngles[e.index]? with
    | none => rfl
    | some y => rfl

theorem loop_move (a : ℕ) (x : ℝ) (es : List (Entry ℝ (ℕ → ℂ))) (off m k : ℕ) (best : Option ℝ) (g : Gathered ℝ (ℕ → ℂ)) :
    gatherLoop x (es.map (moveEntry a)) off m k best (moveGathered a g) =
      (gatherLoop x es off m k best g).map (moveGathered a) := by
  induction m generalizing k best g with
  | zero => rfl
  | succ m ih =>
    rw [gatherLoop, gatherLoop, List.getElem?_map]
    cases es[k + off]? with
    | none => rfl
    | some e =>
      simp only [Option.map_some]
      rw [row_move]
      cases gatherRow x e with
      | error => rfl
      | ok row =>
        show gatherLoop x _ off m (k + 1) _ _ = _
        rw [← ih]
        congr 1
        simp [moveGathered, moveRow, moveEntry]
        rfl

theorem gather_move (a : ℕ) (argsort : List ℝ → List ℕ) (n : ℕ) (x : ℝ) (prev : ℕ) (es : List (Entry ℝ (ℕ → ℂ))) :
    gather argsort n x prev (es.map (moveEntry a)) = (gather argsort n x prev es).map (moveGathered a) := by
  have hw : window argsort n x (es.map (moveEntry a)) = window argsort n x es := by
    unfold window
    rw [List.length_map, look_move]
  unfold gather
  rw [hw]
  cases window argsort n x es with
  | error => rfl
  | ok p => exact loop_move a x es p.2 p.1 0 none ⟨p.1, [], prev, false⟩

theorem shift_move (a : ℕ) (c : Conf) (b1 b2 : ℕ → L1A) (s : Surf) (row : Row ℝ (ℕ → ℂ))
    (h : b2 (row.burst + a) = moveBurst a (b1 row.burst)) : shiftOf c b2 s (moveRow a row) = shiftOf c b1 s row := by
  unfold shiftOf
  show Signal.totalShift (geo c s (b2 (row.burst + a)) (moveRow a row)) = _
  rw [h]
  rfl

theorem mask_move (a : ℕ) (c : Conf) (b1 b2 : ℕ → L1A) (s : Surf) (rows : List (Row ℝ (ℕ → ℂ)))
    (h : ∀ row ∈ rows, b2 (row.burst + a) = moveBurst a (b1 row.burst)) :
    maskInput c b2 s (rows.map (moveRow a)) = maskInput c b1 s rows := by
  unfold maskInput
  congr 1
  · simp
  · funext i
    rw [List.getElem?_map, Option.map_map]
    cases hr : rows[i]? with
    | none => rfl
    | some row => exact shift_move a c b1 b2 s row (h row (List.mem_of_getElem? hr))
  · funext i
    rw [List.getElem?_map, Option.map_map]
    rfl
  · rw [List.map_map]
    apply List.map_congr_left
    intro row hr
    dsimp only [Function.comp]
    unfold compressed
    rw [shift_move a c b1 b2 s row (h row hr)]
    rfl

theorem fit_move (a : ℕ) (c : Conf) (rows : List (Row ℝ (ℕ → ℂ))) : fitCount c (rows.map (moveRow a)) = fitCount c rows := by
  unfold fitCount
  dsimp only
  simp only [List.getElem?_map, Option.map_map, List.length_map]
  rfl

theorem beams_move (a : ℕ) (rows : List (Row ℝ (ℕ → ℂ))) (m : Masked ℝ) :
    lookBeams (rows.map (moveRow a)) m = (lookBeams rows m).map (moveBeam a) := by
  unfold lookBeams
  rw [List.zipIdx_map, List.map_map, List.map_map]
  rfl

theorem multiloop_move (a : ℕ) (av : Bool) (n k : ℕ) (acc : Multilook.Acc ℝ) (beams : List (Multilook.Beam ℝ)) :
    Multilook.loop av n k acc (beams.map (moveBeam a)) = Multilook.loop av n k acc beams := by
  induction beams generalizing k acc with
  | nil => rfl
  | cons b rest ih =>
    rw [List.map_cons, Multilook.loop, Multilook.loop, ih]
    rfl

theorem compute_move (a : ℕ) (av : Bool) (n looks : ℕ) (beams : List (Multilook.Beam ℝ)) :
    Multilook.compute av n looks (beams.map (moveBeam a)) = moveOut a (Multilook.compute av n looks beams) := by
  unfold Multilook.compute
  rw [multiloop_move]
  have hne : beams = [] → (Multilook.loop av n 0 ⟨List.replicate n 0, List.replicate n 0, 0, none, none⟩ beams).start = none := by
    intro h; rw [h]; rfl
  have hv : (beams.map (moveBeam a)).map (·.vector) = beams.map (·.vector) := by rw [List.map_map]; rfl
  have hl : ∀ k : ℕ, ((beams.map (moveBeam a))[k]?).map (·.look) = (beams[k]?).map (·.look) := by
    intro k; rw [List.getElem?_map, Option.map_map]; rfl
  have hs : ∀ k < beams.length, (((beams.map (moveBeam a))[k]?).map (·.seqCount)).getD 0 = ((beams[k]?).map (·.seqCount)).getD 0 + (a : ℤ) := by
    intro k hk; rw [List.getElem?_map, Option.map_map, List.getElem?_eq_getElem hk]; rfl
  revert hne
  generalize Multilook.loop av n 0 ⟨List.replicate n 0, List.replicate n 0, 0, none, none⟩ beams = acc
  intro hne
  dsimp only
  rw [hv]
  cases h1 : acc.start with
  | none => rfl
  | some start =>
    cases h2 : acc.stop with
    | none => rfl
    | some stop =>
      have hb : 0 < beams.length := by
        rcases Nat.eq_zero_or_pos beams.length with h | h
        · rw [hne (List.length_eq_zero_iff.1 h)] at h1
          cases h1
        · exact h
      dsimp only
      rw [hl, hl, hs 0 hb, List.length_map, hs (beams.length - 1) (by omega)]
      rfl

theorem gathered_looks (argsort : List ℝ → List ℕ) (n : ℕ) (x : ℝ) (prev : ℕ) (junk : ℕ → ℂ) (c : Conf) (b : ℕ → L1A) (looks : Looks)
    (es : List (Entry ℝ (ℕ → ℂ))) (g : Gathered ℝ (ℕ → ℂ)) (h1 : entries junk c b looks = .ok es)
    (h2 : gather argsort n x prev es = .ok g) : ∀ row ∈ g.rows, ∃ l ∈ looks, row.burst = l.2.2 := by
  have key : ∀ looks es, entries junk c b looks = .ok es → ∀ e ∈ es, ∃ l ∈ looks, e.burst.id = l.2.2 := by
    intro looks
    induction looks with
    | nil =>
      intro es h e he
      cases h
      simp at he
    | cons l rest ih =>
      obtain ⟨i, y, id⟩ := l
      intro es h e he
      rw [entries] at h
      cases ha : azimuth c (b id) with
      | error e => rw [ha] at h; cases h
      | ok beams =>
        rw [ha] at h
        cases hr : entries junk c b rest with
        | error e => rw [hr] at h; cases h
        | ok fs =>
          rw [hr] at h
          cases h
          rcases List.mem_cons.1 he with rfl | he
          · exact ⟨(i, y, id), by simp, rfl⟩
          · obtain ⟨l, hl, h⟩ := ih fs hr e he
            exact ⟨l, by simp [hl], h⟩
  intro row hr
  obtain ⟨e, he, hid⟩ := gather_ids argsort n x prev es g h2 row hr
  obtain ⟨l, hl, h⟩ := key looks es h1 e he
  exact ⟨l, hl, hid.symm.trans h⟩

/-- The results for a surface with renumbered bursts. -/
theorem surface_move (a : ℕ) (argsort : List ℝ → List ℕ) (round : ℝ → ℤ) (junk : ℕ → ℂ) (c : Conf) (b1 b2 : ℕ → L1A) (s : Surf) (prev : ℕ)
    (looks : Looks) (h : ∀ l ∈ looks, b2 (l.2.2 + a) = moveBurst a (b1 l.2.2)) :
    surface argsort round junk c b2 s prev (moveLooks a looks) =
      (surface argsort round junk c b1 s prev looks).map (Option.map (moveResult a)) := by
  unfold surface
  rw [entries_move a junk c b1 b2 looks h]
  cases he : entries junk c b1 looks with
  | error e => rfl
  | ok es =>
    show (match gather argsort c.looks (Real.pi / 2) prev (es.map (moveEntry a)) with | .error e => _ | .ok g => _) = _
    rw [gather_move]
    cases hg : gather argsort c.looks (Real.pi / 2) prev es with
    | error e => simp only [hg]; rfl
    | ok g =>
      have hrows : ∀ row ∈ g.rows, b2 (row.burst + a) = moveBurst a (b1 row.burst) := by
        intro row hr
        obtain ⟨l, hl, hid⟩ := gathered_looks argsort _ _ prev junk c b1 looks es g he hg row hr
        rw [hid]
        exact h l hl
      simp only [hg, Except.map]
      have e1 : (moveGathered a g).size = g.size := rfl
      have e2 : (moveGathered a g).rows = g.rows.map (moveRow a) := rfl
      rw [e1, e2, mask_move a c b1 b2 s g.rows hrows, fit_move]
      by_cases hsz : g.size < c.looks / 2
      · rw [if_pos hsz, if_pos hsz]; rfl
      rw [if_neg hsz, if_neg hsz]
      cases masking round (maskConf c) (maskInput c b1 s g.rows) with
      | error e => rfl
      | ok m =>
        dsimp only
        by_cases hf : fitCount c g.rows = 0
        · rw [if_pos hf, if_pos hf]
        rw [if_neg hf, if_neg hf]
        by_cases hf : fitCount c g.rows < 0
        · rw [if_pos hf, if_pos hf]
        rw [if_neg hf, if_neg hf, beams_move, compute_move, List.map_map]
        have : g.rows.map (shiftOf c b2 s ∘ moveRow a) = g.rows.map (shiftOf c b1 s) :=
          List.map_congr_left (fun row hr => shift_move a c b1 b2 s row (hrows row hr))
        rw [this]
        rfl

theorem weigh_move (a : ℕ) (p : Pattern) (beams : List (Multilook.Beam ℝ)) :
    weigh p (beams.map (moveBeam a)) = (weigh p beams).map (List.map (moveBeam a)) := by
  induction beams with
  | nil => rfl
  | cons b rest ih =>
    rw [List.map_cons, weigh, weigh, ih]
    show (match weightOf p b.pointing with | .error e => _ | .ok w => _) = _
    cases weightOf p b.pointing with
    | error e => rfl
    | ok w =>
      cases weigh p rest with
      | error e => rfl
      | ok bs => rfl

theorem surfaceAw_move (a : ℕ) (on : Bool) (p : Pattern) (argsort : List ℝ → List ℕ) (round : ℝ → ℤ) (junk : ℕ → ℂ) (c : Conf)
    (b1 b2 : ℕ → L1A) (s : Surf) (prev : ℕ) (looks : Looks) (h : ∀ l ∈ looks, b2 (l.2.2 + a) = moveBurst a (b1 l.2.2)) :
    surfaceAw on p argsort round junk c b2 s prev (moveLooks a looks) =
      (surfaceAw on p argsort round junk c b1 s prev looks).map (Option.map (moveResult a)) := by
  unfold surfaceAw
  rw [surface_move a argsort round junk c b1 b2 s prev looks h]
  cases surface argsort round junk c b1 s prev looks with
  | error e => rfl
  | ok o =>
    cases o with
    | none => rfl
    | some r =>
      show (match applyWeighting on p (lookBeams (r.gathered.rows.map (moveRow a)) r.masked) with | .error e => _ | .ok beams => _) =
        Except.map (Option.map (moveResult a)) (match applyWeighting on p (lookBeams r.gathered.rows r.masked) with
          | .error e => .error e
          | .ok beams => .ok (some { r with out := Multilook.compute c.avoidZeros (c.samples * c.zp) c.looks beams }))
      rw [beams_move]
      have hw : applyWeighting on p ((lookBeams r.gathered.rows r.masked).map (moveBeam a)) =
          (applyWeighting on p (lookBeams r.gathered.rows r.masked)).map (List.map (moveBeam a)) := by
        unfold applyWeighting
        cases on with
        | false => rfl
        | true => exact weigh_move a p _
      rw [hw]
      cases applyWeighting on p (lookBeams r.gathered.rows r.masked) with
      | error e => rfl
      | ok beams =>
        show Except.ok (some _) = Except.ok (some _)
        rw [compute_move]
        rfl

/-- The index of the closest burst left behind does not change. -/
theorem closest_move (a : ℕ) (argsort : List ℝ → List ℕ) (n : ℕ) (x : ℝ) (prev : ℕ) (es : List (Entry ℝ (ℕ → ℂ))) :
    (gather argsort n x prev (es.map (moveEntry a))).map (·.closest) = (gather argsort n x prev es).map (·.closest) := by
  rw [gather_move]
  cases gather argsort n x prev es <;> rfl

end Dedop.Chain
