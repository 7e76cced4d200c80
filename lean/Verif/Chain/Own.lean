import Verif.Chain.Demo

/-! # A record depends on nothing but its own stack (C108) -/
namespace Dedop.Chain

open Stack

/-! ## Specification -/

/-- The stack is as the beam angle computation makes it: each look is a beam of its burst, the number of
beams and its trend fit together (see `Azimuth.TrendOk`). -/
def WellMade (c : Conf) (bursts : ℕ → L1A) (looks : Looks) : Prop :=
  0 < c.pulses ∧ ∀ l ∈ looks, l.1 < (bursts l.2.2).angles.length ∧
    Azimuth.TrendOk c.pulses (azBurst c (bursts l.2.2))

/-! ## Lemmas -/

/-- Two entries that differ at most in rows of the beam matrix which are not those of the look. -/
def Alike (e f : Entry ℝ (ℕ → ℂ)) : Prop :=
  e.index = f.index ∧ e.indexAbs = f.indexAbs ∧ e.burst.beams[e.index]? = f.burst.beams[f.index]? ∧
    ({ e.burst with beams := ([] : List (ℕ → ℂ)) } : Stack.Burst ℝ (ℕ → ℂ)) = { f.burst with beams := [] }

theorem alike_fields {e f : Entry ℝ (ℕ → ℂ)} (h : Alike e f) :
    e.burst.id = f.burst.id ∧ e.burst.beamAngles = f.burst.beamAngles ∧ e.burst.doppler = f.burst.doppler ∧
      e.burst.pitch = f.burst.pitch ∧ e.burst.t0 = f.burst.t0 ∧ e.burst.seqCount = f.burst.seqCount ∧
      e.burst.rmc = f.burst.rmc := by
  obtain ⟨_, _, _, h⟩ := h
  simp only [Stack.Burst.mk.injEq, true_and] at h
  tauto

theorem alike_look (x : ℝ) {e f : Entry ℝ (ℕ → ℂ)} (h : Alike e f) : lookAngle x e = lookAngle x f := by
  obtain ⟨_, h2, h3, _⟩ := alike_fields h
  unfold lookAngle
  rw [h.1, h2, h3]

theorem alike_row (x : ℝ) {e f : Entry ℝ (ℕ → ℂ)} (h : Alike e f) : gatherRow x e = gatherRow x f := by
  obtain ⟨h1, h2, h3, h4, h5, h6, _⟩ := alike_fields h
  unfold gatherRow
  rw [h.2.2.1, h1, h2, h3, h4, h5, h6, h.1, h.2.1]

theorem alike_looks (x : ℝ) {es fs : List (Entry ℝ (ℕ → ℂ))} (h : List.Forall₂ Alike es fs) :
    allLooks x es = allLooks x fs := by
  induction h with
  | nil => rfl
  | cons h _ ih => rw [allLooks, allLooks, alike_look x h, ih]

theorem alike_get {es fs : List (Entry ℝ (ℕ → ℂ))} (h : List.Forall₂ Alike es fs) (k : ℕ) :
    (es[k]? = none ∧ fs[k]? = none) ∨ ∃ e f, es[k]? = some e ∧ fs[k]? = some f ∧ Alike e f := by
  induction h generalizing k with
  | nil => simp
  | cons h _ ih =>
    cases k with
    | zero => right; exact ⟨_, _, rfl, rfl, h⟩
    | succ k => simpa using ih k

theorem alike_loop (x : ℝ) {es fs : List (Entry ℝ (ℕ → ℂ))} (h : List.Forall₂ Alike es fs) (off m k : ℕ)
    (best : Option ℝ) (g : Gathered ℝ (ℕ → ℂ)) :
    gatherLoop x es off m k best g = gatherLoop x fs off m k best g := by
  induction m generalizing k best g with
  | zero => rfl
  | succ m ih =>
    rw [gatherLoop, gatherLoop]
    rcases alike_get h (k + off) with ⟨h1, h2⟩ | ⟨e, f, h1, h2, h3⟩
    · rw [h1, h2]
    · rw [h1, h2]
      dsimp only
      rw [alike_row x h3, (alike_fields h3).2.2.2.2.2.2]
      cases gatherRow x f with
      | error => rfl
      | ok row => exact ih _ _ _

theorem alike_gather (argsort : List ℝ → List ℕ) (n : ℕ) (x : ℝ) (prev : ℕ)
    {es fs : List (Entry ℝ (ℕ → ℂ))} (h : List.Forall₂ Alike es fs) :
    gather argsort n x prev es = gather argsort n x prev fs := by
  have hw : window argsort n x es = window argsort n x fs := by
    unfold window
    rw [h.length_eq, alike_looks x h]
  unfold gather
  rw [hw]
  cases window argsort n x fs with
  | error => rfl
  | ok p => exact alike_loop x h _ _ _ _ _

/-- The index of the closest burst left by the surface before is overwritten by the first look. -/
theorem loop_prev (x : ℝ) (es : List (Entry ℝ (ℕ → ℂ))) (off m : ℕ) (g : Gathered ℝ (ℕ → ℂ)) (p q : ℕ) :
    gatherLoop x es off (m + 1) 0 none { g with closest := p } =
      gatherLoop x es off (m + 1) 0 none { g with closest := q } := by
  rw [gatherLoop, gatherLoop]
  cases es[0 + off]? with
  | none => rfl
  | some e =>
    dsimp only
    cases gatherRow x e with
    | error => rfl
    | ok row => rfl

theorem gather_prev (argsort : List ℝ → List ℕ) (n : ℕ) (x : ℝ) (p q : ℕ) (es : List (Entry ℝ (ℕ → ℂ))) :
    gather argsort n x p es = gather argsort n x q es ∨
      (gather argsort n x p es = .ok ⟨0, [], p, false⟩ ∧ gather argsort n x q es = .ok ⟨0, [], q, false⟩) := by
  unfold gather
  cases window argsort n x es with
  | error => left; rfl
  | ok w =>
    obtain ⟨size, off⟩ := w
    cases size with
    | zero => right; exact ⟨rfl, rfl⟩
    | succ m => left; exact loop_prev x es off m ⟨m + 1, [], 0, false⟩ p q

theorem written (c : Conf) (b : L1A) (j : ℕ) (hn : 0 < c.pulses) (hj : j < b.angles.length)
    (ht : Azimuth.TrendOk c.pulses (azBurst c b)) (beams : Azimuth.Beams) (h : azimuth c b = .ok beams) :
    ∃ row, beams j = some row := by
  unfold azimuth at h
  dsimp only at h
  split at h
  · cases h
    obtain ⟨row, h1, _⟩ := (Azimuth.exact_row c.pulses hn (azBurst c b)
      (fun p i => b.wfm p i * (c.window p : ℂ)) j).1 _ (List.getElem?_eq_getElem hj)
    exact ⟨row, h1⟩
  · obtain ⟨a, beams', _, h2, h3⟩ := Azimuth.approximate_row c.pulses (azBurst c b)
      (fun p i => b.wfm p i * (c.window p : ℂ)) ht (by
        intro h0
        have : b.angles = [] := h0
        simp [this] at hj)
    rw [h2] at h
    cases h
    obtain ⟨row, h4, _⟩ := h3 j hj
    exact ⟨row, h4⟩

theorem entries_alike (j1 j2 : ℕ → ℂ) (c : Conf) (b1 b2 : ℕ → L1A) (looks : Looks)
    (hw : WellMade c b1 looks) (hb : ∀ l ∈ looks, b1 l.2.2 = b2 l.2.2) :
    (∃ e, entries j1 c b1 looks = .error e ∧ entries j2 c b2 looks = .error e) ∨
    ∃ es fs, entries j1 c b1 looks = .ok es ∧ entries j2 c b2 looks = .ok fs ∧ List.Forall₂ Alike es fs ∧
      ∀ e ∈ es, ∃ l ∈ looks, e.burst.id = l.2.2 := by
  induction looks with
  | nil => right; exact ⟨[], [], rfl, rfl, .nil, by simp⟩
  | cons l rest ih =>
    obtain ⟨i, a, id⟩ := l
    obtain ⟨hn, hw⟩ := hw
    have ih := ih ⟨hn, fun l hl => hw l (by simp [hl])⟩ (fun l hl => hb l (by simp [hl]))
    have hbi : b1 id = b2 id := hb (i, a, id) (by simp)
    obtain ⟨w1, w2⟩ := hw (i, a, id) (by simp)
    cases haz : azimuth c (b1 id) with
    | error e =>
      left
      refine ⟨e, ?_, ?_⟩
      · rw [entries, haz]
      · rw [entries, ← hbi, haz]
    | ok beams =>
      rcases ih with ⟨e, e1, e2⟩ | ⟨es, fs, e1, e2, e3, e4⟩
      · left
        exact ⟨e, by rw [entries, haz, e1], by rw [entries, ← hbi, haz, e2]⟩
      · right
        refine ⟨_, _, by rw [entries, haz, e1], by rw [entries, ← hbi, haz, e2], .cons ?_ e3, ?_⟩
        · obtain ⟨row, hrow⟩ := written c (b1 id) i hn w1 w2 beams haz
          refine ⟨rfl, rfl, ?_, rfl⟩
          simp only [stackBurst, List.getElem?_map]
          by_cases hi : i < c.pulses
          · simp [List.getElem?_range hi, hrow]
          · simp [List.getElem?_eq_none (show (List.range c.pulses).length ≤ i by simpa using hi)]
        · intro e he
          rcases List.mem_cons.1 he with rfl | he
          · exact ⟨(i, a, id), by simp, rfl⟩
          · obtain ⟨l, hl, h⟩ := e4 e he
            exact ⟨l, by simp [hl], h⟩

theorem loop_ids (x : ℝ) (es : List (Entry ℝ (ℕ → ℂ))) (off m k : ℕ) (best : Option ℝ)
    (g g' : Gathered ℝ (ℕ → ℂ)) (h : gatherLoop x es off m k best g = .ok g')
    (hg : ∀ row ∈ g.rows, ∃ e ∈ es, e.burst.id = row.burst) :
    ∀ row ∈ g'.rows, ∃ e ∈ es, e.burst.id = row.burst := by
  induction m generalizing k best g with
  | zero => rw [gatherLoop] at h; cases h; exact hg
  | succ m ih =>
    rw [gatherLoop] at h
    cases he : es[k + off]? with
    | none => rw [he] at h; cases h
    | some e =>
      rw [he] at h
      dsimp only at h
      cases hr : gatherRow x e with
      | error => rw [hr] at h; cases h
      | ok row =>
        rw [hr] at h
        dsimp only at h
        refine ih _ _ _ h ?_
        intro r hr'
        rcases List.mem_append.1 hr' with hr' | hr'
        · exact hg r hr'
        · rw [List.mem_singleton] at hr'
          subst hr'
          refine ⟨e, List.mem_of_getElem? he, ?_⟩
          unfold gatherRow at hr
          split at hr
          · cases hr; rfl
          · cases hr

theorem gather_ids (argsort : List ℝ → List ℕ) (n : ℕ) (x : ℝ) (prev : ℕ) (es : List (Entry ℝ (ℕ → ℂ)))
    (g : Gathered ℝ (ℕ → ℂ)) (h : gather argsort n x prev es = .ok g) :
    ∀ row ∈ g.rows, ∃ e ∈ es, e.burst.id = row.burst := by
  unfold gather at h
  cases hw : window argsort n x es with
  | error => rw [hw] at h; cases h
  | ok w =>
    rw [hw] at h
    exact loop_ids x es _ _ _ _ _ g h (by simp)

theorem shiftOf_congr (c : Conf) (b1 b2 : ℕ → L1A) (s : Surf) (row : Row ℝ (ℕ → ℂ))
    (h : b1 row.burst = b2 row.burst) : shiftOf c b1 s row = shiftOf c b2 s row := by
  unfold shiftOf; rw [h]

theorem maskInput_congr (c : Conf) (b1 b2 : ℕ → L1A) (s : Surf) (rows : List (Row ℝ (ℕ → ℂ)))
    (h : ∀ row ∈ rows, b1 row.burst = b2 row.burst) :
    maskInput c b1 s rows = maskInput c b2 s rows := by
  unfold maskInput
  congr 1
  · funext i
    cases hr : rows[i]? with
    | none => rfl
    | some row =>
      simp only [Option.map_some, Option.getD_some]
      exact shiftOf_congr c b1 b2 s row (h row (List.mem_of_getElem? hr))
  · apply List.map_congr_left
    intro row hr
    unfold compressed
    rw [shiftOf_congr c b1 b2 s row (h row hr)]

/-! ## C108 -/

/-- **C108.**  What is computed for a surface, or the error raised, does not depend on the surfaces
processed before (`prev`), nor on bursts outside its stack, nor on the contents of memory that was
allocated and not written (`junk`). -/
theorem record_own_stack (argsort : List ℝ → List ℕ) (round : ℝ → ℤ) (j1 j2 : ℕ → ℂ) (c : Conf)
    (b1 b2 : ℕ → L1A) (s : Surf) (p1 p2 : ℕ) (looks : Looks) (hw : WellMade c b1 looks)
    (hb : ∀ l ∈ looks, b1 l.2.2 = b2 l.2.2) :
    surface argsort round j1 c b1 s p1 looks = surface argsort round j2 c b2 s p2 looks := by
  unfold surface
  rcases entries_alike j1 j2 c b1 b2 looks hw hb with ⟨e, e1, e2⟩ | ⟨es, fs, e1, e2, e3, e4⟩
  · rw [e1, e2]
  rw [e1, e2]
  dsimp only
  rw [← alike_gather argsort c.looks (Real.pi / 2) p2 e3]
  rcases gather_prev argsort c.looks (Real.pi / 2) p1 p2 es with h | ⟨h1, h2⟩
  · rw [← h]
    cases hg : gather argsort c.looks (Real.pi / 2) p1 es with
    | error => rfl
    | ok g =>
      dsimp only
      have hids : ∀ row ∈ g.rows, b1 row.burst = b2 row.burst := by
        intro row hr
        obtain ⟨e, he, hid⟩ := gather_ids argsort c.looks _ p1 es g hg row hr
        obtain ⟨l, hl, hl'⟩ := e4 e he
        rw [← hid, hl']
        exact hb l hl
      rw [maskInput_congr c b1 b2 s g.rows hids]
      have : g.rows.map (shiftOf c b1 s) = g.rows.map (shiftOf c b2 s) :=
        List.map_congr_left (fun row hr => shiftOf_congr c b1 b2 s row (hids row hr))
      rw [this]
  · -- an empty stack: no record, or the fit fails
    rw [h1, h2]
    dsimp only
    split
    · rfl
    · rw [show maskInput c b1 s [] = maskInput c b2 s [] from maskInput_congr c b1 b2 s [] (by simp)]
      cases masking round (maskConf c) (maskInput c b2 s []) with
      | error => rfl
      | ok m =>
        dsimp only
        have hfit : fitCount c [] ≤ 0 := by
          unfold fitCount Multilook.fitWindow
          simp only [List.length_nil]
          omega
        split
        · rfl
        · rw [if_pos (by omega), if_pos (by omega)]

/-- The stack of the examples is well made. -/
example (exact : Bool) : WellMade (demoConf exact) (demoBurst 1) [(0, 0, 0), (1, 1, 1)] := by
  refine ⟨by simp [demoConf], ?_⟩
  intro l hl
  simp only [List.mem_cons, List.not_mem_nil, or_false] at hl
  rcases hl with rfl | rfl <;> simp [demoBurst, demoConf, azBurst, Azimuth.TrendOk]

/-- **C108, own bursts matter.**  The hypothesis on the bursts is needed: with an echo of another amplitude
the record of the same looks is another one. -/
theorem own_bursts_matter (argsort : List ℝ → List ℕ) (ha : IsArgsort argsort) :
    ∃ (c : Conf) (b1 b2 : ℕ → L1A) (s : Surf) (looks : Looks), WellMade c b1 looks ∧ WellMade c b2 looks ∧
      surface argsort (fun x => ⌊x + 1 / 2⌋) (fun _ => 0) c b1 s 0 looks ≠
        surface argsort (fun x => ⌊x + 1 / 2⌋) (fun _ => 0) c b2 s 0 looks := by
  refine ⟨demoConf true, demoBurst 1, demoBurst 2, demoSurf, [(0, 0, 0), (1, 1, 1)], ?_, ?_, ?_⟩
  · refine ⟨by simp [demoConf], ?_⟩
    intro l hl
    simp only [List.mem_cons, List.not_mem_nil, or_false] at hl
    rcases hl with rfl | rfl <;> simp [demoBurst, demoConf, azBurst, Azimuth.TrendOk]
  · refine ⟨by simp [demoConf], ?_⟩
    intro l hl
    simp only [List.mem_cons, List.not_mem_nil, or_false] at hl
    rcases hl with rfl | rfl <;> simp [demoBurst, demoConf, azBurst, Azimuth.TrendOk]
  · obtain ⟨r1, h1, h2, _⟩ := demo_surface true argsort ha 1 (by norm_num)
    obtain ⟨r2, g1, g2, _⟩ := demo_surface true argsort ha 2 (by norm_num)
    rw [h1, g1]
    intro h
    cases h
    rw [h2] at g2
    norm_num at g2

end Dedop.Chain
