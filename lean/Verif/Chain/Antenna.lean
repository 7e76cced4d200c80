import Verif.Chain.AntennaModel
import Verif.Chain.Settings
import Verif.Chain.Scale
import Verif.Chain.Bound

/-!
# Antenna weighting of the looks (C149, C150)

With `flag_antenna_weighting_cnf` the looks are multiplied by weights taken from the characterisation file before they are averaged.
-/
namespace Dedop.Chain

open Stack

/-! ## Specification -/

/-- The mean of the powers of the looks which contribute to sample `k`, each times its weight; undefined if there are none. -/
noncomputable def weightedMean (avoidZeros : Bool) (looks : List (Multilook.Beam ℝ × ℝ)) (k : ℕ) : Option ℝ :=
  let used := looks.filter (fun x => Multilook.contributes avoidZeros k x.1)
  if used.length = 0 then none
  else some ((used.map (fun x => x.2 * x.1.power.getD k 0)).sum / used.length)

/-- `n` angles, evenly spaced. -/
noncomputable def grid (n : ℕ) (first spacing : ℝ) : List ℝ := (List.range n).map (fun i => first + spacing * i)

/-- The pattern is complete, evenly spaced, and has the weights given. -/
def Complete (p : Pattern) (first spacing : ℝ) (weights : List ℝ) : Prop :=
  0 < spacing ∧ weights.length = 250 ∧
    p = ⟨some (grid 250 first spacing), some weights, some spacing⟩

/-! ## Lemmas -/

/-- A beam with its powers multiplied by its weight. -/
def weightBeam (b : Multilook.Beam ℝ) (w : ℝ) : Multilook.Beam ℝ := { b with power := b.power.map (· * w) }

theorem weigh_weights (p : Pattern) (beams out : List (Multilook.Beam ℝ)) (h : weigh p beams = .ok out) :
    ∃ ws : List ℝ, List.Forall₂ (fun b w => weightOf p b.pointing = .ok w) beams ws ∧
      out = List.zipWith weightBeam beams ws := by
  induction beams generalizing out with
  | nil => cases h; exact ⟨[], .nil, rfl⟩
  | cons b rest ih =>
    rw [weigh] at h
    cases hw : weightOf p b.pointing with
    | error => rw [hw] at h; cases h
    | ok w =>
      rw [hw] at h
      dsimp only at h
      cases hr : weigh p rest with
      | error => rw [hr] at h; cases h
      | ok bs =>
        rw [hr] at h
        cases h
        obtain ⟨ws, h1, h2⟩ := ih bs hr
        exact ⟨w :: ws, .cons hw h1, by rw [h2]; rfl⟩

/-- What does not depend on the powers is the same for weighted looks. -/
theorem loop_weight (av : Bool) (n : ℕ) (beams : List (Multilook.Beam ℝ)) (ws : List ℝ) (hl : beams.length = ws.length) (i : ℕ)
    (a a' : Multilook.Acc ℝ) (h : a'.counter = a.counter ∧ a'.nBeams = a.nBeams ∧ a'.start = a.start ∧ a'.stop = a.stop) :
    let x := Multilook.loop av n i a beams
    let y := Multilook.loop av n i a' (List.zipWith weightBeam beams ws)
    y.counter = x.counter ∧ y.nBeams = x.nBeams ∧ y.start = x.start ∧ y.stop = x.stop := by
  induction beams generalizing ws i a a' with
  | nil => exact h
  | cons b rest ih =>
    cases ws with
    | nil => simp at hl
    | cons w ws =>
      simp only [List.zipWith_cons_cons, Multilook.loop]
      refine ih ws (by simpa using hl) (i + 1) _ _ ?_
      unfold Multilook.turn
      have hv : (weightBeam b w).vector = b.vector := rfl
      have hi : Multilook.increments av n (weightBeam b w) = Multilook.increments av n b := rfl
      rw [hv, hi]
      obtain ⟨h1, h2, h3, h4⟩ := h
      split
      · dsimp only
        rw [h1, h2, h3]
        exact ⟨rfl, rfl, rfl, rfl⟩
      · exact ⟨h1, h2, h3, h4⟩

theorem zip_weight {A : Type} (f : Multilook.Beam ℝ → A) (hf : ∀ b w, f (weightBeam b w) = f b) (beams : List (Multilook.Beam ℝ))
    (ws : List ℝ) (hl : beams.length = ws.length) : (List.zipWith weightBeam beams ws).map f = beams.map f := by
  induction beams generalizing ws with
  | nil => rfl
  | cons b rest ih =>
    cases ws with
    | nil => simp at hl
    | cons w ws => simp only [List.zipWith_cons_cons, List.map_cons, hf, ih ws (by simpa using hl)]

theorem compute_weight (av : Bool) (n looks : ℕ) (beams : List (Multilook.Beam ℝ)) (ws : List ℝ) (hl : beams.length = ws.length) :
    Multilook.compute av n looks (List.zipWith weightBeam beams ws) =
      { Multilook.compute av n looks beams with
        waveform := (Multilook.compute av n looks (List.zipWith weightBeam beams ws)).waveform } := by
  have h := loop_weight av n beams ws hl 0 ⟨List.replicate n 0, List.replicate n 0, 0, none, none⟩
    ⟨List.replicate n 0, List.replicate n 0, 0, none, none⟩ ⟨rfl, rfl, rfl, rfl⟩
  dsimp only at h
  obtain ⟨h1, h2, h3, h4⟩ := h
  have hvec := zip_weight (·.vector) (fun _ _ => rfl) beams ws hl
  have hlook : ∀ k : ℕ, ((List.zipWith weightBeam beams ws)[k]?).map (·.look) = (beams[k]?).map (·.look) := by
    intro k
    rw [← List.getElem?_map, ← List.getElem?_map, zip_weight (·.look) (fun _ _ => rfl) beams ws hl]
  have hseq : ∀ k : ℕ, ((List.zipWith weightBeam beams ws)[k]?).map (·.seqCount) = (beams[k]?).map (·.seqCount) := by
    intro k
    rw [← List.getElem?_map, ← List.getElem?_map, zip_weight (·.seqCount) (fun _ _ => rfl) beams ws hl]
  have hlen : (List.zipWith weightBeam beams ws).length = beams.length := by simp [hl]
  unfold Multilook.compute
  generalize Multilook.loop av n 0 ⟨List.replicate n 0, List.replicate n 0, 0, none, none⟩ beams = x at h1 h2 h3 h4
  generalize Multilook.loop av n 0 ⟨List.replicate n 0, List.replicate n 0, 0, none, none⟩ (List.zipWith weightBeam beams ws) = y at h1 h2 h3 h4
  dsimp only
  rw [h3, h4]
  cases x.start with
  | none => simp only [h2]
  | some st =>
    cases x.stop with
    | none => simp only [h2]
    | some sp => simp only [h2, hvec, hlook, hseq, hlen]

theorem weight_ones (beams : List (Multilook.Beam ℝ)) (ws : List ℝ) (hl : beams.length = ws.length) :
    List.zipWith weightBeam beams (ws.map (fun _ => (1 : ℝ))) = beams := by
  induction beams generalizing ws with
  | nil => rfl
  | cons b rest ih =>
    cases ws with
    | nil => simp at hl
    | cons w ws =>
      simp only [List.map_cons, List.zipWith_cons_cons, ih ws (by simpa using hl)]
      simp [weightBeam]

theorem weight_wellformed (n : ℕ) (beams : List (Multilook.Beam ℝ)) (h : Multilook.WellFormed n beams) (ws : List ℝ) :
    Multilook.WellFormed n (List.zipWith weightBeam beams ws) := by
  induction beams generalizing ws with
  | nil => intro b hb; simp at hb
  | cons b rest ih =>
    cases ws with
    | nil => intro b hb; simp at hb
    | cons w ws =>
      intro x hx
      simp only [List.zipWith_cons_cons, List.mem_cons] at hx
      rcases hx with rfl | hx
      · obtain ⟨h1, h2⟩ := h b (by simp)
        exact ⟨h1, by simpa [weightBeam] using h2⟩
      · exact ih (fun c hc => h c (by simp [hc])) ws x hx

theorem powers_weight (av : Bool) (n k : ℕ) (hk : k < n) (beams : List (Multilook.Beam ℝ)) (h : Multilook.WellFormed n beams)
    (ws : List ℝ) :
    Multilook.powers av (List.zipWith weightBeam beams ws) k =
      ((beams.zip ws).filter (fun x => Multilook.contributes av k x.1)).map (fun x => x.2 * x.1.power.getD k 0) := by
  induction beams generalizing ws with
  | nil => rfl
  | cons b rest ih =>
    cases ws with
    | nil => rfl
    | cons w ws =>
      have ih := ih (fun c hc => h c (by simp [hc])) ws
      have hc : Multilook.contributes av k (weightBeam b w) = Multilook.contributes av k b := rfl
      have hp : (weightBeam b w).power.getD k 0 = w * b.power.getD k 0 := by
        have : k < b.power.length := by rw [(h b (by simp)).2]; exact hk
        simp [weightBeam, List.getElem?_eq_getElem this, mul_comm]
      unfold Multilook.powers at ih ⊢
      simp only [List.zipWith_cons_cons, List.zip_cons_cons, List.filter_cons, hc]
      split
      · simp only [List.map_cons, hp, ih]
      · exact ih

theorem compute_weightedMean (av : Bool) (n looks k : ℕ) (hk : k < n) (beams : List (Multilook.Beam ℝ))
    (h : Multilook.WellFormed n beams) (ws : List ℝ) :
    (Multilook.compute av n looks (List.zipWith weightBeam beams ws)).waveform[k]? = some (weightedMean av (beams.zip ws) k) := by
  rw [Multilook.waveform_get av n looks _ (weight_wellformed n beams h ws) k hk, powers_weight av n k hk beams h ws]
  unfold weightedMean
  simp only [List.length_map]

theorem gather_length (argsort : List ℝ → List ℕ) (n : ℕ) (x : ℝ) (prev : ℕ) (es : List (Entry ℝ (ℕ → ℂ)))
    (g : Gathered ℝ (ℕ → ℂ)) (h : gather argsort n x prev es = .ok g) : g.rows.length = g.size ∧ g.size ≤ n := by
  have hloop : ∀ (m k off : ℕ) (best : Option ℝ) (g0 g : Gathered ℝ (ℕ → ℂ)), gatherLoop x es off m k best g0 = .ok g →
      g.rows.length = g0.rows.length + m ∧ g.size = g0.size := by
    intro m
    induction m with
    | zero => intro k off best g0 g h; cases h; exact ⟨rfl, rfl⟩
    | succ m ih =>
      intro k off best g0 g h
      rw [gatherLoop] at h
      cases he : es[k + off]? with
      | none => rw [he] at h; cases h
      | some e =>
        rw [he] at h
        dsimp only at h
        cases hr : gatherRow x e with
        | error => rw [hr] at h; cases h
        | ok row =>
          rw [hr] at h
          obtain ⟨i1, i2⟩ := ih _ _ _ _ _ h
          simp only [List.length_append, List.length_cons, List.length_nil] at i1
          exact ⟨by omega, i2⟩
  unfold gather at h
  cases hw : window argsort n x es with
  | error => rw [hw] at h; cases h
  | ok w =>
    obtain ⟨size, off⟩ := w
    rw [hw] at h
    obtain ⟨h1, h2⟩ := hloop _ _ _ _ _ _ h
    simp only [List.length_nil, Nat.zero_add] at h1 h2
    refine ⟨by omega, ?_⟩
    rw [h2]
    unfold window at hw
    split at hw
    · cases hw; omega
    · split at hw
      · cases hw
      · split at hw <;> cases hw
        exact le_refl _

/-- What a record without weighting was made of. -/
theorem surface_made (argsort : List ℝ → List ℕ) (round : ℝ → ℤ) (junk : ℕ → ℂ) (c : Conf) (bursts : ℕ → L1A) (s : Surf)
    (prev : ℕ) (looks : Looks) (r : Result) (h : surface argsort round junk c bursts s prev looks = .ok (some r)) :
    ∃ es, entries junk c bursts looks = .ok es ∧ gather argsort c.looks (Real.pi / 2) prev es = .ok r.gathered ∧
      c.looks / 2 ≤ r.gathered.size ∧ masking round (maskConf c) (maskInput c bursts s r.gathered.rows) = .ok r.masked ∧
      0 < fitCount c r.gathered.rows ∧
      r.out = Multilook.compute c.avoidZeros (c.samples * c.zp) c.looks (lookBeams r.gathered.rows r.masked) := by
  unfold surface at h
  cases h1 : entries junk c bursts looks with
  | error => rw [h1] at h; cases h
  | ok es =>
    rw [h1] at h
    dsimp only at h
    cases h2 : gather argsort c.looks (Real.pi / 2) prev es with
    | error => rw [h2] at h; cases h
    | ok g =>
      rw [h2] at h
      dsimp only at h
      by_cases h4 : g.size < c.looks / 2
      · rw [if_pos h4] at h; cases h
      · rw [if_neg h4] at h
        cases h3 : masking round (maskConf c) (maskInput c bursts s g.rows) with
        | error => rw [h3] at h; cases h
        | ok m =>
          rw [h3] at h
          dsimp only at h
          by_cases h5 : fitCount c g.rows = 0
          · rw [if_pos h5] at h; cases h
          · rw [if_neg h5] at h
            by_cases h6 : fitCount c g.rows < 0
            · rw [if_pos h6] at h; cases h
            · rw [if_neg h6] at h
              cases h
              exact ⟨es, rfl, h2, not_lt.1 h4, h3, by dsimp only; omega, rfl⟩

theorem beams_pointing (rows : List (Row ℝ (ℕ → ℂ))) (m : Masked ℝ) : (lookBeams rows m).map (·.pointing) = rows.map (·.pointing) := by
  unfold lookBeams
  rw [List.map_map]
  conv_rhs => rw [← List.zipIdx_map_fst 0 rows, List.map_map]
  rfl

/-- All weights the same. -/
theorem weigh_all (p : Pattern) (w : ℝ) (beams : List (Multilook.Beam ℝ)) (h : ∀ b ∈ beams, weightOf p b.pointing = .ok w) :
    weigh p beams = .ok (beams.map (timesBeam w)) := by
  induction beams with
  | nil => rfl
  | cons b rest ih =>
    rw [weigh, h b (by simp), ih (fun x hx => h x (by simp [hx]))]
    dsimp only
    congr 2
    unfold timesBeam
    congr 1
    exact List.map_congr_left (fun x _ => mul_comm x w)

theorem surfaceAw_all (p : Pattern) (w : ℝ) (argsort : List ℝ → List ℕ) (round : ℝ → ℤ) (junk : ℕ → ℂ) (c : Conf)
    (bursts : ℕ → L1A) (s : Surf) (prev : ℕ) (looks : Looks) (r : Result)
    (h : surface argsort round junk c bursts s prev looks = .ok (some r))
    (hw : ∀ row ∈ r.gathered.rows, weightOf p row.pointing = .ok w) :
    surfaceAw true p argsort round junk c bursts s prev looks =
      .ok (some { r with out := { r.out with waveform := times w r.out.waveform } }) := by
  have hb : ∀ b ∈ lookBeams r.gathered.rows r.masked, weightOf p b.pointing = .ok w := by
    intro b hb
    have : b.pointing ∈ (lookBeams r.gathered.rows r.masked).map (·.pointing) := List.mem_map_of_mem hb
    rw [beams_pointing, List.mem_map] at this
    obtain ⟨row, h1, h2⟩ := this
    rw [← h2]
    exact hw row h1
  obtain ⟨es, _, _, _, _, _, ho⟩ := surface_made argsort round junk c bursts s prev looks r h
  unfold surfaceAw
  rw [h]
  dsimp only
  unfold applyWeighting
  rw [if_pos rfl, weigh_all p w _ hb]
  dsimp only
  rw [compute_scaled, ← ho]

theorem grid_ends (n : ℕ) (first spacing : ℝ) : (grid (n + 1) first spacing).head? = some ((grid (n + 1) first spacing).headD 0) ∧
    (grid (n + 1) first spacing).getLast? = some ((grid (n + 1) first spacing).getLastD 0) ∧
    (grid (n + 1) first spacing).length = n + 1 := by
  unfold grid
  refine ⟨?_, ?_, by simp⟩
  · simp [List.range_succ_eq_map]
  · simp [List.range_succ]

theorem weightOf_complete (p : Pattern) (first spacing : ℝ) (weights : List ℝ) (h : Complete p first spacing weights) (angle : ℝ) :
    weightOf p angle = Multilook.selectWeight (grid 250 first spacing) weights spacing angle := by
  obtain ⟨h1, h2, rfl⟩ := h
  obtain ⟨e1, e2, e0⟩ := grid_ends 249 first spacing
  simp only [Nat.reduceAdd] at e1 e2 e0
  generalize grid 250 first spacing = angles at e1 e2 e0 ⊢
  have t1 : table (some angles) = .ok angles := by unfold table; simp [e0]
  have t2 : table (some weights) = .ok weights := by unfold table; simp [h2]
  cases weights with
  | nil => simp at h2
  | cons w0 ws =>
    have e3 : (w0 :: ws).head? = some ((w0 :: ws).headD 0) := rfl
    have e4 : (w0 :: ws).getLast? = some ((w0 :: ws).getLastD 0) := by
      rw [List.getLastD_eq_getLast?]
      cases hg : (w0 :: ws).getLast? with
      | none => simp at hg
      | some x => rfl
    unfold weightOf
    dsimp only
    rw [t1, t2]
    dsimp only
    rw [if_neg h1.ne']
    by_cases c1 : angle ≤ angles.headD 0
    · rw [if_pos c1]
      unfold Multilook.selectWeight
      rw [e1, e2, e3, e4]
      simp only [if_pos c1]
    · rw [if_neg c1]
      by_cases c2 : angle ≥ angles.getLastD 0
      · rw [if_pos c2]
        unfold Multilook.selectWeight
        rw [e1, e2, e3, e4]
        simp only [if_neg c1, if_pos c2]
      · rw [if_neg c2]

/-! ## C149 -/

/-- With the weighting on or off there is no record for the same surfaces. -/
theorem surfaceAw_ok_none {on : Bool} {p : Pattern} {argsort : List ℝ → List ℕ} {round : ℝ → ℤ} {junk : ℕ → ℂ} {c : Conf}
    {bursts : ℕ → L1A} {s : Surf} {prev : ℕ} {looks : Looks}
    (h : surfaceAw on p argsort round junk c bursts s prev looks = .ok none) :
    surface argsort round junk c bursts s prev looks = .ok none := by
  unfold surfaceAw at h
  cases hs : surface argsort round junk c bursts s prev looks with
  | error => rw [hs] at h; cases h
  | ok o =>
    rw [hs] at h
    cases o with
    | none => rfl
    | some r =>
      dsimp only at h
      split at h
      · cases h
      · cases h

/-- A record with the weighting on or off is that without it but for the waveform. -/
theorem surfaceAw_ok_some {on : Bool} {p : Pattern} {argsort : List ℝ → List ℕ} {round : ℝ → ℤ} {junk : ℕ → ℂ} {c : Conf}
    {bursts : ℕ → L1A} {s : Surf} {prev : ℕ} {looks : Looks} {r' : Result}
    (h : surfaceAw on p argsort round junk c bursts s prev looks = .ok (some r')) :
    ∃ r, surface argsort round junk c bursts s prev looks = .ok (some r) ∧
      r' = { r with out := { r.out with waveform := r'.out.waveform } } := by
  unfold surfaceAw at h
  cases hs : surface argsort round junk c bursts s prev looks with
  | error => rw [hs] at h; cases h
  | ok o =>
    rw [hs] at h
    cases o with
    | none => cases h
    | some r =>
      refine ⟨r, rfl, ?_⟩
      dsimp only at h
      obtain ⟨es, _, _, _, _, _, ho⟩ := surface_made argsort round junk c bursts s prev looks r hs
      cases on with
      | false =>
        cases h
        dsimp only
        rw [← ho]
      | true =>
        unfold applyWeighting at h
        rw [if_pos rfl] at h
        cases hb : weigh p (lookBeams r.gathered.rows r.masked) with
        | error => rw [hb] at h; cases h
        | ok beams =>
          rw [hb] at h
          cases h
          obtain ⟨ws, w1, w2⟩ := weigh_weights p _ _ hb
          dsimp only
          rw [w2, compute_weight _ _ _ _ _ w1.length_eq, ← ho]

theorem weigh_scaled (p : Pattern) (x : ℝ) (beams : List (Multilook.Beam ℝ)) :
    weigh p (beams.map (timesBeam x)) = (weigh p beams).map (List.map (timesBeam x)) := by
  induction beams with
  | nil => rfl
  | cons b rest ih =>
    rw [List.map_cons, weigh, weigh]
    have : (timesBeam x b).pointing = b.pointing := rfl
    rw [this, ih]
    cases weightOf p b.pointing with
    | error => rfl
    | ok w =>
      dsimp only
      cases weigh p rest with
      | error => rfl
      | ok bs =>
        simp only [Except.map, List.map_cons, timesBeam, List.map_map]
        congr 3
        congr 1
        funext v
        simp only [Function.comp]
        ring

/-- The record of a surface depends on the bursts of its stack only, whether the weighting is on or off. -/
theorem record_own_stack_aw (on : Bool) (p : Pattern) (argsort : List ℝ → List ℕ) (round : ℝ → ℤ) (j1 j2 : ℕ → ℂ) (c : Conf)
    (b1 b2 : ℕ → L1A) (s : Surf) (p1 p2 : ℕ) (looks : Looks) (hw : WellMade c b1 looks)
    (hb : ∀ l ∈ looks, b1 l.2.2 = b2 l.2.2) :
    surfaceAw on p argsort round j1 c b1 s p1 looks = surfaceAw on p argsort round j2 c b2 s p2 looks := by
  unfold surfaceAw
  rw [record_own_stack argsort round j1 j2 c b1 b2 s p1 p2 looks hw hb]

/-- Waveforms scale with the power of the echoes, whether the weighting is on or off. -/
theorem waveform_scales_aw (on : Bool) (p : Pattern) (argsort : List ℝ → List ℕ) (round : ℝ → ℤ) (junk : ℕ → ℂ) (c : Conf)
    (bursts : ℕ → L1A) (s : Surf) (prev : ℕ) (looks : Looks) (hw : WellMade c bursts looks) (A : ℕ → ℂ) (a : ℝ) (hA : ∀ id, ‖A id‖ = a) :
    match surfaceAw on p argsort round junk c bursts s prev looks with
    | .error e => surfaceAw on p argsort round junk c (rescaled A bursts) s prev looks = .error e
    | .ok none => surfaceAw on p argsort round junk c (rescaled A bursts) s prev looks = .ok none
    | .ok (some r) => ∃ r', surfaceAw on p argsort round junk c (rescaled A bursts) s prev looks = .ok (some r') ∧
        r'.out = { r.out with waveform := times (a ^ 2) r.out.waveform } ∧ r'.shifts = r.shifts ∧
        r'.masked.mask = r.masked.mask ∧ r'.masked.vector = r.masked.vector ∧ r'.gathered.closest = r.gathered.closest ∧
        r'.gathered = timesGathered A r.gathered := by
  have q := waveform_scales argsort round junk c bursts s prev looks hw A a hA
  unfold surfaceAw
  revert q
  cases surface argsort round junk c bursts s prev looks with
  | error e => intro q; dsimp only at q; rw [q]
  | ok o =>
    cases o with
    | none => intro q; dsimp only at q; rw [q]
    | some r =>
      rintro ⟨r', e, _, h2, h3, h4, h5, h6, h7⟩
      rw [e]
      dsimp only
      have hb : applyWeighting on p (lookBeams r'.gathered.rows r'.masked) =
          (applyWeighting on p (lookBeams r.gathered.rows r.masked)).map (List.map (timesBeam (a ^ 2))) := by
        have : r'.gathered.rows = r.gathered.rows.map (timesRow A) := by rw [h6]; rfl
        rw [this, h7, lookBeams_scaled]
        unfold applyWeighting
        split
        · exact weigh_scaled p _ _
        · rfl
      rw [hb]
      cases applyWeighting on p (lookBeams r.gathered.rows r.masked) with
      | error => rfl
      | ok beams =>
        dsimp only [Except.map]
        refine ⟨_, rfl, ?_, h2, h3, h4, h5, h6⟩
        dsimp only
        rw [compute_scaled]

/-- **C149.**  With the weighting on, there is a record exactly if there is one without and all looks have a weight; it is the same
but for the waveform, of which each sample is the mean of the powers of the looks contributing to it, each times the weight for the
pointing angle of the look. -/
theorem weighting_changes_power (p : Pattern) (argsort : List ℝ → List ℕ) (round : ℝ → ℤ) (junk : ℕ → ℂ) (c : Conf)
    (bursts : ℕ → L1A) (s : Surf) (prev : ℕ) (looks : Looks) (hP : 2 ≤ c.samples * c.zp) (r' : Result)
    (h : surfaceAw true p argsort round junk c bursts s prev looks = .ok (some r')) :
    ∃ r ws, surface argsort round junk c bursts s prev looks = .ok (some r) ∧
      r' = { r with out := { r.out with waveform := r'.out.waveform } } ∧
      List.Forall₂ (fun (row : Row ℝ (ℕ → ℂ)) w => weightOf p row.pointing = .ok w) r.gathered.rows ws ∧
      ∀ k < c.samples * c.zp,
        r.out.waveform[k]? = some (weightedMean c.avoidZeros ((lookBeams r.gathered.rows r.masked).zip (ws.map (fun _ => 1))) k) ∧
        r'.out.waveform[k]? = some (weightedMean c.avoidZeros ((lookBeams r.gathered.rows r.masked).zip ws) k) := by
  unfold surfaceAw at h
  cases hs : surface argsort round junk c bursts s prev looks with
  | error => rw [hs] at h; cases h
  | ok o =>
    rw [hs] at h
    cases o with
    | none => cases h
    | some r =>
      dsimp only at h
      unfold applyWeighting at h
      rw [if_pos rfl] at h
      cases hb : weigh p (lookBeams r.gathered.rows r.masked) with
      | error => rw [hb] at h; cases h
      | ok beams =>
        rw [hb] at h
        cases h
        obtain ⟨es, _, hg, _, hm, _, ho⟩ := surface_made argsort round junk c bursts s prev looks r hs
        obtain ⟨ws, w1, w2⟩ := weigh_weights p _ _ hb
        obtain ⟨g1, g2⟩ := gather_length argsort c.looks _ prev es _ hg
        obtain ⟨m, m1, m2, _⟩ := waveform_of_rows round c bursts s r.gathered.rows hP (by omega)
        rw [hm] at m1
        cases m1
        refine ⟨r, ws, rfl, ?_, ?_, ?_⟩
        · dsimp only
          rw [w2, compute_weight _ _ _ _ _ w1.length_eq, ← ho]
        · have : List.Forall₂ (fun (a : ℝ) w => weightOf p a = .ok w) ((lookBeams r.gathered.rows r.masked).map (·.pointing)) ws := by
            rw [List.forall₂_map_left_iff]; exact w1
          rw [beams_pointing, List.forall₂_map_left_iff] at this
          exact this
        · intro k hk
          constructor
          · rw [ho]
            have hone := weight_ones (lookBeams r.gathered.rows r.masked) ws w1.length_eq
            rw [← compute_weightedMean _ _ c.looks k hk _ m2, hone]
          · dsimp only
            rw [w2]
            exact compute_weightedMean _ _ _ k hk _ m2 ws

/-- **C149, off.**  With the weighting off the pattern is neither needed nor used. -/
theorem weighting_off (p : Pattern) (argsort : List ℝ → List ℕ) (round : ℝ → ℤ) (junk : ℕ → ℂ) (c : Conf)
    (bursts : ℕ → L1A) (s : Surf) (prev : ℕ) (looks : Looks) :
    surfaceAw false p argsort round junk c bursts s prev looks = surface argsort round junk c bursts s prev looks := by
  unfold surfaceAw
  cases hs : surface argsort round junk c bursts s prev looks with
  | error => rfl
  | ok o =>
    cases o with
    | none => rfl
    | some r =>
      obtain ⟨es, _, _, _, _, _, ho⟩ := surface_made argsort round junk c bursts s prev looks r hs
      show Except.ok (some _) = Except.ok (some _)
      rw [← ho]

/-- **C149, equal weights.**  A pattern which weighs all angles alike multiplies the waveform by that weight: the records are the same
for weight 1. -/
theorem uniform_weighting (p : Pattern) (first spacing w : ℝ) (hp : Complete p first spacing (List.replicate 250 w))
    (argsort : List ℝ → List ℕ) (round : ℝ → ℤ) (junk : ℕ → ℂ) (c : Conf) (bursts : ℕ → L1A) (s : Surf) (prev : ℕ) (looks : Looks) :
    match surface argsort round junk c bursts s prev looks with
    | .error e => surfaceAw true p argsort round junk c bursts s prev looks = .error e
    | .ok none => surfaceAw true p argsort round junk c bursts s prev looks = .ok none
    | .ok (some r) => surfaceAw true p argsort round junk c bursts s prev looks =
        .ok (some { r with out := { r.out with waveform := times w r.out.waveform } }) := by
  cases hs : surface argsort round junk c bursts s prev looks with
  | error e => unfold surfaceAw; rw [hs]
  | ok o =>
    cases o with
    | none => unfold surfaceAw; rw [hs]
    | some r =>
      refine surfaceAw_all p w argsort round junk c bursts s prev looks r hs ?_
      intro row _
      rw [weightOf_complete p first spacing _ hp]
      exact Multilook.constant_weights_partial 249 first spacing w row.pointing hp.1

theorem table_refused (x : Option (List ℝ)) (h : ∀ l, x = some l → l.length ≠ 250) : ∃ e, table x = .error e := by
  cases x with
  | none => exact ⟨_, rfl⟩
  | some l => exact ⟨.valueError, by rw [table]; exact if_neg (h l rfl)⟩

/-- **C149, no pattern.**  If the characterisation file has no pattern (no shipped one has, C101) or one of its lists has not 250 numbers, the
run ends with an error at the first surface which would have a record. -/
theorem pattern_needed (p : Pattern) (hp : (∀ l, p.angles = some l → l.length ≠ 250) ∨ ∀ l, p.weights = some l → l.length ≠ 250) (argsort : List ℝ → List ℕ) (round : ℝ → ℤ)
    (junk : ℕ → ℂ) (c : Conf) (bursts : ℕ → L1A) (s : Surf) (prev : ℕ) (looks : Looks) (hl : 2 ≤ c.looks) (r : Result)
    (h : surface argsort round junk c bursts s prev looks = .ok (some r)) :
    ∃ e, surfaceAw true p argsort round junk c bursts s prev looks = .error e := by
  obtain ⟨es, _, hg, hsz, _, _, ho⟩ := surface_made argsort round junk c bursts s prev looks r h
  obtain ⟨g1, g2⟩ := gather_length argsort c.looks _ prev es _ hg
  have hne : (lookBeams r.gathered.rows r.masked).length ≠ 0 := by
    simp only [lookBeams, List.length_map, List.length_zipIdx]
    omega
  have hw : ∀ a, ∃ e, weightOf p a = .error e := by
    intro a
    unfold weightOf
    rcases hp with hp | hp
    · obtain ⟨e, he⟩ := table_refused _ hp
      rw [he]; exact ⟨_, rfl⟩
    · obtain ⟨e, he⟩ := table_refused _ hp
      rw [he]
      cases table p.angles with
      | error e => exact ⟨e, rfl⟩
      | ok l =>
        dsimp only
        split
        · exact ⟨_, rfl⟩
        · split
          · exact ⟨_, rfl⟩
          · cases p.spacing with
            | none => exact ⟨_, rfl⟩
            | some sp =>
              dsimp only
              split
              · exact ⟨_, rfl⟩
              · exact ⟨_, rfl⟩
  unfold surfaceAw applyWeighting
  rw [h]
  dsimp only
  rw [if_pos rfl]
  cases hb : lookBeams r.gathered.rows r.masked with
  | nil => rw [hb] at hne; simp at hne
  | cons b rest =>
    rw [weigh]
    obtain ⟨e, he⟩ := hw b.pointing
    rw [he]
    exact ⟨e, rfl⟩

/-! ## C150 -/

/-- A pattern with weights 3/4 up to an angle a little above 30 degrees and 1 beyond. -/
noncomputable def stepPattern : Pattern :=
  ⟨some (grid 250 (-1) (1 / 100)), some ((List.range 250).map (fun i => if i ≤ 152 then 3 / 4 else 1)), some (1 / 100)⟩

theorem stepPattern_complete : Complete stepPattern (-1) (1 / 100) ((List.range 250).map (fun i => if i ≤ 152 then 3 / 4 else 1)) :=
  ⟨by norm_num, by simp, rfl⟩

theorem step_weight : weightOf stepPattern (Real.pi / 6) = .ok (3 / 4 + (Real.pi / 6 - 3 / 4) / (1 / 100) * (1 - 3 / 4)) := by
  have h1 := Real.pi_gt_d2
  have h2 := Real.pi_lt_d2
  rw [weightOf_complete _ _ _ _ stepPattern_complete]
  obtain ⟨e1, e2, e0⟩ := grid_ends 249 (-1) (1 / 100)
  simp only [Nat.reduceAdd] at e1 e2 e0
  have f1 : (grid 250 (-1) (1 / 100)).headD 0 = -1 := by
    unfold grid; rw [show 250 = 249 + 1 from rfl, List.range_succ_eq_map]; simp
  have f2 : (grid 250 (-1) (1 / 100)).getLastD 0 = 149 / 100 := by
    unfold grid; rw [show 250 = 249 + 1 from rfl, List.range_succ]; simp; norm_num
  have hf : ⌊(Real.pi / 6 - -1) / (1 / 100)⌋.toNat = 152 := by
    have : ⌊(Real.pi / 6 - -1) / (1 / 100)⌋ = 152 := by
      rw [Int.floor_eq_iff]; constructor <;> norm_num <;> linarith
    rw [this]; rfl
  unfold Multilook.selectWeight
  rw [e1, e2, f1, f2]
  have g1 : ((List.range 250).map (fun i => if i ≤ 152 then (3 / 4 : ℝ) else 1)).head? = some (3 / 4) := by
    rw [show 250 = 249 + 1 from rfl, List.range_succ_eq_map]; simp
  have g2 : ((List.range 250).map (fun i => if i ≤ 152 then (3 / 4 : ℝ) else 1)).getLast? = some 1 := by
    rw [show 250 = 249 + 1 from rfl, List.range_succ]; simp
  have g3 : ((List.range 250).map (fun i => if i ≤ 152 then (3 / 4 : ℝ) else 1))[152]? = some (3 / 4) := by
    rw [List.getElem?_map, List.getElem?_range (by norm_num)]; simp
  have g4 : ((List.range 250).map (fun i => if i ≤ 152 then (3 / 4 : ℝ) else 1))[152 + 1]? = some 1 := by
    rw [List.getElem?_map, List.getElem?_range (by norm_num)]; simp
  rw [g1, g2]
  dsimp only
  rw [if_neg (by linarith), if_neg (by rw [ge_iff_le, not_le]; linarith), hf, g3, g4]

/-- The configuration of the examples with one look. -/
noncomputable def awConf : Conf := { demoConf true with looks := 2 }

theorem aw_pointing (argsort : List ℝ → List ℕ) (r : Result)
    (h : surface argsort nearest (fun _ => 0) awConf (fun _ => demoBurst 1 1) demoSurf 0 [(1, 1, 0)] = .ok (some r)) :
    ∀ row ∈ r.gathered.rows, row.pointing = Real.pi / 6 := by
  obtain ⟨es, he, hg, _⟩ := surface_made _ _ _ _ _ _ _ _ r h
  refine gather_rows (fun row => row.pointing = Real.pi / 6) argsort _ _ 0 es ?_ _ hg
  intro e hem row hrow
  obtain ⟨l, hl, beams, _, rfl⟩ := entries_mem _ _ _ _ es he e hem
  simp only [List.mem_cons, List.not_mem_nil, or_false] at hl
  subst hl
  unfold gatherRow at hrow
  split at hrow
  · rename_i beam a h1 h2
    cases hrow
    simp only [stackBurst, demoBurst, List.getElem?_cons_succ, List.getElem?_cons_zero, Option.some.injEq] at h2
    simp only [stackBurst, demoBurst, ← h2]
    ring
  · cases hrow

/-- **C150 violated.**  All weights of the pattern are between 3/4 and 1, and the sample in the middle of the waveform of a point is
less than zero. -/
theorem weighted_power_violated (argsort : List ℝ → List ℕ) (ha : IsArgsort argsort) :
    ∃ (p : Pattern) (first spacing : ℝ) (weights : List ℝ) (c : Conf) (bursts : ℕ → L1A) (s : Surf) (looks : Looks) (r : Result)
      (y : ℝ), Complete p first spacing weights ∧ (∀ w ∈ weights, 3 / 4 ≤ w ∧ w ≤ 1) ∧
      surfaceAw true p argsort nearest (fun _ => 0) c bursts s 0 looks = .ok (some r) ∧
      r.out.waveform[8]? = some (some y) ∧ y < 0 := by
  have hpi := Real.pi_lt_d2
  have hpi' := Real.pi_gt_d2
  obtain ⟨w, w1, w2, _⟩ := plain_centre argsort ha awConf (by simp [Plain, awConf, demoConf]) (by simp [awConf]) (by simp [awConf])
    rfl (by
      intro lo hi hlo hhi
      simp only [maskConf, awConf, demoConf, Option.some.injEq] at hlo hhi
      subst hlo; subst hhi
      constructor <;> linarith) (by simp [awConf, demoConf])
  have w2 := w2 rfl rfl
  cases hs : surface argsort nearest (fun _ => 0) awConf (fun _ => demoBurst 1 1) demoSurf 0 [(1, 1, 0)] with
  | error e => rw [hs] at w1; cases w1
  | ok o =>
    cases o with
    | none => rw [hs] at w1; cases w1
    | some r =>
      rw [hs] at w1
      have hw : r.out.waveform = w := Option.some.inj w1
      have haw := surfaceAw_all stepPattern (3 / 4 + (Real.pi / 6 - 3 / 4) / (1 / 100) * (1 - 3 / 4)) argsort nearest (fun _ => 0) awConf _ _ _ _ r hs
        (fun row hrow => by rw [aw_pointing argsort r hs row hrow]; exact step_weight)
      refine ⟨stepPattern, _, _, _, awConf, _, demoSurf, [(1, 1, 0)], _,
        (3 / 4 + (Real.pi / 6 - 3 / 4) / (1 / 100) * (1 - 3 / 4)) * gain awConf, stepPattern_complete, ?_, haw, ?_, ?_⟩
      · intro w hw
        simp only [List.mem_map] at hw
        obtain ⟨i, _, rfl⟩ := hw
        split <;> norm_num
      · have h8 : awConf.zp * 4 = 8 := by simp [awConf, demoConf]
        rw [h8] at w2
        dsimp only
        rw [hw, times, List.getElem?_map, w2]
        rfl
      · have hg : 0 < gain awConf := by
          unfold gain
          simp [awConf, demoConf]
        have : (3 / 4 + (Real.pi / 6 - 3 / 4) / (1 / 100) * (1 - 3 / 4)) < 0 := by norm_num; linarith
        exact mul_neg_of_neg_of_pos this hg

/-- **C150, what holds.**  If the weights of the pattern are between 0 and `W` and either all looks have pointing angles outside the
angles of the pattern or all weights are the same, then the samples of the waveform are between zero and `W` times the energy of the
strongest burst over the padding factor. -/
theorem weighted_power_partial (p : Pattern) (first spacing W : ℝ) (weights : List ℝ) (hp : Complete p first spacing weights)
    (hW : ∀ w ∈ weights, 0 ≤ w ∧ w ≤ W)
    (argsort : List ℝ → List ℕ) (round : ℝ → ℤ) (junk : ℕ → ℂ) (c : Conf) (bursts : ℕ → L1A) (s : Surf) (prev : ℕ) (looks : Looks)
    (hw : WellMade c bursts looks) (r : Result) (h : surfaceAw true p argsort round junk c bursts s prev looks = .ok (some r))
    (hout : (∀ row ∈ r.gathered.rows, row.pointing ≤ first ∨ first + spacing * 249 ≤ row.pointing) ∨
      ∃ w, weights = List.replicate 250 w)
    (E : ℝ) (hE0 : 0 ≤ E) (hE : ∀ l ∈ looks, energy c (bursts l.2.2) ≤ E) (k : ℕ) (y : ℝ)
    (hy : r.out.waveform[k]? = some (some y)) : 0 ≤ y ∧ y ≤ W * (E / c.zp) := by
  have hM : (0 : ℝ) ≤ E / c.zp := by positivity
  have hsel : ∀ a w, (a ≤ first ∨ first + spacing * 249 ≤ a) ∨ (∃ w, weights = List.replicate 250 w) →
      weightOf p a = .ok w → w ∈ weights := by
    intro a w ha hw
    have hlen := hp.2.1
    rw [weightOf_complete p first spacing weights hp] at hw
    rcases ha with ha | ⟨v, rfl⟩
    · have f1 : (grid 250 first spacing).head? = some first := by
        unfold grid; rw [show 250 = 249 + 1 from rfl, List.range_succ_eq_map]; simp
      have f2 : (grid 250 first spacing).getLast? = some (first + spacing * 249) := by
        unfold grid; rw [show 250 = 249 + 1 from rfl, List.range_succ]; simp
      have hne : weights ≠ [] := by rintro rfl; simp at hlen
      obtain ⟨w1, w2⟩ := Multilook.weight_outside_partial (grid 250 first spacing) weights spacing a first (first + spacing * 249)
        (weights.head hne) (weights.getLast hne) f1 f2 (List.head?_eq_some_head hne) (List.getLast?_eq_some_getLast hne)
      by_cases hc : a ≤ first
      · rw [w1 hc] at hw
        cases hw
        exact List.head_mem hne
      · rw [w2 (not_le.1 hc) (ha.resolve_left hc)] at hw
        cases hw
        exact List.getLast_mem hne
    · have := Multilook.constant_weights_partial 249 first spacing v a hp.1
      have hw' : Multilook.selectWeight (grid 250 first spacing) (List.replicate 250 v) spacing a = .ok v := this
      rw [hw'] at hw
      cases hw
      exact List.mem_replicate.2 ⟨by norm_num, rfl⟩
  unfold surfaceAw at h
  cases hs : surface argsort round junk c bursts s prev looks with
  | error => rw [hs] at h; cases h
  | ok o =>
    rw [hs] at h
    cases o with
    | none => cases h
    | some r0 =>
      dsimp only at h
      unfold applyWeighting at h
      rw [if_pos rfl] at h
      cases hb : weigh p (lookBeams r0.gathered.rows r0.masked) with
      | error => rw [hb] at h; cases h
      | ok beams =>
        rw [hb] at h
        cases h
        obtain ⟨es, he, hg, _, hm, _, ho⟩ := surface_made argsort round junk c bursts s prev looks r0 hs
        obtain ⟨ws, w1, rfl⟩ := weigh_weights p _ _ hb
        have hpow := look_powers argsort round junk c bursts s prev looks hw es he _ hg _ hm E hE0 hE
        have hpt : ∀ b ∈ lookBeams r0.gathered.rows r0.masked, ∃ row ∈ r0.gathered.rows, row.pointing = b.pointing := by
          intro b hb
          have : b.pointing ∈ (lookBeams r0.gathered.rows r0.masked).map (·.pointing) := List.mem_map_of_mem hb
          rwa [beams_pointing, List.mem_map] at this
        refine compute_between _ _ _ (W * (E / c.zp)) _ ?_ k y hy
        dsimp only at hout
        clear hy hb ho hm hg he hs
        generalize lookBeams r0.gathered.rows r0.masked = bs at w1 hpow hpt
        induction w1 with
        | nil => intro b hb; simp at hb
        | @cons b w bs ws hbw _ ih =>
          intro x hx v hv
          simp only [List.zipWith_cons_cons, List.mem_cons] at hx
          rcases hx with rfl | hx
          · simp only [weightBeam, List.mem_map] at hv
            obtain ⟨q, hq, rfl⟩ := hv
            obtain ⟨q1, q2⟩ := hpow b (by simp) q hq
            have hmem : w ∈ weights := by
              refine hsel b.pointing w ?_ hbw
              rcases hout with hout | hout
              · obtain ⟨row, r1, r2⟩ := hpt b (by simp)
                left
                rw [← r2]
                exact hout row r1
              · exact .inr hout
            obtain ⟨u1, u2⟩ := hW w hmem
            refine ⟨mul_nonneg q1 u1, ?_⟩
            rw [mul_comm W]
            exact mul_le_mul q2 u2 u1 hM
          · exact ih (fun b hb => hpow b (by simp [hb])) (fun b hb => hpt b (by simp [hb])) x hx v hv

/-- The hypotheses are met: a pattern of equal weights, and the record of the examples with the weighting on. -/
example (argsort : List ℝ → List ℕ) (ha : IsArgsort argsort) :
    let p : Pattern := ⟨some (grid 250 (-1) (1 / 100)), some (List.replicate 250 2), some (1 / 100)⟩
    Complete p (-1) (1 / 100) (List.replicate 250 2) ∧
    ∃ r, surfaceAw true p argsort nearest (fun _ => 0) awConf (fun _ => demoBurst 1 1) demoSurf 0 [(1, 1, 0)] = .ok (some r) ∧
      r.out.waveform[8]? = some (some (2 * gain awConf)) := by
  have hpi := Real.pi_lt_d2
  have hpi' := Real.pi_gt_d2
  obtain ⟨w, w1, w2, _⟩ := plain_centre argsort ha awConf (by simp [Plain, awConf, demoConf]) (by simp [awConf]) (by simp [awConf])
    rfl (by
      intro lo hi hlo hhi
      simp only [maskConf, awConf, demoConf, Option.some.injEq] at hlo hhi
      subst hlo; subst hhi
      constructor <;> linarith) (by simp [awConf, demoConf])
  have w2 := w2 rfl rfl
  have hc : Complete ⟨some (grid 250 (-1) (1 / 100)), some (List.replicate 250 2), some (1 / 100)⟩ (-1) (1 / 100) (List.replicate 250 2) :=
    ⟨by norm_num, List.length_replicate, rfl⟩
  refine ⟨hc, ?_⟩
  cases hs : surface argsort nearest (fun _ => 0) awConf (fun _ => demoBurst 1 1) demoSurf 0 [(1, 1, 0)] with
  | error e => rw [hs] at w1; cases w1
  | ok o =>
    cases o with
    | none => rw [hs] at w1; cases w1
    | some r =>
      rw [hs] at w1
      have hw : r.out.waveform = w := Option.some.inj w1
      have := uniform_weighting _ _ _ 2 hc argsort nearest (fun _ => 0) awConf (fun _ => demoBurst 1 1) demoSurf 0 [(1, 1, 0)]
      rw [hs] at this
      refine ⟨_, this, ?_⟩
      have h8 : awConf.zp * 4 = 8 := by simp [awConf, demoConf]
      rw [h8] at w2
      dsimp only
      rw [hw, times, List.getElem?_map, w2]
      rfl

/-- The shipped files have no pattern: with the weighting on there is no record for the example, but an error. -/
example (argsort : List ℝ → List ℕ) (ha : IsArgsort argsort) :
    ∃ e, surfaceAw true ⟨none, none, none⟩ argsort (fun x => ⌊x + 1 / 2⌋) (fun _ => 0) (demoConf true) (demoBurst 1) demoSurf 0
      [(0, 0, 0), (1, 1, 1)] = .error e := by
  obtain ⟨r, h, _⟩ := demo_surface true argsort ha 1 one_ne_zero
  exact pattern_needed _ (.inl (fun l h => by cases h)) _ _ _ _ _ _ _ _ (by simp [demoConf]) r h

end Dedop.Chain
