import Verif.Whole.Weighted
import Verif.Whole.Sight
import Verif.Whole.Product
import Verif.Whole.Queue
import Verif.Calib.Sigma0

/-!
# Why a run fails (C173, C174)
-/
namespace Dedop.Whole

open Real Process

/-! ## Specification -/

/-- The satellite of a record is so slow that the echoes of neighbouring pulses cannot be told apart: the cosine
`c / (4 PRI f |v|)` would be larger than 1.  Not in the code: for statements about `beam_angles.py:31-33`. -/
def Slow (c : Conf) (r : Raw) : Prop := ‖r.vel‖ * (4 * c.pri * c.freq) < c.c

/-- Settings without an error of their own: positive constants and sizes, at least two looks, the weighting off or with a complete
antenna pattern, no focusing on a target.  Not in the code: for statements about `processor.py:127-349`. -/
structure Sound (c : Conf) : Prop where
  pri : 0 < c.pri
  freq : 0 < c.freq
  light : 0 < c.c
  looks : 2 ≤ c.looks
  size : 0 < c.samples * c.zp
  radar : c.radar.Valid
  weights : c.weighting = false ∨ ∃ first spacing weights, Chain.Complete c.pattern first spacing weights
  focus : c.focusing = false

/-- The reasons for a failure.  Not in the code: for statements about `processor.py:127-349`.
* The file cannot be opened with these bounds.
* The records end while there are fewer surfaces than the least number.
* A record is slow.
* With the approximate method: a burst sees no surface.
* There are surfaces but the burst is the only one kept; then the stack of a surface written began before that of a surface written
  earlier.
* A record cannot be written, or the files cannot be finished. -/
inductive Reason (c : Conf) (o : World) (file : ℕ → Raw) (n : ℕ) (e : PyErr) (s : State) : Prop
  | input (h : Reader.openDataset c.bounds (positions file n) = .error e)
  | short (h : e = .other "insufficient input records")
  | slow (i : ℕ) (hi : i < n) (ht : s.ctl.trace.getLast? = some (.beams i)) (h : Slow c (file i)) (he : e = .valueError)
  | blind (i : ℕ) (hi : i < n) (ht : s.ctl.trace.getLast? = some (.beams i)) (hm : c.chain.exactMethod = false)
      (h : (s.mem i).angles = []) (he : e = .indexError)
  | dry (p : Pk ℝ) (h : s.ctl.packets = [(p, false)]) (hs : s.surfs ≠ []) (he : e = .indexError)
      (hf : ¬ (firstsOf s.ctl.trace).Pairwise (· ≤ ·))
  | write (r : Record) (h : o.l1bFails r = some e ∨ o.l1bsFails r = some e)
  | finish (h : o.finishFails = some e)

/-! ## The algorithms do not fail -/

/-- A stack with looks from 0 to π has beams to fit. -/
theorem fit_positive (c : Chain.Conf) (rows : List (Stack.Row ℝ (ℕ → ℂ))) (hne : rows ≠ [])
    (hl : rows.length ≤ c.looks) (ha : ∀ r ∈ rows, 0 ≤ r.beamAngle ∧ r.beamAngle ≤ π) :
    0 < Chain.fitCount c rows := by
  have hpos : 0 < rows.length := List.length_pos_iff.2 hne
  unfold Chain.fitCount
  simp only
  set f : ℕ → ℝ := fun i => |π / 2 - ((rows[i]?).map (·.beamAngle)).getD 0| with hf
  have hlt : (((List.range c.looks).argmin f).getD 0) < rows.length := by
    cases h : (List.range c.looks).argmin f with
    | none => simpa using hpos
    | some i =>
      simp only [Option.getD_some]
      by_contra hi
      have hz : f i = π / 2 := by
        simp only [hf, List.getElem?_eq_none (not_lt.1 hi), Option.map_none, Option.getD_none, sub_zero]
        exact abs_of_pos (by positivity)
      have h0 : f 0 ≤ π / 2 := by
        obtain ⟨r, hr⟩ : ∃ r, rows[0]? = some r := ⟨_, List.getElem?_eq_getElem hpos⟩
        obtain ⟨a1, a2⟩ := ha r (List.mem_of_getElem? hr)
        simp only [hf, hr, Option.map_some, Option.getD_some]
        rw [abs_le]; constructor <;> linarith
      have h1 : 0 ∈ List.range c.looks := by simp; omega
      have h2 := (List.mem_argmin_iff.1 h).2.2 0 h1 (by rw [hz]; exact h0)
      have h3 : List.idxOf 0 (List.range c.looks) = 0 := by
        obtain ⟨m, hm⟩ : ∃ m, c.looks = m + 1 := ⟨c.looks - 1, by omega⟩
        rw [hm, List.range_succ_eq_map]
        simp
      rw [h3] at h2
      have h4 : i ∈ List.range c.looks := (List.mem_argmin_iff.1 h).1
      have h5 := List.getElem_idxOf (List.idxOf_lt_length_iff.2 h4)
      have h6 : List.idxOf i (List.range c.looks) = 0 := by omega
      simp only [h6, List.getElem_range] at h5
      omega
  generalize ((List.range c.looks).argmin f).getD 0 = i at hlt
  unfold Multilook.fitWindow
  simp only
  have : min (c.looks : ℤ) (rows.length : ℤ) = rows.length := by omega
  rw [this]
  omega

theorem azimuth_ok (c : Chain.Conf) (b : Chain.L1A) (ht : Azimuth.TrendOk c.pulses (Chain.azBurst c b)) (hne : b.angles ≠ []) :
    ∃ beams, Chain.azimuth c b = .ok beams := by
  unfold Chain.azimuth
  dsimp only
  split
  · exact ⟨_, rfl⟩
  · obtain ⟨a, beams, _, h, _⟩ := Azimuth.approximate_row c.pulses (Chain.azBurst c b)
      (fun p i => b.wfm p i * (c.window p : ℂ)) ht hne
    exact ⟨beams, h⟩

theorem entries_ok (junk : ℕ → ℂ) (c : Conf) (mem : ℕ → Chain.L1A) (hp : c.chain.pulses = c.pulses) (looks : Chain.Looks)
    (h : ∀ l ∈ looks, LookOk c mem l) :
    ∃ es, Chain.entries junk c.chain mem looks = .ok es ∧ Stack.Valid es := by
  induction looks with
  | nil => exact ⟨[], rfl, by intro e he; simp at he⟩
  | cons l rest ih =>
    obtain ⟨i, a, id⟩ := l
    obtain ⟨es, h1, h2⟩ := ih (fun l hl => h l (by simp [hl]))
    obtain ⟨h3, h4⟩ := h (i, a, id) (by simp)
    dsimp only at h3 h4
    obtain ⟨beams, h5⟩ := azimuth_ok c.chain (mem id) (by rw [hp]; exact h4) (by intro h0; rw [h0] at h3; simp at h3)
    refine ⟨⟨i, a, Chain.stackBurst junk c.chain id (mem id) beams⟩ :: es, ?_, ?_⟩
    · rw [Chain.entries, h5, h1]
    · intro e he
      rcases List.mem_cons.1 he with rfl | he
      · refine ⟨h3, ?_⟩
        have h6 : (mem id).angles.length ≤ c.pulses := h4.1
        simp only [Chain.stackBurst, List.length_map, List.length_range]
        omega
      · exact h2 e he

/-- The algorithms for a surface raise nothing if its looks are beams of their bursts between 0 and π. -/
theorem surface_ok (c : Conf) (hp : c.chain.pulses = c.pulses) (hl : 2 ≤ c.chain.looks) (hs : 0 < c.chain.samples * c.chain.zp)
    (argsort : List ℝ → List ℕ) (ha : Stack.IsArgsort argsort) (round : ℝ → ℤ) (junk : ℕ → ℂ) (mem : ℕ → Chain.L1A)
    (f : Chain.Surf) (prev : ℕ) (looks : Chain.Looks) (h : ∀ l ∈ looks, LookOk c mem l)
    (hang : ∀ l ∈ looks, ∀ a, (mem l.2.2).angles[l.1]? = some a → 0 ≤ a ∧ a ≤ π) :
    ∃ r, Chain.surface argsort round junk c.chain mem f prev looks = .ok r := by
  obtain ⟨es, h1, h2⟩ := entries_ok junk c mem hp looks h
  obtain ⟨g, off, g1, g2, g3, g4, g5, g6, g7⟩ := Stack.gather_contiguous argsort ha c.chain.looks (by omega) (π / 2) prev es h2
  unfold Chain.surface
  rw [h1]
  dsimp only
  rw [g1]
  dsimp only
  by_cases hsz : g.size < c.chain.looks / 2
  · rw [if_pos hsz]; exact ⟨_, rfl⟩
  · rw [if_neg hsz]
    have hrow : ∀ row ∈ g.rows, 0 ≤ row.beamAngle ∧ row.beamAngle ≤ π := by
      have h3 : ∀ row ∈ g.rows, ∃ e ∈ es, Stack.gatherRow (π / 2) e = .ok row := by
        unfold Stack.gather at g1
        cases hw : Stack.window argsort c.chain.looks (π / 2) es with
        | error => rw [hw] at g1; cases g1
        | ok w =>
          rw [hw] at g1
          exact loop_rows _ es _ _ _ _ _ g g1 (by simp)
      intro row hrow
      obtain ⟨e, he, hrow'⟩ := h3 row hrow
      obtain ⟨l, hl, beams, hb, rfl⟩ := Chain.entries_mem junk c.chain mem looks es h1 e he
      unfold Stack.gatherRow at hrow'
      split at hrow'
      · rename_i beam a hbeam ha
        cases hrow'
        exact hang l hl a ha
      · cases hrow'
    have hm : ∃ m, Stack.masking round (Chain.maskConf c.chain) (Chain.maskInput c.chain mem f g.rows) = .ok m := by
      cases hen : (Chain.maskConf c.chain).enabled with
      | false =>
        obtain ⟨m, hm, _⟩ := Stack.masking_disabled round (Chain.maskConf c.chain) (Chain.maskInput c.chain mem f g.rows) hen
        exact ⟨m, hm⟩
      | true =>
        obtain ⟨m, hm, _⟩ := Stack.masked_iff_rejected round (Chain.maskConf c.chain) (Chain.maskInput c.chain mem f g.rows) hen hs (by
          refine ⟨?_, by simp [Chain.maskInput], ?_⟩
          · simp only [Chain.maskInput, Chain.maskConf]; omega
          · intro row hrow
            simp only [Chain.maskInput, List.mem_map] at hrow
            obtain ⟨x, _, rfl⟩ := hrow
            simp [Chain.compressed, Chain.maskConf])
        exact ⟨m, hm⟩
    obtain ⟨m, hm⟩ := hm
    rw [hm]
    dsimp only
    have hf := fit_positive c.chain g.rows (by intro h0; rw [h0] at g3; simp at g3; omega) (by omega) hrow
    rw [if_neg (by omega), if_neg (by omega)]
    exact ⟨_, rfl⟩

/-! ## Pieces of an iteration -/

theorem qMin_slow {c : Conf} (hc : Sound c) (r : Raw) (e : PyErr) (h : qMin c ‖r.vel‖ = .error e) : e = .valueError ∧ Slow c r := by
  have hp := hc.pri
  have hf := hc.freq
  have hl := hc.light
  have hd : 0 < 4 * c.pri * c.freq := by positivity
  unfold qMin at h
  rw [if_neg (by rintro (h | h) <;> linarith)] at h
  unfold Slow
  by_cases hv : ‖r.vel‖ = 0
  · rw [if_pos hv] at h
    cases h
    exact ⟨rfl, by rw [hv, zero_mul]; exact hl⟩
  · rw [if_neg hv] at h
    have hv' : 0 < ‖r.vel‖ := lt_of_le_of_ne (norm_nonneg _) (Ne.symm hv)
    split at h
    · cases h
    · rename_i hn
      cases h
      refine ⟨rfl, ?_⟩
      by_contra hs
      refine hn ⟨?_, ?_⟩
      · have : 0 < c.c / c.pri / 4 / c.freq / ‖r.vel‖ := by positivity
        linarith
      · have e1 : c.c / c.pri / 4 / c.freq / ‖r.vel‖ = c.c / (‖r.vel‖ * (4 * c.pri * c.freq)) := by
          rw [div_div, div_div, div_div]; ring_nf
        rw [e1, div_le_one (by positivity)]
        exact not_lt.1 hs

/-- The loop over the packets fails for a slow burst or one which sees nothing. -/
theorem loop_error {c : Conf} (hc : Sound c) (file : ℕ → Raw) (todo : List (Pk ℝ × Bool)) :
    ∀ (done : List (Pk ℝ × Bool)) (s : State) (x : Stop), PrevOk c.pulses s.ctl.sizePrev s.ctl.trendPrev →
      packetLoop c file done todo s = .error x → ∃ p e s', (p, false) ∈ todo ∧ x = .raised e s' ∧
        s'.ctl.trace.getLast? = some (.beams p.counter) ∧
        ((e = .valueError ∧ Slow c (file p.counter)) ∨
          (e = .indexError ∧ c.chain.exactMethod = false ∧ (s'.mem p.counter).angles = [])) := by
  induction todo with
  | nil => intro done s x _ h; cases h
  | cons y todo ih =>
    intro done s x hprev h
    obtain ⟨p, f⟩ := y
    cases f with
    | true =>
      rw [packetLoop] at h
      obtain ⟨p', e, s', h1, h2⟩ := ih _ s x hprev h
      exact ⟨p', e, s', by simp [h1], h2⟩
    | false =>
      rw [packetLoop] at h
      unfold burstBeams at h
      cases hq : qMin c ‖(file p.counter).vel‖ with
      | error e =>
        rw [hq] at h
        cases h
        exact ⟨p, e, _, by simp, rfl, by simp [St.log], Or.inl (qMin_slow hc _ e hq)⟩
      | ok q =>
        rw [hq] at h
        dsimp only at h
        obtain ⟨hlen, hle⟩ := Beams.seen_at_most_pulses c.pulses (view q (doppler c (file p.counter)))
          (fun x => angle (burst c (file p.counter)) (view q (doppler c (file p.counter))) s.surfs x.2)
          (fun x : Beams.Surf (Pk ℝ) × ℕ => x.1.counter) (fun x => x.2 == 0) s.ctl.surfaces.zipIdx
        generalize Beams.beamAngles c.pulses (view q (doppler c (file p.counter)))
          (fun x => angle (burst c (file p.counter)) (view q (doppler c (file p.counter))) s.surfs x.2)
          (fun x : Beams.Surf (Pk ℝ) × ℕ => x.1.counter) (fun x => x.2 == 0) s.ctl.surfaces.zipIdx = out at h hlen hle
        have ht := trend_ok c.pulses s.ctl.sizePrev s.ctl.trendPrev out.angles.length hprev
        generalize Beams.trend c.pulses s.ctl.sizePrev s.ctl.trendPrev out.angles.length = tr at h ht
        rw [Function.update_self] at h
        cases haz : Chain.azimuth c.chain { s.mem p.counter with angles := out.angles, trend := tr } with
        | error e =>
          rw [haz] at h
          cases h
          have hne : out.angles = [] := by
            by_contra hne
            obtain ⟨beams, hb⟩ := azimuth_ok c.chain { s.mem p.counter with angles := out.angles, trend := tr }
              ⟨hle, ht.1, ht.2⟩ hne
            rw [hb] at haz
            cases haz
          have hex : c.chain.exactMethod = false := by
            cases hex : c.chain.exactMethod with
            | false => rfl
            | true =>
              unfold Chain.azimuth at haz
              rw [hex] at haz
              cases haz
          refine ⟨p, e, _, by simp, rfl, by simp [St.log], Or.inr ⟨?_, hex, by simp [hne]⟩⟩
          unfold Chain.azimuth at haz
          dsimp only at haz
          rw [hex, if_neg (by simp), Azimuth.approximate_empty_list_fails _ _ _ ht.2 hne] at haz
          cases haz
          rfl
        | ok beams =>
          rw [haz] at h
          dsimp only at h
          split at h
          · obtain ⟨p', e, s', h1, h2⟩ := ih _ _ x (by
              right
              have hz : tr = 0 ↔ (out.angles.length : ℤ) = c.pulses := ht.1.trans (by exact_mod_cast Iff.rfl)
              exact ⟨hz, ht.2⟩) h
            exact ⟨p', e, s', by simp [h1], h2⟩
          · cases h

/-- Looking for a new surface fails only if the bursts before are gone. -/
theorem locations_error (c : Conf) (file : ℕ → Raw) (s s' : State) (p : Pk ℝ) (force : Bool) (e : PyErr)
    (h : surfaceLocations c file s p force = .error (.raised e s')) :
    e = .indexError ∧ s'.ctl.packets = [(p, false)] ∧ s'.surfs ≠ [] ∧ s.ctl.packets = [] ∧ s'.surfs = s.surfs ∧
      s.ctl.trace <+: s'.ctl.trace := by
  unfold surfaceLocations at h
  dsimp only at h
  cases hst : Surface.step c.surface s.alg s.surfs (s.ctl.packets.map (fun x => burst c (file x.1.counter)))
      (burst c (file p.counter)) force with
  | nan => rw [hst] at h; cases h
  | ok a l new => rw [hst] at h; cases new <;> cases h
  | err e' =>
    rw [hst] at h
    cases h
    unfold Surface.step Surface.call at hst
    cases hl : Surface.locate c.surface s.alg s.surfs
        (s.ctl.packets.map (fun x => burst c (file x.1.counter)) ++ [burst c (file p.counter)]) force with
    | ok r =>
      rw [hl] at hst
      cases r with
      | nan => cases hst
      | val v =>
        cases v with
        | none => cases hst
        | some l =>
          dsimp only at hst
          cases hf : Surface.focusStep c.surface { s.alg with loc := l } s.surfs with
          | nan => rw [hf] at hst; cases hst
          | val y => rw [hf] at hst; cases hst
    | error e'' =>
      rw [hl] at hst
      cases hst
      unfold Surface.locate at hl
      by_cases hs : s.surfs = [] ∨ force = true
      · rw [if_pos hs] at hl
        simp at hl
      · rw [if_neg hs] at hl
        rw [not_or] at hs
        cases hp : s.ctl.packets with
        | nil =>
          rw [hp] at hl
          simp only [List.map_nil, List.nil_append, List.reverse_singleton] at hl
          have : e = .indexError := by
            split at hl
            · simp_all
            · cases hl; rfl
          exact ⟨this, by simp [St.log, hp], hs.1, rfl, rfl, by simp [St.log]⟩
        | cons y ys =>
          exfalso
          obtain ⟨f, hf⟩ : ∃ f, s.surfs.getLast? = some f := by
            cases h0 : s.surfs.getLast? with
            | none => exact absurd (List.getLast?_eq_none_iff.1 h0) hs.1
            | some f => exact ⟨f, rfl⟩
          obtain ⟨b, bs, hb⟩ : ∃ b bs, (s.ctl.packets.map (fun x => burst c (file x.1.counter))).reverse = b :: bs := by
            cases h0 : (s.ctl.packets.map (fun x => burst c (file x.1.counter))).reverse with
            | nil => simp [hp] at h0
            | cons b bs => exact ⟨b, bs, rfl⟩
          rw [List.reverse_append, hf] at hl
          simp only [List.reverse_singleton, List.singleton_append, hb] at hl
          cases hl

/-- The sigma0 factors exist for a surface with looks in view. -/
theorem sigma0_ok {c : Conf} (hc : Sound c) (o : World) (file : ℕ → Raw) (ids : List ℕ) (s : State) (hm : Made c file s)
    (hk : Known ids s) (w : Beams.Surf (Pk ℝ)) (hw : w ∈ s.ctl.surfaces) (f : Surface.Surf)
    (ha : ∀ l ∈ looksOf w, Points c file s.mem f.loc.surf l) (prev : ℕ) (r : Chain.Result)
    (h : Chain.surface o.argsort o.round o.junk c.chain s.mem (place f) prev (looksOf w) = .ok (some r)) :
    ∃ g, sigma0 c file s.mem f r = some g := by
  have hrows := rows_from_looks _ _ _ _ _ _ _ _ _ h
  have hne := surface_rows h hc.looks
  have hv : ∀ l ∈ r.gathered.rows.map (fun row =>
      (⟨Signal.rangeSatSurf (Chain.geo c.chain (place f) (s.mem row.burst) row), (s.mem row.burst).velocity,
        (s.mem row.burst).pri⟩ : Calib.Look)), l.Valid := by
    intro l hl
    obtain ⟨row, hrow, rfl⟩ := List.mem_map.1 hl
    obtain ⟨l, hl, b1, b2⟩ := hrows row hrow
    obtain ⟨a, a1, a2, _⟩ := ha l hl
    obtain ⟨p1, p2, _⟩ := beamAngle_eq _ _ _ _ a2
    have hread := ((hk w hw).2 l.2.2 (mem_looksOf hl)).1
    have hbody := hm.bodies _ hread
    have hbase : ∀ k, (base c file k l.2.2).velocity = ‖(file l.2.2).vel‖ ∧ (base c file k l.2.2).pri = c.pri ∧
        (base c file k l.2.2).sat = (burst c (file l.2.2)).sat.ofLp := by
      intro k
      induction k with
      | zero => exact ⟨rfl, rfl, rfl⟩
      | succ k ih => rw [base_succ]; exact ih
    obtain ⟨k1, k2, k3⟩ := hbase ((calibratedOf s.ctl.trace).count l.2.2)
    rw [← hbody] at k1 k2 k3
    have k1 : (s.mem l.2.2).velocity = ‖(file l.2.2).vel‖ := k1
    have k2 : (s.mem l.2.2).pri = c.pri := k2
    have k3 : (s.mem l.2.2).sat = (burst c (file l.2.2)).sat.ofLp := k3
    rw [b1]
    refine ⟨?_, ?_, ?_⟩
    · dsimp only
      unfold Signal.rangeSatSurf
      rw [Real.sqrt_pos]
      simp only [Chain.geo, place, k3]
      by_contra hle
      rw [not_lt] at hle
      refine p1 ?_
      have q0 : ∀ i : Fin 3, f.loc.surf.ofLp i = (burst c (file l.2.2)).sat.ofLp i := by
        intro i
        have s0 := sq_nonneg ((burst c (file l.2.2)).sat.ofLp 0 - f.loc.surf.ofLp 0)
        have s1 := sq_nonneg ((burst c (file l.2.2)).sat.ofLp 1 - f.loc.surf.ofLp 1)
        have s2 := sq_nonneg ((burst c (file l.2.2)).sat.ofLp 2 - f.loc.surf.ofLp 2)
        have z : ∀ x y : ℝ, (x - y) ^ 2 ≤ 0 → y = x := by
          intro x y h
          have := pow_eq_zero_iff (two_ne_zero) |>.1 (le_antisymm h (sq_nonneg (x - y)))
          linarith
        fin_cases i
        · exact z ((burst c (file l.2.2)).sat.ofLp 0) (f.loc.surf.ofLp 0) (by linarith)
        · exact z ((burst c (file l.2.2)).sat.ofLp 1) (f.loc.surf.ofLp 1) (by linarith)
        · exact z ((burst c (file l.2.2)).sat.ofLp 2) (f.loc.surf.ofLp 2) (by linarith)
      ext i
      exact q0 i
    · dsimp only; rw [k1]; exact norm_pos_iff.2 p2
    · dsimp only; rw [k2]; exact hc.pri
  unfold sigma0
  obtain ⟨fs, m, h1, _⟩ := Calib.sigma0_mean c.radar hc.radar
    (((r.gathered.rows[r.gathered.closest]?).map (fun row => (file row.burst).agc)).getD 0) _ hv (by
      intro h0
      have h0 := List.map_eq_nil_iff.1 h0
      rw [h0] at hne
      simp at hne)
  exact ⟨_, h1⟩

/-- What can go wrong in an iteration begun in a state. -/
def Wrong (c : Conf) (o : World) (file : ℕ → Raw) (ids : List ℕ) (s0 : State) (x : Stop) : Prop :=
  match x with
  | .nan _ => True
  | .raised e s =>
    e = .other "insufficient input records" ∨
    (∃ i ∈ ids, s.ctl.trace.getLast? = some (.beams i) ∧ Slow c (file i) ∧ e = .valueError) ∨
    (∃ i ∈ ids, s.ctl.trace.getLast? = some (.beams i) ∧ c.chain.exactMethod = false ∧ (s.mem i).angles = [] ∧ e = .indexError) ∨
    (∃ p, s.ctl.packets = [(p, false)] ∧ s.surfs ≠ [] ∧ e = .indexError ∧ s0.ctl.packets = [] ∧ s.surfs = s0.surfs ∧
      s0.ctl.trace <+: s.ctl.trace) ∨
    ∃ r, o.l1bFails r = some e ∨ o.l1bsFails r = some e

/-- The end of the processing of a surface fails only in writing. -/
theorem finish_error {c : Conf} (hc : Sound c) (o : World) (ho : Stack.IsArgsort o.argsort) (file : ℕ → Raw) (ids : List ℕ) (s : State)
    (hm : Made c file s) (hi : Inv s) (hk : Known ids s) (ha : Sighted c file s) (hne : s.ctl.surfaces ≠ []) (x : Stop)
    (h : finishSurface c o file s = .error x) (s0 : State) : Wrong c o file ids s0 x := by
  unfold finishSurface at h
  cases hw : s.ctl.surfaces with
  | nil => exact absurd hw hne
  | cons w rest =>
    cases hf : s.surfs with
    | nil =>
      have := hi.len
      rw [hf, hw] at this
      simp at this
    | cons f fs =>
      rw [hw, hf] at h
      dsimp only at h
      have hfoc : f.focused = false := by
        have h1 := ha.few
        have h2 : moves c s = 0 := by unfold moves; rw [hc.focus]; simp
        have h3 : movedIn s.surfs = 0 := by omega
        unfold movedIn at h3
        rw [List.countP_eq_zero] at h3
        have := h3 f (by rw [hf]; simp)
        simpa using this
      have hpts : ∀ l ∈ looksOf w, Points c file s.mem f.loc.surf l := fun l hl =>
        ha.aim 0 w f (by rw [hw]; rfl) (by rw [hf]; rfl) hfoc l hl
      have hwm : w ∈ s.ctl.surfaces := by rw [hw]; simp
      obtain ⟨r, hr⟩ := surface_ok c rfl hc.looks hc.size o.argsort ho o.round o.junk s.mem (place f) s.closest (looksOf w)
        (hm.looks w hwm) (by
          intro l hl a ha'
          obtain ⟨b, b1, b2, _⟩ := hpts l hl
          rw [b1] at ha'
          cases ha'
          obtain ⟨_, _, rfl⟩ := beamAngle_eq _ _ _ _ b2
          exact ⟨InnerProductGeometry.angle_nonneg _ _, InnerProductGeometry.angle_le_pi _ _⟩)
      have hAw : ∃ r', Chain.surfaceAw c.weighting c.pattern o.argsort o.round o.junk c.chain s.mem (place f) s.closest (looksOf w) =
          .ok r' := by
        unfold Chain.surfaceAw
        rw [hr]
        cases r with
        | none => exact ⟨_, rfl⟩
        | some r =>
          dsimp only
          have : ∃ beams, Chain.applyWeighting c.weighting c.pattern (Chain.lookBeams r.gathered.rows r.masked) = .ok beams := by
            unfold Chain.applyWeighting
            rcases hc.weights with h0 | ⟨first, spacing, weights, h0⟩
            · rw [h0]; exact ⟨_, rfl⟩
            · split
              · exact weigh_ok c.pattern (fun x => by
                  obtain ⟨w, hw⟩ := weight_exists c.pattern first spacing weights h0 x
                  first | exact ⟨w, hw⟩ | exact ⟨w, hw.1⟩ | exact ⟨w, hw.2⟩) _
              · exact ⟨_, rfl⟩
          obtain ⟨beams, hb⟩ := this
          rw [hb]
          exact ⟨_, rfl⟩
      obtain ⟨r', hr'⟩ := hAw
      rw [hr'] at h
      cases r' with
      | none => cases h
      | some r' =>
        dsimp only at h
        obtain ⟨r0, h0, e0⟩ := Chain.surfaceAw_ok_some hr'
        obtain ⟨g, hg⟩ := sigma0_ok hc o file ids s hm hk w hwm f hpts s.closest r0 h0
        have hg' : sigma0 c file s.mem f r' = some g := by
          rw [e0]
          exact hg
        rw [hg'] at h
        dsimp only at h
        unfold writeSurface at h
        cases h1 : o.l1bFails ⟨w.counter, f.loc, r', g⟩ with
        | some e =>
          rw [h1] at h
          cases h
          exact Or.inr (Or.inr (Or.inr (Or.inr ⟨_, Or.inl h1⟩)))
        | none =>
          rw [h1] at h
          dsimp only at h
          have hclear : ∀ t : State, ∀ x, clearOld w t ≠ .error x := by
            intro t x hx
            unfold clearOld Process.clearOld at hx
            have hb : w.bursts ≠ [] := by
              intro h2
              have h3 := surface_rows h0 hc.looks
              obtain ⟨row, hrow⟩ := List.exists_mem_of_length_pos h3
              obtain ⟨l, hl, _⟩ := rows_from_looks _ _ _ _ _ _ _ _ _ h0 row hrow
              have := mem_looksOf hl
              simp [stackIds, h2] at this
            cases hb' : w.bursts with
            | nil => exact hb hb'
            | cons b bs =>
              rw [hb'] at hx
              cases hp : t.ctl.packets with
              | nil => rw [hp] at hx; cases hx
              | cons y ys => rw [hp] at hx; cases hx
          unfold writeL1bs at h
          split at h
          · rename_i x' hx'
            cases h
            split at hx'
            · cases hx'
            · split at hx'
              · rename_i e he
                cases hx'
                exact Or.inr (Or.inr (Or.inr (Or.inr ⟨_, Or.inr he⟩)))
              · cases hx'
          · exact absurd h (hclear _ _)

theorem read_error (c : Conf) (file : ℕ → Raw) (s : State) (hno : ∀ e, .failure e ∉ s.ctl.rest) (x : Stop)
    (h : readNext c file s = .error x) : ∃ s', x = .raised (.other "insufficient input records") s' := by
  unfold readNext Process.readNext at h
  cases hr : s.ctl.rest with
  | nil =>
    rw [hr] at h
    dsimp only at h
    split at h
    · rename_i e t ht
      split at ht
      · cases ht
      · cases ht; cases h; exact ⟨_, rfl⟩
    · cases h
  | cons y rest =>
    cases y with
    | failure e => exact absurd (by rw [hr]; simp) (hno e)
    | invalid => rw [hr] at h; cases h
    | record p => rw [hr] at h; cases h

theorem input_error (c : Conf) (o : World) (file : ℕ → Raw) (ids : List ℕ) (s : State) (hno : ∀ e, .failure e ∉ s.ctl.rest) (x : Stop)
    (h : inputPhase c file s = .error x) : Wrong c o file ids s x := by
  unfold inputPhase at h
  split at h
  · split at h <;> cases h
  · split at h
    · rename_i y hy
      cases h
      split at hy
      · cases hy
      · obtain ⟨s', rfl⟩ := read_error c file s hno _ hy
        exact Or.inl rfl
    · rename_i s1 hy
      split at h
      · cases h
      · rename_i p hp
        unfold handlePacket at h
        dsimp only at h
        split at h
        · split at h
          · rename_i y hl
            cases y with
            | nan => cases h; trivial
            | raised e s' =>
              cases h
              obtain ⟨h1, h2, h3, h4, h5, h6⟩ := locations_error c file _ s' p _ e hl
              have hr : s1.ctl.packets = s.ctl.packets ∧ s1.surfs = s.surfs ∧ s.ctl.trace <+: s1.ctl.trace := by
                split at hy
                · cases hy; exact ⟨rfl, rfl, List.prefix_refl _⟩
                · obtain ⟨_, _, r3, _, r5, r6⟩ := read_kept c file s s1 hy
                  exact ⟨r3, r5, r6⟩
              refine Or.inr (Or.inr (Or.inr (Or.inl ⟨p, h2, h3, h1, ?_, h5.trans hr.2.1, hr.2.2.trans (List.IsPrefix.trans ?_ h6)⟩)))
              · rw [← hr.1]; exact h4
              · simp [St.log]
          · cases h
        · cases h

/-- An iteration fails for one of the reasons. -/
theorem step_error {c : Conf} (hc : Sound c) (o : World) (ho : Stack.IsArgsort o.argsort) (file : ℕ → Raw) (s0 : State)
    (its : List (Item ℝ)) (hnd : (itemIds its).Nodup) (s : State) (h : Good c o file s0 its s) (hr : s.ctl.running = true)
    (hm : Made c file s) (ha : Sighted c file s) (hno : ∀ e, .failure e ∉ s.ctl.rest) (x : Stop)
    (hs : step c o file s = .error x) : Wrong c o file (itemIds its) s x := by
  unfold step at hs
  have hst : ∀ w ∈ (beginIteration o s).ctl.surfaces, ∀ id ∈ stackIds w, id ∈ readOf (beginIteration o s).ctl.trace :=
    fun w hw id hid => (h.begin.held w hw id hid).2.2.1
  have q1 := fun b s1 => h.input (b := b) (s1 := s1) hr
  have q2 := fun b s1 => input_made c file (itemIds its) hnd (beginIteration o s) s1 b h.begin.ids hst hm.begin
  have q3 := fun b s1 => input_aim c file (itemIds its) hnd (beginIteration o s) s1 b h.begin.ids hst h.begin.inv ha.begin
  have hc1 : ∀ s1, inputPhase c file (beginIteration o s) = .ok (false, s1) → Ctl1 s1.ctl := by
    intro s1 h1
    obtain ⟨f1, f2, f3, f4, f5, f6, f7, f8⟩ := begin_facts o s
    have hk : (beginIteration o s).ctl.k - 1 = s.ctl.k := by rw [f4]; rfl
    obtain ⟨r1, _⟩ := input_sim c o file (stateAt c o file s0) (beginIteration o s)
      (by rw [f5, f7]; exact fun hg => ((h.loop.ctl hr).resume hg).1) (h.inv.of f1 f5 f6)
      (by rw [hk, h.at_k, f2]) (by rw [hk, h.at_k, f1])
    rw [h1] at r1
    change Process.inputPhase (runEnv c o file s0) (beginIteration o s).ctl = .ok (false, s1.ctl) at r1
    have hrel := inputPhase_rel (runEnv c o file s0) (beginIteration o s).ctl
    rw [r1] at hrel
    exact ((input_ctl _ _ (ctl_begin (runEnv c o file s0) s.ctl (h.loop.ctl hr)) false s1.ctl hrel).2 rfl).1
  cases hin : inputPhase c file (beginIteration o s) with
  | error y =>
    rw [hin] at hs
    cases hs
    have hb : (beginIteration o s).ctl.rest = s.ctl.rest ∧ (beginIteration o s).ctl.packets = s.ctl.packets ∧
        s.ctl.trace <+: (beginIteration o s).ctl.trace := by
      unfold beginIteration
      dsimp only
      split
      · exact ⟨rfl, rfl, by simp [St.log]⟩
      · exact ⟨rfl, rfl, by simp [St.log]⟩
    have q := input_error c o file (itemIds its) (beginIteration o s) (by rw [hb.1]; exact hno) _ hin
    cases x with
    | nan s' => trivial
    | raised e s' =>
      rcases q with q | q | q | ⟨p, h1, h2, h3, h4, h5, h6⟩ | q
      · exact Or.inl q
      · exact Or.inr (Or.inl q)
      · exact Or.inr (Or.inr (Or.inl q))
      · exact Or.inr (Or.inr (Or.inr (Or.inl ⟨p, h1, h2, h3, by rw [← hb.2.1]; exact h4, h5, hb.2.2.trans h6⟩)))
      · exact Or.inr (Or.inr (Or.inr (Or.inr q)))
  | ok y =>
    obtain ⟨b, s1⟩ := y
    rw [hin] at hs
    obtain ⟨m1, m2, _⟩ := q1 b s1 hin
    have hm1 := q2 b s1 hin
    have ha1 := q3 b s1 hin
    cases b with
    | true => cases hs
    | false =>
      dsimp only at hs
      have hctl := hc1 s1 hin
      cases hsp : surfacePhase c o file s1 with
      | error y =>
        rw [hsp] at hs
        cases hs
        unfold surfacePhase at hsp
        by_cases hcond : s1.ctl.surfaceProcessing = true ∨ minSurfs ≤ s1.ctl.surfaces.length ∨ s1.ctl.gapProcessing = true
        · rw [if_pos hcond] at hsp
          cases hw : s1.ctl.surfaces with
          | nil =>
            exfalso
            rcases hcond with h1 | h1 | h1
            · exact hctl.surf h1 hw
            · rw [hw] at h1; simp [minSurfs] at h1
            · exact (hctl.gap h1).1 hw
          | cons w rest =>
            rw [hw] at hsp
            dsimp only at hsp
            obtain ⟨n1, n2⟩ := m1.apart hnd
            cases hl : packetLoop c file [] s1.ctl.packets s1.begun with
            | error y =>
              rw [hl] at hsp
              cases hsp
              obtain ⟨p, e, s', h1, rfl, h3, h4⟩ := loop_error hc file _ [] s1.begun _ hm1.prev hl
              have hp : p.counter ∈ itemIds its := by
                have k1 : p.counter ∈ unprocessed s1.ctl := by
                  unfold unprocessed
                  exact List.mem_map.2 ⟨(p, false), List.mem_filter.2 ⟨h1, rfl⟩, rfl⟩
                have k2 : p.counter ∈ acceptedOf s1.ctl.trace := m1.ids.beams.subset (List.mem_append_right _ k1)
                have k3 : p.counter ∈ readOf s1.ctl.trace := by rw [m1.ids.pend]; exact List.mem_append_left _ k2
                rw [← m1.ids.all]
                exact List.mem_append_left _ k3
              rcases h4 with ⟨h5, h6⟩ | ⟨h5, h6, h7⟩
              · exact Or.inr (Or.inl ⟨_, hp, h3, h6, h5⟩)
              · exact Or.inr (Or.inr (Or.inl ⟨_, hp, h3, h6, h7, h5⟩))
            | ok s2 =>
              rw [hl] at hsp
              dsimp only at hsp
              have hI : Inv s1.begun := m1.inv.of rfl rfl rfl
              have hS : (afterInput c o file (stateAt c o file s0 (s1.begun.ctl.k - 1))).surfs = s1.begun.surfs := by
                change (afterInput c o file (stateAt c o file s0 (s1.ctl.k - 1))).surfs = s1.surfs
                rw [m2]
              have hmb : Made c file s1.begun := hm1.of (fun w hw => Or.inl hw) rfl rfl rfl rfl rfl
              have hm2 := (loop_made c o file (stateAt c o file s0) s1.ctl.packets [] s1.begun s2 hI hS n1 n2 hmb hl).1
              have ha2 := loop_aim c o file (stateAt c o file s0) s1.ctl.packets [] s1.begun s2 hI hS n1 n2 hmb
                (ha1.keep (s' := s1.begun) ⟨rfl, rfl, rfl, rfl, fun _ _ _ _ => rfl⟩) hl
              have h2 := mid_loop (s2 := s2) m1 m2 hl
              refine finish_error hc o ho file _ s2 hm2 h2.inv (h2.known hnd) ha2 ?_ _ hsp s
              have hsame : s2.surfs = s1.surfs := ((loop_sim c o file (stateAt c o file s0) s1.ctl.packets [] s1.begun hI hS).2 s2 hl).2
              intro h0
              have l1 := h2.inv.len
              have l2 := m1.inv.len
              rw [hsame, h0, l2, hw] at l1
              simp at l1
        · rw [if_neg hcond] at hsp
          cases hsp
      | ok s2 =>
        rw [hsp] at hs
        dsimp only at hs
        exfalso
        have r1 := (surface_sim c o file (stateAt c o file s0) s1 m1.inv m2).1
        rw [hsp] at r1
        change Process.surfacePhase (runEnv c o file s0) s1.ctl = .ok s2.ctl at r1
        have hrel := surfacePhase_rel (runEnv c o file s0) s1.ctl
        rw [r1] at hrel
        obtain ⟨e1, _, e3, _⟩ := surf_ctl _ _ _ hrel
        unfold endPhase Process.endPhase at hs
        split at hs
        · rename_i e t ht
          split at ht
          · split at ht
            · rename_i hg
              rw [e1] at hg
              have hsub := (hctl.gap hg).2.1
              rw [← e3] at hsub
              dsimp only at ht
              rw [if_pos hsub] at ht
              cases ht
            · cases ht
          · cases ht
        · cases hs

/-! ## Slow bursts are not passed -/

theorem loop_fast {c : Conf} (hc : Sound c) (file : ℕ → Raw) (todo : List (Pk ℝ × Bool)) :
    ∀ (done : List (Pk ℝ × Bool)) (s s' : State), packetLoop c file done todo s = .ok s' →
      ∀ i ∈ beamsOf s'.ctl.trace, i ∈ beamsOf s.ctl.trace ∨ ¬ Slow c (file i) := by
  induction todo with
  | nil => intro done s s' h i hi; cases h; exact Or.inl hi
  | cons y todo ih =>
    intro done s s' h i hi
    obtain ⟨p, f⟩ := y
    cases f with
    | true => rw [packetLoop] at h; exact ih _ s s' h i hi
    | false =>
      rw [packetLoop] at h
      unfold burstBeams at h
      cases hq : qMin c ‖(file p.counter).vel‖ with
      | error e => rw [hq] at h; cases h
      | ok q =>
        rw [hq] at h
        dsimp only at h
        have hfast : ¬ Slow c (file p.counter) := by
          obtain ⟨v0, v1, _⟩ := qMin_ok (norm_nonneg _) hq
          have hp := hc.pri
          have hf := hc.freq
          have hv : 0 < ‖(file p.counter).vel‖ := lt_of_le_of_ne (norm_nonneg _) (Ne.symm v0)
          have := (abs_le.1 v1).2
          rw [div_le_one (by positivity)] at this
          unfold Slow
          linarith
        cases haz : Chain.azimuth c.chain (Function.update s.mem p.counter _ p.counter) with
        | error e => rw [haz] at h; cases h
        | ok beams =>
          rw [haz] at h
          dsimp only at h
          have one : ∀ i, i ∈ beamsOf (s.ctl.trace ++ [.beams p.counter]) → i ∈ beamsOf s.ctl.trace ∨ ¬ Slow c (file i) := by
            intro i hi
            rw [beamsOf_append] at hi
            rcases List.mem_append.1 hi with hi | hi
            · exact Or.inl hi
            · simp [beamsOf] at hi
              subst hi
              exact Or.inr hfast
          split at h
          · rcases ih _ _ s' h i hi with h1 | h1
            · exact one i h1
            · exact Or.inr h1
          · cases h
            exact one i hi

theorem input_beams (c : Conf) (file : ℕ → Raw) (s s' : State) (b : Bool) (h : inputPhase c file s = .ok (b, s')) :
    beamsOf s'.ctl.trace = beamsOf s.ctl.trace := by
  unfold inputPhase at h
  split at h
  · split at h <;> cases h
    · simp [St.log, beamsOf]
    · rfl
  · have hr : ∀ s1, (if s.ctl.gapResume = true then (.ok s : Out State) else readNext c file s) = .ok s1 →
        beamsOf s1.ctl.trace = beamsOf s.ctl.trace := by
      intro s1 h1
      split at h1
      · cases h1; rfl
      · unfold readNext Process.readNext at h1
        cases hr : s.ctl.rest with
        | nil =>
          rw [hr] at h1
          dsimp only at h1
          cases hp : s.ctl.surfaceProcessing <;> rw [hp] at h1 <;> cases h1
          simp [St.log, beamsOf]
        | cons y rest =>
          rw [hr] at h1
          cases y with
          | failure e => cases h1
          | invalid => cases h1; simp [St.log, beamsOf]
          | record p => cases h1; simp [St.log, beamsOf]
    revert hr h
    generalize (if s.ctl.gapResume = true then (.ok s : Out State) else readNext c file s) = r
    intro h hr
    cases r with
    | error x => cases h
    | ok s1 =>
      rw [← hr s1 rfl]
      dsimp only at h
      split at h
      · cases h; rfl
      · rename_i p hp
        unfold handlePacket at h
        dsimp only at h
        split at h
        · split at h
          · cases h
          · rename_i new t hl
            cases h
            unfold surfaceLocations at hl
            dsimp only at hl
            split at hl
            · cases hl
            · cases hl
            · cases hl
              simp [St.log, beamsOf]
            · cases hl
              simp [St.log, beamsOf]
        · cases h
          simp [St.log, beamsOf]

theorem finish_beams (c : Conf) (o : World) (file : ℕ → Raw) (s s' : State) (h : finishSurface c o file s = .ok s') :
    beamsOf s'.ctl.trace = beamsOf s.ctl.trace := by
  have hclear : ∀ w (t t' : State), clearOld w t = .ok t' → beamsOf t'.ctl.trace = beamsOf t.ctl.trace := by
    intro w t t' ht
    have q := clear_ends w t
    rw [ht] at q
    rw [q.2.2.1]
  unfold finishSurface at h
  cases hw : s.ctl.surfaces with
  | nil => rw [hw] at h; cases h
  | cons w rest =>
    cases hf : s.surfs with
    | nil => rw [hw, hf] at h; cases h
    | cons f fs =>
      rw [hw, hf] at h
      dsimp only at h
      split at h
      · cases h
      · cases h
        simp [St.log, beamsOf]
      · split at h
        · cases h
        · unfold writeSurface at h
          split at h
          · cases h
          · unfold writeL1bs at h
            split at h
            · cases h
            · rename_i t ht
              rw [hclear _ _ _ h]
              split at ht
              · cases ht
                simp [St.log, beamsOf]
              · split at ht
                · cases ht
                · cases ht
                  simp [St.log, beamsOf]

/-- An iteration which does not fail forms beams only of bursts which are not slow. -/
theorem step_fast {c : Conf} (hc : Sound c) (o : World) (file : ℕ → Raw) (s s' : State) (h : step c o file s = .ok s') :
    ∀ i ∈ beamsOf s'.ctl.trace, i ∈ beamsOf s.ctl.trace ∨ ¬ Slow c (file i) := by
  have hb : beamsOf (beginIteration o s).ctl.trace = beamsOf s.ctl.trace := by
    unfold beginIteration
    dsimp only
    split <;> simp [St.log, beamsOf]
  rw [← hb]
  unfold step at h
  generalize beginIteration o s = s0 at h
  cases hin : inputPhase c file s0 with
  | error y => rw [hin] at h; cases h
  | ok y =>
    obtain ⟨b, s1⟩ := y
    rw [hin] at h
    rw [← input_beams c file s0 s1 b hin]
    cases b with
    | true => cases h; exact fun i hi => Or.inl hi
    | false =>
      dsimp only at h
      cases hsp : surfacePhase c o file s1 with
      | error y => rw [hsp] at h; cases h
      | ok s2 =>
        rw [hsp] at h
        dsimp only at h
        have he : beamsOf s'.ctl.trace = beamsOf s2.ctl.trace := by
          unfold endPhase at h
          split at h
          · cases h
          · rename_i t ht
            cases h
            unfold Process.endPhase at ht
            split at ht
            · split at ht
              · dsimp only at ht
                split at ht
                · cases ht
                  simp [St.log, beamsOf]
                · cases ht
              · cases ht; rfl
            · cases ht; rfl
        rw [he]
        unfold surfacePhase at hsp
        split at hsp
        · cases hw : s1.ctl.surfaces with
          | nil => rw [hw] at hsp; cases hsp
          | cons w rest =>
            rw [hw] at hsp
            dsimp only at hsp
            cases hl : packetLoop c file [] s1.ctl.packets s1.begun with
            | error y => rw [hl] at hsp; cases hsp
            | ok s3 =>
              rw [hl] at hsp
              rw [finish_beams c o file s3 s2 hsp]
              exact loop_fast hc file _ [] s1.begun s3 hl
        · cases hsp
          exact fun i hi => Or.inl hi

/-! ## Runs -/

/-- A run which fails does so in an iteration, or when the files are finished. -/
theorem run_failed (c : Conf) (o : World) (file : ℕ → Raw) (s0 : State) (its : List (Item ℝ)) (P : State → Prop)
    (hP : ∀ s s', Good c o file s0 its s → P s → s.ctl.running = true → step c o file s = .ok s' → P s') :
    ∀ (fuel : ℕ) (s : State), Good c o file s0 its s → P s → ∀ e s', run c o file fuel s = .failed e s' →
      o.finishFails = some e ∨
      ∃ s1, Good c o file s0 its s1 ∧ P s1 ∧ s1.ctl.running = true ∧ step c o file s1 = .error (.raised e s') := by
  intro fuel
  induction fuel with
  | zero => intro s _ _ e s' h; cases h
  | succ fuel ih =>
    intro s hg hp e s' h
    rw [run] at h
    by_cases hr : s.ctl.running = true
    · rw [if_pos hr] at h
      cases hs : step c o file s with
      | error x =>
        rw [hs] at h
        cases x with
        | raised e' s1 => cases h; exact Or.inr ⟨s, hg, hp, hr, hs⟩
        | nan s1 => cases h
      | ok s1 =>
        rw [hs] at h
        exact ih s1 (hg.next hr hs) (hP s s1 hg hp hr hs) e s' h
    · rw [if_neg hr] at h
      cases hf : o.finishFails with
      | none => rw [hf] at h; cases h
      | some e' => rw [hf] at h; cases h; exact Or.inl rfl

theorem items_fine (file : ℕ → Raw) (n : ℕ) (d : Reader.Dataset) (e : PyErr) : Item.failure e ∉ items file n d := by
  unfold items
  intro h
  obtain ⟨x, _, hx⟩ := List.mem_map.1 h
  cases x <;> cases hx

/-- **C173**: a run that fails, fails for one of the reasons. -/
theorem failure_reasons {c : Conf} (hc : Sound c) (o : World) (ho : Stack.IsArgsort o.argsort) (alg : Surface.Alg) (file : ℕ → Raw)
    (n : ℕ) (e : PyErr) (s : State) (h : process c o alg file n = .failed e s) : Reason c o file n e s := by
  unfold process at h
  cases hd : Reader.openDataset c.bounds (positions file n) with
  | error e' =>
    rw [hd] at h
    cases h
    exact .input hd
  | ok d =>
    rw [hd] at h
    dsimp only at h
    obtain ⟨h1, h2⟩ := items_usable file n d hd
    have hnd : (itemIds (items file n d)).Nodup := h1.imp (fun h => Nat.ne_of_lt h)
    have q := run_failed c o file (start alg (items file n d)) (items file n d)
      (fun s => (Made c file s ∧ Sighted c file s ∧ Born c o file (itemIds (items file n d)) s.l1b) ∧ Queued s) ?_ _ _
      (good_start c o file alg (items file n d)) ?_ e s h
    · rcases q with q | ⟨s1, g, ⟨w, hq⟩, hr, hs⟩
      · exact .finish q
      · have hno : ∀ e, Item.failure e ∉ s1.ctl.rest := fun e he => items_fine file n d e (g.loop.fre.rest.subset he)
        rcases step_error hc o ho file _ _ hnd s1 g hr w.1 w.2.1 hno _ hs with r | ⟨i, hi, r1, r2, r3⟩ | ⟨i, hi, r1, r2, r3, r4⟩ |
          ⟨p, r1, r2, r3, r4, r5, r6⟩ | ⟨r, hr⟩
        · exact .short r
        · exact .slow i (h2 i hi).1 r1 r2 r3
        · exact .blind i (h2 i hi).1 r1 r2 r3 r4
        · refine .dry p r1 r2 r3 (fun hf => ?_)
          refine hq.dry r4 ?_ (hf.sublist (r6.sublist.filterMap _))
          intro h0
          have hl := g.inv.len
          rw [h0, ← r5] at hl
          exact r2 (List.length_eq_zero_iff.1 (by simpa using hl))
        · exact .write r hr
    · rintro s s' hg ⟨hw, hq⟩ hr hs
      refine ⟨?_, step_kept h1 hg hr hq hs⟩
      have q := step_ends hnd hg hr hw.1
      have q' := iteration_aim hnd hg hr hw.1 hw.2.1 hw.2.2
      rw [hs] at q q'
      exact ⟨q.2.1, q'⟩
    · refine ⟨⟨⟨?_, Or.inl rfl, ?_⟩, ⟨?_, ?_⟩, ?_⟩, start_kept alg _⟩
      · intro w hw; simp [start, Process.start] at hw
      · intro id hid; simp [start, Process.start, readOf] at hid
      · intro k w f hw; simp [start, Process.start] at hw
      · simp [start, astray, movedIn]
      · intro rec hrec; simp [start] at hrec

/-- A run which is finished formed beams only of bursts which are not slow. -/
theorem run_fast {c : Conf} (hc : Sound c) (o : World) (file : ℕ → Raw) :
    ∀ (fuel : ℕ) (s s' : State), run c o file fuel s = .finished s' →
      ∀ i ∈ beamsOf s'.ctl.trace, i ∈ beamsOf s.ctl.trace ∨ ¬ Slow c (file i) := by
  intro fuel
  induction fuel with
  | zero => intro s s' h; cases h
  | succ fuel ih =>
    intro s s' h i hi
    rw [run] at h
    by_cases hr : s.ctl.running = true
    · rw [if_pos hr] at h
      cases hs : step c o file s with
      | error x => rw [hs] at h; cases x <;> cases h
      | ok s1 =>
        rw [hs] at h
        rcases ih s1 s' h i hi with h1 | h1
        · exact step_fast hc o file s s1 hs i h1
        · exact Or.inr h1
    · rw [if_neg hr] at h
      cases hf : o.finishFails with
      | none =>
        rw [hf] at h
        cases h
        left
        simpa [St.log, beamsOf] using hi
      | some e' => rw [hf] at h; cases h

/-- **C173**: a run that is finished formed no beams of a slow burst. -/
theorem slow_record_fatal {c : Conf} (hc : Sound c) (o : World) (alg : Surface.Alg) (file : ℕ → Raw) (n : ℕ) (s : State)
    (h : process c o alg file n = .finished s) (i : ℕ) (hi : .beams i ∈ s.ctl.trace) : ¬ Slow c (file i) := by
  unfold process at h
  cases hd : Reader.openDataset c.bounds (positions file n) with
  | error e' => rw [hd] at h; cases h
  | ok d =>
    rw [hd] at h
    have hm : i ∈ beamsOf s.ctl.trace := List.mem_filterMap.2 ⟨_, hi, rfl⟩
    rcases run_fast hc o file _ _ s h i hm with h1 | h1
    · simp [start, Process.start, beamsOf] at h1
    · exact h1

/-- **C174**, the part that holds: if no record is slow and nothing fails outside, a run with the exact method is finished, or meets an
undefined number, or the file cannot be opened or is too short, or the stacks of the surfaces written do not begin in order. -/
theorem run_completes_partial {c : Conf} (hc : Sound c) (o : World) (ho : Stack.IsArgsort o.argsort) (alg : Surface.Alg)
    (file : ℕ → Raw) (n : ℕ) (hx : c.chain.exactMethod = true) (hv : ∀ i < n, ¬ Slow c (file i))
    (hw : ∀ r, o.l1bFails r = none ∧ o.l1bsFails r = none) (hf : o.finishFails = none) :
    (∃ s, process c o alg file n = .finished s) ∨ (∃ s, process c o alg file n = .nan s) ∨
    (∃ e s, process c o alg file n = .failed e s ∧
      (Reader.openDataset c.bounds (positions file n) = .error e ∨ e = .other "insufficient input records" ∨
        e = .indexError ∧ ¬ (firstsOf s.ctl.trace).Pairwise (· ≤ ·))) := by
  have ht := whole_terminates c o alg file n
  cases h : process c o alg file n with
  | finished s => exact Or.inl ⟨s, rfl⟩
  | nan s => exact Or.inr (Or.inl ⟨s, rfl⟩)
  | timeout s => exact absurd h (ht.1 s)
  | failed e s =>
    refine Or.inr (Or.inr ⟨e, s, rfl, ?_⟩)
    cases failure_reasons hc o ho alg file n e s h with
    | input h => exact Or.inl h
    | short h => exact Or.inr (Or.inl h)
    | slow i hi ht h he => exact absurd h (hv i hi)
    | blind i hi ht hm h he => rw [hx] at hm; cases hm
    | dry p h hs he hf => exact Or.inr (Or.inr ⟨he, hf⟩)
    | write r h =>
      rcases h with h | h
      · rw [(hw r).1] at h; cases h
      · rw [(hw r).2] at h; cases h
    | finish h => rw [hf] at h; cases h

/-! ## A slow record -/

/-- The file of the example with a first record whose velocity is zero.  Used in the examples only. -/
noncomputable def slowFile (k : ℕ) : Raw := if k = 0 then { demoFile 0 with vel := 0 } else demoFile k

/-- Nothing fails and nothing is cancelled.  Used in the examples only. -/
noncomputable def calmWorld (argsort : List ℝ → List ℕ) : World := { demoWorld argsort with cancelled := fun _ => false }

theorem demo_sound : Sound demoConf := by
  refine ⟨by norm_num [demoConf], by norm_num [demoConf], by norm_num [demoConf], by simp [demoConf], by simp [demoConf], ?_,
    Or.inl rfl, rfl⟩
  exact ⟨by simp [Conf.radar, demoConf], by simp [Conf.radar, demoConf],
    by simp [Conf.radar, demoConf], by simp [Conf.radar, demoConf], by simp [Conf.radar, demoConf], by simp [Conf.radar, demoConf]⟩

theorem slow_only (i : ℕ) : Slow demoConf (slowFile i) ↔ i = 0 := by
  unfold Slow slowFile
  by_cases h : i = 0
  · simp [h, demoConf]
  · have hv : ‖(demoFile i).vel‖ = 1 := demo_vel
    simp only [h, if_false, iff_false, hv]
    norm_num [demoConf]

theorem slow_items : ∃ d, Reader.openDataset demoConf.bounds (positions slowFile 2) = .ok d ∧
    items slowFile 2 d = [.record ⟨0, (slowFile 0).time⟩, .record ⟨1, (slowFile 1).time⟩] := by
  refine ⟨⟨none, 0, 2, 0⟩, rfl, ?_⟩
  unfold items Reader.iterate positions
  simp [List.range', Reader.checkRoi, Reader.isValid, demoFile, slowFile, List.range_succ]

/-- The surface made by the slow burst. -/
noncomputable def slowSurf (alg : Surface.Alg) : Surface.Surf :=
  Surface.makeSurf demoConf.surface (Surface.storeFirst demoConf.surface alg.loc (burst demoConf (slowFile 0)))

theorem slow_step1 (argsort : List ℝ → List ℕ) (alg : Surface.Alg) :
    ∃ tr alg' mem, step demoConf (calmWorld argsort) slowFile
        (start alg [.record ⟨0, (slowFile 0).time⟩, .record ⟨1, (slowFile 1).time⟩]) =
      .ok ⟨⟨1, true, false, some (-1), some (slowFile 0).time, false, false, false, some ⟨0, (slowFile 0).time⟩,
        [.record ⟨1, (slowFile 1).time⟩], [⟨0, [], [], []⟩], [(⟨0, (slowFile 0).time⟩, false)], 1, -1, -1, tr⟩,
        [slowSurf alg], mem, alg', 0, [], []⟩ := by
  refine ⟨_, _, _, rfl⟩

theorem slow_input2 (tr : List Event) (alg : Surface.Alg) (alg' : Surface.Alg) (mem : ℕ → Chain.L1A) :
    ∃ tr' mem', inputPhase demoConf slowFile
        ⟨⟨2, true, false, some (-1), some (slowFile 0).time, false, false, false, some ⟨0, (slowFile 0).time⟩,
        [.record ⟨1, (slowFile 1).time⟩], [⟨0, [], [], []⟩], [(⟨0, (slowFile 0).time⟩, false)], 1, -1, -1, tr⟩,
        [slowSurf alg], mem, alg', 0, [], []⟩ =
      .ok (false, ⟨⟨2, true, false, some (-1), none, true, false, true, some ⟨1, (slowFile 1).time⟩,
        [], [⟨0, [], [], []⟩], [(⟨0, (slowFile 0).time⟩, false)], 1, -1, -1, tr'⟩,
        [slowSurf alg], mem', alg', 0, [], []⟩) := by
  refine ⟨?tr, ?mem, ?h1⟩
  case h1 =>
    unfold inputPhase
    dsimp only
    rw [if_neg (by simp), if_neg (by simp)]
    unfold readNext Process.readNext
    dsimp only [St.log]
    unfold handlePacket
    dsimp only [St.log]
    rw [if_neg]
    simp only [inTime, decide_eq_true_eq, demoFile, slowFile, demoConf]
    norm_num

theorem slow_qMin : qMin demoConf ‖(slowFile 0).vel‖ = .error .valueError := by
  unfold qMin
  rw [if_neg (by simp [demoConf]), if_pos (by simp [slowFile])]

theorem slow_loop (s : State) :
    ∃ s', packetLoop demoConf slowFile [] [(⟨0, (slowFile 0).time⟩, false)] s = .error (.raised .valueError s') ∧ s'.l1b = s.l1b ∧
      s'.l1bs = s.l1bs := by
  refine ⟨{ s with ctl := s.ctl.log (.beams 0) }, ?_, rfl, rfl⟩
  unfold packetLoop burstBeams
  dsimp only
  rw [slow_qMin]

/-- **C174** is violated: of two records only the first is slow, the run fails and its products are empty. -/
theorem slow_record_violated (alg : Surface.Alg) :
    Sound demoConf ∧ Stack.IsArgsort (calmWorld realArg).argsort ∧ demoConf.chain.exactMethod = true ∧
    (∀ r, (calmWorld realArg).l1bFails r = none ∧ (calmWorld realArg).l1bsFails r = none) ∧
    (calmWorld realArg).finishFails = none ∧ (∀ i, Slow demoConf (slowFile i) ↔ i = 0) ∧
    ∃ s, process demoConf (calmWorld realArg) alg slowFile 2 = .failed .valueError s ∧ s.l1b = [] ∧ s.l1bs = [] := by
  refine ⟨demo_sound, realArg_isArgsort, rfl, fun r => ⟨rfl, rfl⟩, rfl, slow_only, ?_⟩
  obtain ⟨d, h1, h2⟩ := slow_items
  obtain ⟨tr, alg', mem, h3⟩ := slow_step1 realArg alg
  obtain ⟨tr1, mem1, h4⟩ := slow_input2 (tr ++ [.iteration]) alg alg' mem
  obtain ⟨s', h5, h6, h7⟩ := slow_loop ⟨⟨2, true, true, some (-1), none, true, false, true, some ⟨1, (slowFile 1).time⟩,
        [], [⟨0, [], [], []⟩], [(⟨0, (slowFile 0).time⟩, false)], 1, -1, -1, tr1⟩,
        [slowSurf alg], mem1, alg', 0, [], []⟩
  have h8 : step demoConf (calmWorld realArg) slowFile
      ⟨⟨1, true, false, some (-1), some (slowFile 0).time, false, false, false, some ⟨0, (slowFile 0).time⟩,
        [.record ⟨1, (slowFile 1).time⟩], [⟨0, [], [], []⟩], [(⟨0, (slowFile 0).time⟩, false)], 1, -1, -1, tr⟩,
        [slowSurf alg], mem, alg', 0, [], []⟩ = .error (.raised .valueError s') := by
    unfold step
    show (match inputPhase demoConf slowFile ⟨⟨2, true, false, some (-1), some (slowFile 0).time, false, false, false, some ⟨0, (slowFile 0).time⟩,
        [.record ⟨1, (slowFile 1).time⟩], [⟨0, [], [], []⟩], [(⟨0, (slowFile 0).time⟩, false)], 1, -1, -1, tr ++ [.iteration]⟩,
        [slowSurf alg], mem, alg', 0, [], []⟩ with
      | .error x => .error x
      | .ok (true, s) => .ok s
      | .ok (false, s) =>
        match surfacePhase demoConf (calmWorld realArg) slowFile s with
        | .error x => .error x
        | .ok s => endPhase s : Out State) = _
    rw [h4]
    dsimp only
    unfold surfacePhase State.begun
    dsimp only
    rw [if_pos (Or.inr (Or.inr rfl)), h5]
  refine ⟨s', ?_, h6, h7⟩
  unfold process
  rw [h1]
  dsimp only
  rw [h2]
  change run demoConf (calmWorld realArg) slowFile 8 _ = _
  rw [run, if_pos (show (start alg _).ctl.running = true from rfl), h3]
  dsimp only
  rw [run, if_pos (show true = true from rfl), h8]

/-- The theorems apply: the run of the example is finished, no record of it is slow, and the beams of the first burst are formed. -/
example (alg : Surface.Alg) : Sound demoConf ∧ (∃ s, process demoConf (demoWorld realArg) alg demoFile 2 = .finished s) ∧
    ∀ i, ¬ Slow demoConf (demoFile i) := by
  refine ⟨demo_sound, ?_, ?_⟩
  · obtain ⟨s, _, h, _⟩ := demo_run_full realArg realArg_isArgsort alg
    exact ⟨s, h⟩
  · intro i
    have hv : ‖(demoFile i).vel‖ = 1 := demo_vel
    unfold Slow
    rw [hv]
    norm_num [demoConf]

/-- A run which fails, and its reason. -/
example (alg : Surface.Alg) : ∃ s, process demoConf (calmWorld realArg) alg slowFile 2 = .failed .valueError s ∧
    Reason demoConf (calmWorld realArg) slowFile 2 .valueError s := by
  obtain ⟨h1, h2, _, _, _, _, s, h, _⟩ := slow_record_violated alg
  exact ⟨s, h, failure_reasons h1 _ h2 alg slowFile 2 _ s h⟩

end Dedop.Whole
