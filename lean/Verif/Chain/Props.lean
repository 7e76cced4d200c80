import Verif.Chain.Echo
import Verif.Chain.Looks

/-! # The echo of a point at a surface peaks in the centre of its waveform (C107) -/
namespace Dedop.Chain

open Finset Signal Stack

/-! ## Specification -/

/-- Beam `j` of the burst points to the direction `θ`: always with the exact azimuth method; with the
approximate method if the steering angle of the burst and the azimuth frequency of the beam together
give the Doppler phase of the direction. -/
def Steered (c : Conf) (b : L1A) (j : ℕ) (θ : ℝ) : Prop :=
  c.exactMethod = true ∨
    (Azimuth.TrendOk c.pulses (azBurst c b) ∧
      ∀ a, Azimuth.nadirAngle c.pulses b.trend b.angles = .ok a →
        (azBurst c b).factor * Real.cos a +
          2 * Real.pi * (Beams.absIndex c.pulses b.trend b.angles.length j : ℤ) / c.pulses =
        (azBurst c b).factor * Real.cos θ)

/-- Beam `j` of the burst sees the point: the burst holds its echo with amplitude `A`, the beam is steered
to it, the echo is inside the window of the burst with a margin of half a sample, and the look angle is
within the bounds. -/
def Sees (c : Conf) (s : Surf) (b : L1A) (j : ℕ) (A : ℂ) : Prop :=
  j < c.pulses ∧ 0 < b.t0 ∧ ∃ θ, b.angles[j]? = some θ ∧ 0 < θ ∧ θ < Real.pi ∧
    PointEcho c s b θ A ∧ Steered c b j θ ∧
    |position c s b θ| < ((c.samples : ℝ) - 1) / 2 ∧
    AngleAccepts (maskConf c) (Real.pi / 2 + b.doppler - θ)

/-! ## Lemmas -/

theorem azimuth_sees (c : Conf) (s : Surf) (b : L1A) (j : ℕ) (A : ℂ) (θ : ℝ) (hn : 0 < c.pulses)
    (hj : b.angles[j]? = some θ) (h : PointEcho c s b θ A) (hst : Steered c b j θ) :
    ∃ beams row, azimuth c b = .ok beams ∧ beams j = some row ∧
      FocussedAt c s b θ (focusAmp c s b A) row := by
  unfold azimuth
  dsimp only
  cases hm : c.exactMethod with
  | true =>
    obtain ⟨row, h1, h2⟩ := (Azimuth.exact_row c.pulses hn (azBurst c b)
      (fun p i => b.wfm p i * (c.window p : ℂ)) j).1 θ hj
    refine ⟨_, row, rfl, h1, ?_⟩
    intro i hi
    have := focussed_point c s b θ θ A 0 h (by simp) i hi
    rw [← this, h2]
    unfold Azimuth.focussed
    simp [twiddle_zero_left]
  | false =>
    rcases hst with hst | ⟨ht, hreg⟩
    · rw [hm] at hst; cases hst
    have hlt : j < b.angles.length := (List.getElem?_eq_some_iff.1 hj).1
    have hne : (azBurst c b).angles ≠ [] := by
      intro h0
      have : b.angles = [] := h0
      simp [this] at hlt
    obtain ⟨a, beams, h1, h2, h3⟩ := Azimuth.approximate_row c.pulses (azBurst c b)
      (fun p i => b.wfm p i * (c.window p : ℂ)) ht hne
    obtain ⟨row, h4, h5⟩ := h3 j hlt
    refine ⟨beams, row, h2, h4, ?_⟩
    intro i hi
    have := focussed_point c s b θ a A _ h (hreg a h1) i hi
    rw [← this, h5]
    rfl

/-- Beam `j` of the burst, after the azimuth processing, holds the echo of the point with power between
`lo` and `hi`; the echo is inside the window and the look angle within the bounds, as in `Sees`. -/
def Focuses (c : Conf) (s : Surf) (b : L1A) (j : ℕ) (lo hi : ℝ) : Prop :=
  j < c.pulses ∧ ∃ θ, b.angles[j]? = some θ ∧ 0 < θ ∧ θ < Real.pi ∧
    (∃ beams row B, azimuth c b = .ok beams ∧ beams j = some row ∧ FocussedAt c s b θ B row ∧
      lo ≤ ‖B‖ ^ 2 ∧ ‖B‖ ^ 2 ≤ hi) ∧
    |position c s b θ| < ((c.samples : ℝ) - 1) / 2 ∧
    AngleAccepts (maskConf c) (Real.pi / 2 + b.doppler - θ)

/-- The entries of the stack of a surface seen by all its looks. -/
theorem entries_sees (junk : ℕ → ℂ) (c : Conf) (bursts : ℕ → L1A) (s : Surf) (lo hi : ℝ)
    (looks : Looks) (h : ∀ l ∈ looks, Focuses c s (bursts l.2.2) l.1 lo hi) :
    ∃ es, entries junk c bursts looks = .ok es ∧ es.length = looks.length ∧ Valid es ∧
      ∀ e ∈ es, ∃ l ∈ looks, ∃ beams, azimuth c (bursts l.2.2) = .ok beams ∧
        e = ⟨l.1, l.2.1, stackBurst junk c l.2.2 (bursts l.2.2) beams⟩ := by
  induction looks with
  | nil => exact ⟨[], rfl, rfl, by simp [Valid], by simp⟩
  | cons l rest ih =>
    obtain ⟨es, e1, e2, e3, e4⟩ := ih (fun l hl => h l (by simp [hl]))
    obtain ⟨i, a, id⟩ := l
    obtain ⟨hj, θ, ha, _, _, ⟨beams, row, B, b1, b2, _⟩, _⟩ := h (i, a, id) (by simp)
    refine ⟨⟨i, a, stackBurst junk c id (bursts id) beams⟩ :: es, ?_, by simp [e2], ?_, ?_⟩
    · unfold entries
      rw [b1, e1]
    · intro e he
      rcases List.mem_cons.1 he with rfl | he
      · refine ⟨(List.getElem?_eq_some_iff.1 ha).1, ?_⟩
        simpa [stackBurst] using hj
      · exact e3 e he
    · intro e he
      rcases List.mem_cons.1 he with rfl | he
      · exact ⟨(i, a, id), by simp, beams, b1, rfl⟩
      · obtain ⟨l, hl, rest'⟩ := e4 e he
        exact ⟨l, by simp [hl], rest'⟩

/-- A row gathered from a look that sees the point. -/
def RowSees (c : Conf) (bursts : ℕ → L1A) (s : Surf) (lo hi : ℝ) (row : Row ℝ (ℕ → ℂ)) : Prop :=
  row.t0 = (bursts row.burst).t0 ∧ 0 < row.beamAngle ∧ row.beamAngle < Real.pi ∧
    (∃ B, FocussedAt c s (bursts row.burst) row.beamAngle B row.beam ∧ lo ≤ ‖B‖ ^ 2 ∧ ‖B‖ ^ 2 ≤ hi) ∧
    |position c s (bursts row.burst) row.beamAngle| < ((c.samples : ℝ) - 1) / 2 ∧
    AngleAccepts (maskConf c) row.look

theorem row_sees (junk : ℕ → ℂ) (c : Conf) (bursts : ℕ → L1A) (s : Surf) (lo hi : ℝ)
    (looks : Looks) (h : ∀ l ∈ looks, Focuses c s (bursts l.2.2) l.1 lo hi)
    (l : ℕ × ℤ × ℕ) (hl : l ∈ looks) (beams : Azimuth.Beams) (hb : azimuth c (bursts l.2.2) = .ok beams)
    (row : Row ℝ (ℕ → ℂ))
    (hr : RowOf (Real.pi / 2) ⟨l.1, l.2.1, stackBurst junk c l.2.2 (bursts l.2.2) beams⟩ row) :
    RowSees c bursts s lo hi row := by
  obtain ⟨hj, θ, ha, h0, h1, ⟨beams', brow, B, b1, b2, b3, b4⟩, hw, hacc⟩ := h l hl
  rw [hb] at b1; cases b1
  obtain ⟨r1, r2, r3, r4, r5, r6, _⟩ := hr
  have hid : row.burst = l.2.2 := r1
  have hang : beamAngleOf (⟨l.1, l.2.1, stackBurst junk c l.2.2 (bursts l.2.2) beams⟩ :
      Entry ℝ (ℕ → ℂ)) = θ := by
    simp [beamAngleOf, stackBurst, ha]
  have hrow : row.beam = brow := by
    simp only [stackBurst, List.getElem?_map, List.getElem?_range hj, Option.map_some, b2,
      Option.getD_some, Option.some.injEq] at r2
    exact r2.symm
  have hbeam : row.beamAngle = θ := by rw [r3, hang]
  refine ⟨?_, ?_, ?_, ⟨B, ?_, b4⟩, ?_, ?_⟩
  · rw [r4, hid]; rfl
  · rw [hbeam]; exact h0
  · rw [hbeam]; exact h1
  · rw [hid, hbeam, hrow]; exact b3
  · rw [hid, hbeam]; exact hw
  · rw [r6, lookOf, hang]; exact hacc

/-- The mask keeps the centre of a look that sees the point. -/
theorem centre_kept (round : ℝ → ℤ) (hround : ∀ x, |(round x : ℝ) - x| ≤ 1 / 2) (c : Conf)
    (bursts : ℕ → L1A) (s : Surf) (lo hi : ℝ) (rows : List (Row ℝ (ℕ → ℂ))) (hz : 0 < c.zp)
    (hd : c.dopplerOn = true) (hs : c.slantOn = true) (hc : c.c ≠ 0) (b : ℕ) (row : Row ℝ (ℕ → ℂ))
    (hr : rows[b]? = some row) (h : RowSees c bursts s lo hi row) :
    Keeps round (maskConf c) (maskInput c bursts s rows) b (c.zp * c.samples / 2) := by
  obtain ⟨h1, _, _, ⟨B, h2, _⟩, h3, h4⟩ := h
  intro _
  obtain ⟨hsh, _⟩ := aligned c s (bursts row.burst) row B hd hs hc h1 h2
  have e1 : (maskInput c bursts s rows).shift b = - position c s (bursts row.burst) row.beamAngle := by
    simp only [maskInput, hr, Option.map_some, Option.getD_some, shiftOf]
    exact hsh
  have e2 : (maskInput c bursts s rows).look b = row.look := by simp [maskInput, hr]
  rw [e1, e2]
  refine ⟨?_, h4⟩
  have hk := hround (- position c s (bursts row.burst) row.beamAngle)
  generalize round (- position c s (bursts row.burst) row.beamAngle) = k at hk
  rw [abs_le] at hk
  rw [abs_lt] at h3
  have k1 : (2 * k : ℝ) < c.samples := by linarith
  have k2 : -(c.samples : ℝ) < 2 * k := by linarith
  have k1' : 2 * k < (c.samples : ℤ) := by exact_mod_cast k1
  have k2' : -(c.samples : ℤ) < 2 * k := by exact_mod_cast k2
  unfold GeomAccepts
  simp only [maskConf]
  have p1 : 2 * (k * (c.zp : ℤ)) ≤ (c.zp * c.samples : ℕ) - 1 := by
    have : 2 * (k * (c.zp : ℤ)) ≤ ((c.samples : ℤ) - 1) * c.zp := by nlinarith
    push_cast
    nlinarith
  have p2 : -((c.zp * c.samples : ℕ) : ℤ) + 1 ≤ 2 * (k * (c.zp : ℤ)) := by
    have : (1 - (c.samples : ℤ)) * c.zp ≤ 2 * (k * (c.zp : ℤ)) := by nlinarith
    push_cast
    nlinarith
  rw [Nat.mul_comm c.samples c.zp]
  generalize (c.zp * c.samples : ℕ) = P at *
  generalize k * (c.zp : ℤ) = q at *
  omega

/-- The waveform of a surface whose looks hold the echo of a point after the azimuth processing. -/
theorem focussed_peaks (argsort : List ℝ → List ℕ) (ha : IsArgsort argsort) (round : ℝ → ℤ)
    (hround : ∀ x, |(round x : ℝ) - x| ≤ 1 / 2) (junk : ℕ → ℂ) (c : Conf) (bursts : ℕ → L1A) (s : Surf)
    (prev : ℕ) (looks : Looks)
    (hs2 : 2 ≤ c.samples) (hz : 0 < c.zp) (hl : 1 ≤ c.looks) (hc : c.c ≠ 0)
    (hd : c.dopplerOn = true) (hs : c.slantOn = true) (hne : looks ≠ [])
    (hmin : c.looks / 2 ≤ looks.length) (lo hi : ℝ)
    (h : ∀ l ∈ looks, Focuses c s (bursts l.2.2) l.1 lo hi) :
    ∃ r x, surface argsort round junk c bursts s prev looks = .ok (some r) ∧
      r.out.waveform[c.zp * c.samples / 2]? = some (some x) ∧
      lo * (c.samples / c.zp) ≤ x ∧ x ≤ hi * (c.samples / c.zp) ∧
      ∀ k y, r.out.waveform[k]? = some (some y) → k ≠ c.zp * c.samples / 2 →
        y ≤ hi * (c.samples / c.zp) ∧ (0 < lo → y < hi * (c.samples / c.zp)) := by
  obtain ⟨es, e1, e2, e3, e4⟩ := entries_sees junk c bursts s lo hi looks h
  obtain ⟨g, off, g1, g2, g3, g4, g5, _⟩ := gather_contiguous argsort ha c.looks hl (Real.pi / 2) prev es e3
  have hrows : ∀ row ∈ g.rows, RowSees c bursts s lo hi row := by
    intro row hr
    obtain ⟨i, hget⟩ := List.getElem?_of_mem hr
    have hlt := (List.getElem?_eq_some_iff.1 hget).1
    rw [List.forall₂_iff_get] at g5
    have hlt' : i < ((es.drop off).take g.size).length := by rw [g5.1]; exact hlt
    have := g5.2 i hlt' hlt
    have hrow : g.rows.get ⟨i, hlt⟩ = row := by
      have := (List.getElem?_eq_some_iff.1 hget).2
      simpa using this
    rw [hrow] at this
    have hmem : ((es.drop off).take g.size).get ⟨i, hlt'⟩ ∈ es :=
      List.mem_of_mem_drop (List.mem_of_mem_take (List.get_mem _ _))
    obtain ⟨l, hl', beams, hb, heq⟩ := e4 _ hmem
    rw [heq] at this
    exact row_sees junk c bursts s lo hi looks h l hl' beams hb row this
  have hpos : 0 < looks.length := List.length_pos_iff.2 hne
  have hrl : g.rows.length ≤ c.looks := by omega
  have hrne : g.rows ≠ [] := by
    intro h0
    rw [h0] at g3
    simp only [List.length_nil] at g3
    omega
  have hP : 2 ≤ c.samples * c.zp := le_trans hs2 (Nat.le_mul_of_pos_right _ hz)
  obtain ⟨m, m1, m2, m3⟩ := waveform_of_rows round c bursts s g.rows hP hrl
  have hfit := fitCount_pos c g.rows hrne hrl (fun r hr => ⟨(hrows r hr).2.1, (hrows r hr).2.2.1⟩)
  have hsurf : surface argsort round junk c bursts s prev looks = .ok (some
      ⟨g, g.rows.map (shiftOf c bursts s), m,
        Multilook.compute c.avoidZeros (c.samples * c.zp) c.looks (lookBeams g.rows m)⟩) := by
    unfold surface
    simp only [e1, g1, m1]
    rw [if_neg (by omega), if_neg (by omega), if_neg (by omega)]
  have hcentre : c.zp * c.samples / 2 < c.samples * c.zp := by
    rw [Nat.mul_comm]
    exact Nat.div_lt_self (by omega) (by omega)
  have hq0 : (0 : ℝ) < c.samples / c.zp := by
    have a1 : (0 : ℝ) < c.samples := by exact_mod_cast (by omega : 0 < c.samples)
    have a2 : (0 : ℝ) < c.zp := by exact_mod_cast hz
    positivity
  have hcc : ∀ row ∈ g.rows, ∀ k < c.samples * c.zp, (compressed c bursts s row).getD k 0 =
      compress c.zp c.samples (applyShift c.samples (shiftOf c bursts s row) row.beam) k := by
    intro row _ k hk
    simp [compressed, List.getD_eq_getElem?_getD, hk]
  -- the centre of a look
  have hcen : ∀ row ∈ g.rows,
      lo * (c.samples / c.zp) ≤ (compressed c bursts s row).getD (c.zp * c.samples / 2) 0 ∧
      (compressed c bursts s row).getD (c.zp * c.samples / 2) 0 ≤ hi * (c.samples / c.zp) := by
    intro row hr
    obtain ⟨r1, _, _, ⟨B, r2, r3, r4⟩, _, _⟩ := hrows row hr
    obtain ⟨_, hal⟩ := aligned c s (bursts row.burst) row B hd hs hc r1 r2
    rw [hcc row hr _ hcentre]
    unfold shiftOf
    rw [compress_centre c.zp c.samples hz (by omega) _ _ hal]
    exact ⟨mul_le_mul_of_nonneg_right r3 hq0.le, mul_le_mul_of_nonneg_right r4 hq0.le⟩
  -- the other samples of a look
  have hoff : ∀ row ∈ g.rows, ∀ k < c.samples * c.zp, k ≠ c.zp * c.samples / 2 →
      (compressed c bursts s row).getD k 0 ≤ hi * (c.samples / c.zp) ∧
      (0 < lo → (compressed c bursts s row).getD k 0 < hi * (c.samples / c.zp)) := by
    intro row hr k hk hne'
    obtain ⟨r1, _, _, ⟨B, r2, r3, r4⟩, _, _⟩ := hrows row hr
    obtain ⟨_, hal⟩ := aligned c s (bursts row.burst) row B hd hs hc r1 r2
    rw [hcc row hr k hk]
    unfold shiftOf
    have hk' : k < c.zp * c.samples := by rw [Nat.mul_comm]; exact hk
    have htop : ‖B‖ ^ 2 * (c.samples / c.zp) ≤ hi * (c.samples / c.zp) :=
      mul_le_mul_of_nonneg_right r4 hq0.le
    have strict : B ≠ 0 → compress c.zp c.samples (applyShift c.samples
        (totalShift (geo c s (bursts row.burst) row)) row.beam) k < hi * (c.samples / c.zp) := by
      intro hB0
      exact lt_of_lt_of_le (compress_off_centre c.zp c.samples hz hs2 _ B hal hB0 k hk' hne') htop
    constructor
    · by_cases hB0 : B = 0
      · rw [compress_eq c.zp c.samples hz _ B hal k hk']
        rw [hB0] at htop ⊢
        simpa using htop
      · exact (strict hB0).le
    · intro hlo
      apply strict
      rintro rfl
      simp at r3
      linarith
  have hkeep : ∀ (b : ℕ) row, g.rows[b]? = some row →
      Keeps round (maskConf c) (maskInput c bursts s g.rows) b (c.zp * c.samples / 2) := by
    intro b row hr
    exact centre_kept round hround c bursts s lo hi g.rows hz hd hs hc b row hr
      (hrows row (List.mem_of_getElem? hr))
  -- the centre
  have hpne : Multilook.powers c.avoidZeros (lookBeams g.rows m) (c.zp * c.samples / 2) ≠ [] := by
    obtain ⟨row, hr⟩ : ∃ r, g.rows[0]? = some r :=
      ⟨_, List.getElem?_eq_getElem (List.length_pos_iff.2 hrne)⟩
    exact List.ne_nil_of_mem ((m3 _ hcentre).2 0 row hr (hkeep 0 row hr))
  obtain ⟨x, x1, _, x3⟩ := Multilook.multilooked_is_mean c.avoidZeros (c.samples * c.zp) c.looks
    (lookBeams g.rows m) m2 _ hcentre hpne
  obtain ⟨y1, y2⟩ := x3 (lo * (c.samples / c.zp)) (hi * (c.samples / c.zp)) (by
    intro p hp
    obtain ⟨row, hr, hcase⟩ := (m3 _ hcentre).1 p hp
    rcases hcase with rfl | ⟨_, b, hb, hnk⟩
    · exact hcen row hr
    · exact absurd (hkeep b row hb) hnk)
  refine ⟨_, x, hsurf, x1, y1, y2, ?_⟩
  intro k y hk hkne
  have hklt : k < c.samples * c.zp := by
    by_contra hge
    have hlen : (Multilook.compute c.avoidZeros (c.samples * c.zp) c.looks
        (lookBeams g.rows m)).waveform.length ≤ c.samples * c.zp :=
      waveform_length_le c.avoidZeros (c.samples * c.zp) c.looks (lookBeams g.rows m)
    have hk' : (Multilook.compute c.avoidZeros (c.samples * c.zp) c.looks
        (lookBeams g.rows m)).waveform[k]? = some (some y) := hk
    rw [List.getElem?_eq_none (by omega)] at hk'
    cases hk'
  have hkne' : Multilook.powers c.avoidZeros (lookBeams g.rows m) k ≠ [] := by
    intro h0
    rw [Multilook.no_contributing_beam_violated _ _ _ _ m2 k hklt h0] at hk
    cases hk
  obtain ⟨y', w1, w2, w3⟩ := Multilook.multilooked_is_mean c.avoidZeros (c.samples * c.zp) c.looks
    (lookBeams g.rows m) m2 k hklt hkne'
  rw [w1] at hk
  cases hk
  have hhi : 0 ≤ hi := by
    obtain ⟨row, hr⟩ : ∃ r, r ∈ g.rows := List.exists_mem_of_ne_nil _ hrne
    obtain ⟨_, _, _, ⟨B, _, _, r4⟩, _⟩ := hrows row hr
    exact le_trans (by positivity) r4
  have hlohi : 0 < lo → 0 < hi := by
    intro hlo
    obtain ⟨row, hr⟩ : ∃ r, r ∈ g.rows := List.exists_mem_of_ne_nil _ hrne
    obtain ⟨_, _, _, ⟨B, _, r3, r4⟩, _⟩ := hrows row hr
    linarith
  have hbound : ∀ p ∈ Multilook.powers c.avoidZeros (lookBeams g.rows m) k,
      p ≤ hi * (c.samples / c.zp) ∧ (0 < lo → p < hi * (c.samples / c.zp)) := by
    intro p hp
    obtain ⟨row, hr, hcase⟩ := (m3 k hklt).1 p hp
    rcases hcase with rfl | ⟨rfl, _⟩
    · exact hoff row hr k hklt hkne
    · exact ⟨by positivity, fun hlo => mul_pos (hlohi hlo) hq0⟩
  have hmin' : ∃ low, ∀ p ∈ Multilook.powers c.avoidZeros (lookBeams g.rows m) k, low ≤ p := by
    refine ⟨-((Multilook.powers c.avoidZeros (lookBeams g.rows m) k).map (|·|)).sum, ?_⟩
    intro p hp
    have : |p| ≤ ((Multilook.powers c.avoidZeros (lookBeams g.rows m) k).map (|·|)).sum :=
      List.single_le_sum (by
        intro q hq
        obtain ⟨r, _, rfl⟩ := List.mem_map.1 hq
        exact abs_nonneg r) _ (List.mem_map_of_mem hp)
    linarith [neg_abs_le p]
  obtain ⟨low, hlow⟩ := hmin'
  refine ⟨(w3 low _ (fun p hp => ⟨hlow p hp, (hbound p hp).1⟩)).2, ?_⟩
  intro hlo
  -- strictly below: the largest of the powers
  obtain ⟨top, htop, hmax⟩ : ∃ top ∈ Multilook.powers c.avoidZeros (lookBeams g.rows m) k,
      ∀ p ∈ Multilook.powers c.avoidZeros (lookBeams g.rows m) k, p ≤ top := by
    cases ht : (Multilook.powers c.avoidZeros (lookBeams g.rows m) k).argmax id with
    | none => rw [List.argmax_eq_none] at ht; exact absurd ht hkne'
    | some top => exact ⟨top, List.argmax_mem ht, fun p hp => List.le_of_mem_argmax hp ht⟩
  exact lt_of_le_of_lt (w3 low top (fun p hp => ⟨hlow p hp, hmax p hp⟩)).2
    ((hbound top htop).2 hlo)

/-! ## C107 -/

/-- **C107.**  With the Doppler and slant range corrections on, whatever the masking, the treatment of
zeros, the azimuth window and the padding: if all looks of a surface see a point at the surface, the
surface gets a waveform whose centre sample lies between the smallest and the largest power of the
echoes, times the gain of the coherent sums of pulses and samples, and no sample of the waveform
exceeds the largest. -/
theorem point_peaks_in_centre (argsort : List ℝ → List ℕ) (ha : IsArgsort argsort) (round : ℝ → ℤ)
    (hround : ∀ x, |(round x : ℝ) - x| ≤ 1 / 2) (junk : ℕ → ℂ) (c : Conf) (bursts : ℕ → L1A) (s : Surf)
    (prev : ℕ) (looks : Looks) (A : ℕ → ℂ)
    (hn : 0 < c.pulses) (hs2 : 2 ≤ c.samples) (hz : 0 < c.zp) (hl : 1 ≤ c.looks) (hc : c.c ≠ 0)
    (hd : c.dopplerOn = true) (hs : c.slantOn = true) (hne : looks ≠ [])
    (hmin : c.looks / 2 ≤ looks.length)
    (h : ∀ l ∈ looks, Sees c s (bursts l.2.2) l.1 (A l.2.2)) (lo hi : ℝ)
    (hA : ∀ l ∈ looks, lo ≤ ‖A l.2.2‖ ^ 2 ∧ ‖A l.2.2‖ ^ 2 ≤ hi) :
    ∃ r x, surface argsort round junk c bursts s prev looks = .ok (some r) ∧
      r.out.waveform[c.zp * c.samples / 2]? = some (some x) ∧ lo * gain c ≤ x ∧ x ≤ hi * gain c ∧
      ∀ k y, r.out.waveform[k]? = some (some y) → k ≠ c.zp * c.samples / 2 → y ≤ hi * gain c ∧
        (0 < lo → gain c ≠ 0 → y < hi * gain c) := by
  have hw0 : 0 ≤ (∑ p ∈ range c.pulses, c.window p) ^ 2 / c.pulses := by positivity
  have hgain : ∀ z, z * ((∑ p ∈ range c.pulses, c.window p) ^ 2 / c.pulses) * (c.samples / c.zp) =
      z * gain c := by
    intro z; unfold gain; ring
  obtain ⟨r, x, h1, h2, h3, h4, h5⟩ := focussed_peaks argsort ha round hround junk c bursts s prev looks
    hs2 hz hl hc hd hs hne hmin (lo * ((∑ p ∈ range c.pulses, c.window p) ^ 2 / c.pulses))
    (hi * ((∑ p ∈ range c.pulses, c.window p) ^ 2 / c.pulses))
    (by
      intro l hl'
      obtain ⟨hj, _, θ, ht, h0, hpi, he, hst, hw, hacc⟩ := h l hl'
      obtain ⟨beams, row, b1, b2, b3⟩ := azimuth_sees c s (bursts l.2.2) l.1 (A l.2.2) θ hn ht he hst
      obtain ⟨a1, a2⟩ := hA l hl'
      refine ⟨hj, θ, ht, h0, hpi, ⟨beams, row, _, b1, b2, b3, ?_, ?_⟩, hw, hacc⟩
      · rw [focusAmp_sq]; exact mul_le_mul_of_nonneg_right a1 hw0
      · rw [focusAmp_sq]; exact mul_le_mul_of_nonneg_right a2 hw0)
  rw [hgain] at h3 h4 h5
  refine ⟨r, x, h1, h2, h3, h4, ?_⟩
  intro k y hk hkne
  refine ⟨(h5 k y hk hkne).1, ?_⟩
  intro hlo hg
  refine (h5 k y hk hkne).2 (mul_pos hlo (lt_of_le_of_ne hw0 ?_))
  intro h0
  apply hg
  unfold gain
  rw [← h0, zero_mul]

/-- **C107, equal echoes.**  If the echoes have the same power, the centre has exactly that power times the
gain and every other sample of the waveform is smaller. -/
theorem point_peak_exact (argsort : List ℝ → List ℕ) (ha : IsArgsort argsort) (round : ℝ → ℤ)
    (hround : ∀ x, |(round x : ℝ) - x| ≤ 1 / 2) (junk : ℕ → ℂ) (c : Conf) (bursts : ℕ → L1A) (s : Surf)
    (prev : ℕ) (looks : Looks) (A : ℕ → ℂ)
    (hn : 0 < c.pulses) (hs2 : 2 ≤ c.samples) (hz : 0 < c.zp) (hl : 1 ≤ c.looks) (hc : c.c ≠ 0)
    (hd : c.dopplerOn = true) (hs : c.slantOn = true) (hne : looks ≠ [])
    (hmin : c.looks / 2 ≤ looks.length)
    (h : ∀ l ∈ looks, Sees c s (bursts l.2.2) l.1 (A l.2.2)) (power : ℝ) (hp : 0 < power)
    (hA : ∀ l ∈ looks, ‖A l.2.2‖ ^ 2 = power) (hw : ∑ p ∈ range c.pulses, c.window p ≠ 0) :
    ∃ r, surface argsort round junk c bursts s prev looks = .ok (some r) ∧
      r.out.waveform[c.zp * c.samples / 2]? = some (some (power * gain c)) ∧
      ∀ k y, r.out.waveform[k]? = some (some y) → k ≠ c.zp * c.samples / 2 → y < power * gain c := by
  obtain ⟨r, x, h1, h2, h3, h4, h5⟩ := point_peaks_in_centre argsort ha round hround junk c bursts s prev
    looks A hn hs2 hz hl hc hd hs hne hmin h power power (fun l hl => ⟨(hA l hl).ge, (hA l hl).le⟩)
  have hg : gain c ≠ 0 := by
    unfold gain
    have a1 : (c.pulses : ℝ) ≠ 0 := by exact_mod_cast hn.ne'
    have a2 : (c.samples : ℝ) ≠ 0 := by
      have : c.samples ≠ 0 := by omega
      exact_mod_cast this
    have a3 : (c.zp : ℝ) ≠ 0 := by exact_mod_cast hz.ne'
    positivity
  refine ⟨r, h1, ?_, fun k y hk hne' => (h5 k y hk hne').2 hp hg⟩
  rw [h2, le_antisymm h4 h3]

end Dedop.Chain
