import Verif.Chain.Props

/-! # The waveform of a surface with a single look (lemmas of C103) -/
namespace Dedop.Chain

open Finset Signal Stack

/-- Sample `col` of a look with the given shift and look angle is kept by the masking. -/
def Kept (round : ℝ → ℤ) (c : Conf) (shift look : ℝ) (col : ℕ) : Prop :=
  c.maskOn = true → GeomAccepts (maskConf c) (round shift) col ∧ AngleAccepts (maskConf c) look

/-- A surface with a single look, beam 1 of a burst, made with the exact method. -/
theorem single_look (argsort : List ℝ → List ℕ) (ha : IsArgsort argsort) (round : ℝ → ℤ) (junk : ℕ → ℂ)
    (c : Conf) (b : L1A) (s : Surf) (prev : ℕ) (θ : ℝ) (A : ℂ) (hex : c.exactMethod = true)
    (hn : 1 < c.pulses) (hl : 1 ≤ c.looks) (hP : 2 ≤ c.samples * c.zp)
    (hang : b.angles[1]? = some θ) (h0 : 0 < θ) (h1 : θ < Real.pi) (he : PointEcho c s b θ A) :
    ∃ row : Row ℝ (ℕ → ℂ), row.beamAngle = θ ∧ row.t0 = b.t0 ∧
      row.look = Real.pi / 2 + b.doppler - θ ∧
      FocussedAt c s b θ (focusAmp c s b A) row.beam ∧
      (1 < c.looks / 2 → surface argsort round junk c (fun _ => b) s prev [(1, 1, 0)] = .ok none) ∧
      (c.looks / 2 ≤ 1 → ∃ r, surface argsort round junk c (fun _ => b) s prev [(1, 1, 0)] = .ok (some r) ∧
        r.out.waveform.length ≤ c.samples * c.zp ∧
        ∀ col < c.samples * c.zp,
          let kept := Kept round c (totalShift (geo c s b row)) (Real.pi / 2 + b.doppler - θ)
          (kept col → r.out.waveform[col]? =
            some (some (compress c.zp c.samples (applyShift c.samples (totalShift (geo c s b row)) row.beam) col))) ∧
          (¬ kept col → c.avoidZeros = true → r.out.waveform[col]? = some none) ∧
          (¬ kept col → (∃ other < c.samples * c.zp, kept other) → c.avoidZeros = false →
            r.out.waveform[col]? = some (some 0)) ∧
          ((∀ other < c.samples * c.zp, ¬ kept other) → r.out.waveform[col]? = some none)) := by
  obtain ⟨beams, brow, b1, b2, b3⟩ := azimuth_sees c s b 1 A θ (by omega) hang he (Or.inl hex)
  have e1 : entries junk c (fun _ => b) [(1, 1, 0)] = .ok [⟨1, 1, stackBurst junk c 0 b beams⟩] := by
    simp only [entries, b1]
  have hv : Valid [(⟨1, 1, stackBurst junk c 0 b beams⟩ : Entry ℝ (ℕ → ℂ))] := by
    intro e he'
    simp only [List.mem_cons, List.not_mem_nil, or_false] at he'
    subst he'
    refine ⟨(List.getElem?_eq_some_iff.1 hang).1, ?_⟩
    simpa [stackBurst] using hn
  obtain ⟨g, off, g1, g2, g3, g4, g5, _⟩ := gather_contiguous argsort ha c.looks hl (Real.pi / 2) prev _ hv
  simp only [List.length_cons, List.length_nil, Nat.zero_add] at g2 g4
  have hsz : g.size = 1 := by omega
  have hoff : off = 0 := by omega
  rw [hsz, hoff] at g5
  simp only [List.drop_zero, List.take_succ_cons, List.take_zero] at g5
  obtain ⟨row, hrow, hrows⟩ : ∃ row, RowOf (Real.pi / 2) (⟨1, 1, stackBurst junk c 0 b beams⟩ :
      Entry ℝ (ℕ → ℂ)) row ∧ g.rows = [row] := by
    generalize g.rows = rs at g5
    cases g5 with
    | cons h t => cases t; exact ⟨_, h, rfl⟩
  obtain ⟨r1, r2, r3, r4, r5, r6, _⟩ := hrow
  have hang' : beamAngleOf (⟨1, 1, stackBurst junk c 0 b beams⟩ : Entry ℝ (ℕ → ℂ)) = θ := by
    simp [beamAngleOf, stackBurst, hang]
  have hbeam : row.beam = brow := by
    simp only [stackBurst, List.getElem?_map, List.getElem?_range hn, Option.map_some, b2,
      Option.getD_some, Option.some.injEq] at r2
    exact r2.symm
  have hlook : row.look = Real.pi / 2 + b.doppler - θ := by
    rw [r6, lookOf, hang']; rfl
  refine ⟨row, by rw [r3, hang'], by rw [r4]; rfl, hlook, by rw [hbeam]; exact b3, ?_, ?_⟩
  · intro hlt
    unfold surface
    simp only [e1, g1]
    rw [if_pos (by omega)]
  · intro hle
    have hw : Stack.WellFormed (maskConf c) (maskInput c (fun _ => b) s g.rows) := by
      refine ⟨by rw [hrows]; exact hl, by simp [maskInput], ?_⟩
      intro r hr
      simp only [maskInput, List.mem_map] at hr
      obtain ⟨row, _, rfl⟩ := hr
      simp [compressed, maskConf]
    obtain ⟨m, m1, m2⟩ := masking_rows round (maskConf c) (maskInput c (fun _ => b) s g.rows) hP hw
    have hfit := fitCount_pos c g.rows (by rw [hrows]; simp) (by rw [hrows]; exact hl)
      (by
        intro r hr
        rw [hrows] at hr
        simp only [List.mem_cons, List.not_mem_nil, or_false] at hr
        subst hr
        rw [r3, hang']
        exact ⟨h0, h1⟩)
    have hsurf : surface argsort round junk c (fun _ => b) s prev [(1, 1, 0)] = .ok (some
        ⟨g, g.rows.map (shiftOf c (fun _ => b) s), m,
          Multilook.compute c.avoidZeros (c.samples * c.zp) c.looks (lookBeams g.rows m)⟩) := by
      unfold surface
      simp only [e1, g1, m1]
      rw [if_neg (by omega), if_neg (by omega), if_neg (by omega)]
    refine ⟨_, hsurf, waveform_length_le _ _ _ _, ?_⟩
    obtain ⟨orig, mrow, prow, v, o1, o2, o3, o4, o5, o6, o7, o8⟩ := m2 0 (by simp [maskInput, hrows])
    have hshift : (maskInput c (fun _ => b) s g.rows).shift 0 = totalShift (geo c s b row) := by
      simp [maskInput, hrows, shiftOf]
    have hlk : (maskInput c (fun _ => b) s g.rows).look 0 = Real.pi / 2 + b.doppler - θ := by
      simp [maskInput, hrows, hlook]
    have hkeep : ∀ col, Keeps round (maskConf c) (maskInput c (fun _ => b) s g.rows) 0 col ↔
        Kept round c (totalShift (geo c s b row)) (Real.pi / 2 + b.doppler - θ) col := by
      intro col
      unfold Keeps Kept
      rw [hshift, hlk]
      rfl
    have ho : orig = compressed c (fun _ => b) s row := by
      simp only [maskInput, hrows, List.map_cons, List.getElem?_cons_zero, Option.some.injEq] at o1
      exact o1.symm
    have hlb : lookBeams g.rows m =
        [⟨v, mrow, prow, row.look, row.doppler, row.pointing, row.beamAngle, row.lookCounter⟩] := by
      simp [lookBeams, hrows, List.zipIdx_cons, List.getD_eq_getElem?_getD, o2, o3, o4]
    have hwf : Multilook.WellFormed (c.samples * c.zp) (lookBeams g.rows m) := by
      intro B hB
      rw [hlb] at hB
      simp only [List.mem_cons, List.not_mem_nil, or_false] at hB
      subst hB
      exact ⟨o5, o6⟩
    intro col hcol
    dsimp only
    have hpow : Multilook.powers c.avoidZeros (lookBeams g.rows m) col =
        if v ≠ 0 ∧ (c.avoidZeros = true → mrow.getD col false = true) then [prow.getD col 0] else [] := by
      rw [hlb]
      unfold Multilook.powers
      rw [List.filter_cons]
      have : Multilook.contributes c.avoidZeros col (⟨v, mrow, prow, row.look, row.doppler, row.pointing,
          row.beamAngle, row.lookCounter⟩ : Multilook.Beam ℝ) = true ↔
          v ≠ 0 ∧ (c.avoidZeros = true → mrow.getD col false = true) := by
        unfold Multilook.contributes
        cases c.avoidZeros <;> simp
      by_cases hc : v ≠ 0 ∧ (c.avoidZeros = true → mrow.getD col false = true)
      · rw [if_pos (this.2 hc), if_pos hc]; rfl
      · rw [if_neg (fun h => hc (this.1 h)), if_neg hc]; rfl
    have hone : ∀ x, Multilook.powers c.avoidZeros (lookBeams g.rows m) col = [x] →
        (Multilook.compute c.avoidZeros (c.samples * c.zp) c.looks (lookBeams g.rows m)).waveform[col]? =
          some (some x) := by
      intro x hx
      obtain ⟨y, y1, y2, _⟩ := Multilook.multilooked_is_mean c.avoidZeros (c.samples * c.zp) c.looks
        (lookBeams g.rows m) hwf col hcol (by rw [hx]; simp)
      rw [hx] at y2
      simp only [List.length_cons, List.length_nil, List.sum_cons, List.sum_nil, Nat.zero_add, Nat.cast_one,
        mul_one, add_zero] at y2
      rw [y1, y2]
    have hnone : Multilook.powers c.avoidZeros (lookBeams g.rows m) col = [] →
        (Multilook.compute c.avoidZeros (c.samples * c.zp) c.looks (lookBeams g.rows m)).waveform[col]? =
          some none := fun hx =>
      Multilook.no_contributing_beam_violated _ _ _ _ hwf col hcol hx
    obtain ⟨k1, k2, k3⟩ := o7 col hcol
    rw [hkeep] at k1 k2 k3
    refine ⟨?_, ?_, ?_, ?_⟩
    · intro hk
      apply hone
      rw [hpow, if_pos ⟨o8.2 ⟨col, hcol, (hkeep col).2 hk⟩, fun _ => k1.2 hk⟩, k2 hk, ho]
      simp only [compressed, List.getD_eq_getElem?_getD, List.getElem?_map, List.getElem?_range hcol,
        Option.map_some, Option.getD_some]
      rfl
    · intro hk hav
      apply hnone
      rw [hpow, if_neg (fun h => hk (k1.1 (h.2 hav)))]
    · rintro hk ⟨other, ho1, ho2⟩ hav
      apply hone
      rw [hpow, if_pos ⟨o8.2 ⟨other, ho1, (hkeep other).2 ho2⟩, by rw [hav]; intro h; cases h⟩, k3 hk]
    · intro hall
      apply hnone
      rw [hpow, if_neg]
      rintro ⟨hv', _⟩
      obtain ⟨other, ho1, ho2⟩ := o8.1 hv'
      exact hall other ho1 ((hkeep other).1 ho2)

/-- A look moved short of its place by `e` samples has less power in the centre. -/
theorem compress_misplaced (zp ns : ℕ) (hz : 0 < zp) (hn : 2 ≤ ns) (beam : ℕ → ℂ) (B : ℂ) (e : ℝ)
    (h : ∀ i < ns, beam i = B * Complex.exp (Complex.I * ((2 * Real.pi * (e * i / ns) : ℝ) : ℂ)))
    (hB : B ≠ 0) (he : Complex.exp (Complex.I * ((2 * Real.pi * (e / ns) : ℝ) : ℂ)) ≠ 1) :
    compress zp ns beam (zp * ns / 2) < ‖B‖ ^ 2 * (ns / zp) := by
  have hP : 0 < zp * ns := Nat.mul_pos hz (by omega)
  have hk : zp * ns / 2 < zp * ns := Nat.div_lt_self hP (by omega)
  unfold compress compressIq
  rw [fftshift_dft _ _ _ hk,
    sum_pad zp ns hz _ (fun i z => z * twiddle (zp * ns) (((zp * ns / 2 : ℕ) : ℤ) - (zp * ns / 2 : ℕ)) i) (by simp)]
  simp only [sub_self, twiddle_zero_left, mul_one]
  have : ∑ i ∈ range ns, beam i =
      B * ∑ i ∈ range ns, Complex.exp (Complex.I * ((2 * Real.pi * (e * i / ns) : ℝ) : ℂ)) := by
    rw [mul_sum]
    exact sum_congr rfl (fun i hi => by rw [h i (mem_range.1 hi)])
  have hlt := norm_sum_lt ns hn
    (fun i => Complex.exp (Complex.I * ((2 * Real.pi * (e * i / ns) : ℝ) : ℂ))) (by simp) (by simpa using he)
    (fun i => by rw [mul_comm, Complex.norm_exp_ofReal_mul_I])
  rw [this, norm_div, norm_mul, div_pow, mul_pow, Complex.norm_real, Real.norm_eq_abs, sq_abs,
    Real.sq_sqrt (by positivity)]
  have hz' : (0 : ℝ) < zp := by exact_mod_cast hz
  have hn' : (0 : ℝ) < ns := by exact_mod_cast (by omega : 0 < ns)
  have hB' : 0 < ‖B‖ ^ 2 := by positivity
  rw [mul_div_assoc]
  apply mul_lt_mul_of_pos_left _ hB'
  push_cast
  rw [div_lt_div_iff₀ (by positivity) hz']
  have := pow_lt_pow_left₀ hlt (norm_nonneg _) (show (2 : ℕ) ≠ 0 by norm_num)
  push_cast at this ⊢
  nlinarith

end Dedop.Chain
