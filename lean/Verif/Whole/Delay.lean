import Verif.Whole.Superpose

/-!
# Echoes from further away (C172)
-/
namespace Dedop.Whole

open Real Process

/-! ## Specification -/

/-- The echoes of `r` are those of `r1` with the phase of sample `s` advanced by `2 π d s / (zp N)`, where `N` is the number of samples: in the spectrum, which is the range
window, a displacement by `d` of the positions of the padded window.  In all else the two are the same. -/
structure Delayed (c : Conf) (d : ℤ) (r1 r : Raw) : Prop where
  same : r1.mute = r.mute
  echo : ∀ p s, (r.i p s : ℂ) + Complex.I * r.q p s =
    Complex.exp (2 * π * Complex.I * (d * s / (c.zp * c.samples))) * (r1.i p s + Complex.I * r1.q p s)

/-- Position `j` of a window of `P` positions moved by `-d`, counted round. -/
def moved (P : ℕ) (d : ℤ) (j : ℕ) : ℕ := (((j : ℤ) - d) % P).toNat

/-! ## Lemmas -/

theorem moved_lt {P : ℕ} (hP : 0 < P) (d : ℤ) (j : ℕ) : moved P d j < P := by
  unfold moved
  have h1 := Int.emod_nonneg ((j : ℤ) - d) (show (P : ℤ) ≠ 0 by omega)
  have h2 := Int.emod_lt_of_pos ((j : ℤ) - d) (show (0 : ℤ) < P by omega)
  omega

theorem corrected_delayed (c : Conf) (hoff : c.cal2 = false) {d : ℤ} {r1 r : Raw} (h : Delayed c d r1 r) (p s : ℕ) :
    r.corrected c p s = Complex.exp (2 * π * Complex.I * (d * s / (c.zp * c.samples))) * r1.corrected c p s := by
  have e : ∀ x : Raw, x.corrected c = Calib.calibrate c.cal1 c.cal2 c.samples x.mute.agc x.mute.sig0Cal x.mute.power x.mute.phase
      (x.mute.gprw c.table) (fun p s => Calib.echo x.mute.agc (x.i p s) (x.q p s)) := fun _ => rfl
  rw [e r, e r1, h.same, hoff]
  unfold Calib.calibrate Calib.cal2
  rw [if_neg (by decide), if_neg (by decide)]
  unfold Calib.cal1 Calib.echo
  dsimp only
  rw [h.echo]
  split
  · ring
  · ring

/-- A displacement of the window. -/
theorem focused_delayed (c : Conf) (hz : 0 < c.zp) (hN : 0 < c.samples) (shift : ℝ) (d : ℤ) (x : ℕ → ℂ) (j : ℕ) :
    focused c shift (fun s => Complex.exp (2 * π * Complex.I * (d * s / (c.zp * c.samples))) * x s) j =
      focused c shift x (moved (c.samples * c.zp) d j) := by
  unfold focused
  congr 1
  refine Finset.sum_congr rfl fun s _ => ?_
  have hP : (0 : ℤ) < c.zp * c.samples := by positivity
  have hPc : ((c.zp : ℂ) * c.samples) ≠ 0 := by
    have h1 : (c.zp : ℂ) ≠ 0 := by exact_mod_cast hz.ne'
    have h2 : (c.samples : ℂ) ≠ 0 := by exact_mod_cast hN.ne'
    exact mul_ne_zero h1 h2
  set P : ℕ := c.zp * c.samples with hPdef
  -- the two positions differ by `d` up to turns
  obtain ⟨t, ht⟩ : ∃ t : ℤ, (((j + (P - P / 2)) % P : ℕ) : ℤ) - d = (((moved (c.samples * c.zp) d j + (P - P / 2)) % P : ℕ) : ℤ) + P * t := by
    have hPp : 0 < P := by positivity
    have hm : ((moved (c.samples * c.zp) d j : ℕ) : ℤ) = ((j : ℤ) - d) % P := by
      unfold moved
      rw [Int.toNat_of_nonneg (Int.emod_nonneg _ (by rw [Nat.mul_comm]; omega)), Nat.mul_comm]
    have : (((j + (P - P / 2)) % P : ℕ) : ℤ) - d ≡ (((moved (c.samples * c.zp) d j + (P - P / 2)) % P : ℕ) : ℤ) [ZMOD P] := by
      push_cast
      rw [hm]
      have h1 : ((j : ℤ) + ((P - P / 2 : ℕ) : ℤ)) % P ≡ (j : ℤ) + ((P - P / 2 : ℕ) : ℤ) [ZMOD P] := Int.mod_modEq _ _
      have h2 : (((j : ℤ) - d) % P + ((P - P / 2 : ℕ) : ℤ)) % P ≡ ((j : ℤ) - d) % P + ((P - P / 2 : ℕ) : ℤ) [ZMOD P] := Int.mod_modEq _ _
      have h3 : ((j : ℤ) - d) % P ≡ (j : ℤ) - d [ZMOD P] := Int.mod_modEq _ _
      refine (h1.sub_right d).trans ?_
      refine Int.ModEq.trans ?_ h2.symm
      refine Int.ModEq.trans ?_ (h3.add_right _).symm
      rw [show (j : ℤ) + ((P - P / 2 : ℕ) : ℤ) - d = (j : ℤ) - d + ((P - P / 2 : ℕ) : ℤ) by ring]
    obtain ⟨t, ht⟩ := this.symm.dvd
    exact ⟨t, by linarith⟩
  set k1 : ℕ := (j + (P - P / 2)) % P
  set k2 : ℕ := (moved (c.samples * c.zp) d j + (P - P / 2)) % P
  have hk : (d : ℂ) = (k1 : ℂ) - k2 - (c.zp * c.samples) * t := by
    have : (d : ℤ) = (k1 : ℤ) - k2 - P * t := by linarith
    have h := congrArg (fun z : ℤ => (z : ℂ)) this
    push_cast at h
    rw [h, hPdef]
    push_cast
    ring
  have hexp : Complex.exp (2 * π * Complex.I * (d * s / (c.zp * c.samples))) * Complex.exp (-(2 * π * Complex.I * ((k1 : ℂ) * s / (c.zp * c.samples)))) =
      Complex.exp (-(2 * π * Complex.I * ((k2 : ℂ) * s / (c.zp * c.samples)))) := by
    rw [← Complex.exp_add, Complex.exp_eq_exp_iff_exists_int]
    refine ⟨-(t * s), ?_⟩
    rw [hk]
    push_cast
    have h1 : (c.zp : ℂ) ≠ 0 := by exact_mod_cast hz.ne'
    have h2 : (c.samples : ℂ) ≠ 0 := by exact_mod_cast hN.ne'
    field_simp
    ring
  rw [← hexp]
  ring

/-! ## C172 -/

/-- **C172.**  With CAL2 off: if the echoes of a file are those of another from `d` positions of the padded window further away, the runs make corresponding
records, and each look has the same samples, `d` positions further on, counted round. -/
theorem delay_moves_looks (c : Conf) (hn : 0 < c.pulses) (hz : 0 < c.zp) (hN : 0 < c.samples) (hoff : c.cal2 = false) (o : World)
    (ho : o.Steady) (alg : Surface.Alg) (d : ℤ) (f1 f : ℕ → Raw) (hf : ∀ id, Delayed c d (f1 id) (f id))
    (prod : State → List Record) (hprod : prod = State.l1b ∨ prod = State.l1bs) (n k : ℕ) (rec : Record)
    (hk : (prod (process c o alg f n).state)[k]? = some rec) :
    ∃ rec1, (prod (process c o alg f1 n).state)[k]? = some rec1 ∧ rec1.outline = rec.outline ∧
      ∀ (i : ℕ) (row : Stack.Row ℝ (ℕ → ℂ)), rec.result.gathered.rows[i]? = some row → ¬ AfterGap c f row.burst → ∀ j < c.samples * c.zp,
        ∃ z, (stackIq c rec)[i]?.bind (·[j]?) = some z ∧ (stackIq c rec1)[i]?.bind (·[moved (c.samples * c.zp) d j]?) = some z := by
  have q1 : ∀ id, (f1 id).quiet = (f id).quiet := fun id => (congrArg Raw.quiet (hf id).same :)
  obtain ⟨W, hW⟩ := looks_linear c hn o ho alg f n prod hprod
  obtain ⟨rec1, k1, o1⟩ := records_alike c hn o ho alg f f1 q1 prod hprod n k rec hk
  refine ⟨rec1, k1, o1, fun i row hi hgap j hj => ?_⟩
  obtain ⟨row1, i1, b1, _⟩ := outline_row o1 i row hi
  obtain ⟨x, s0, h0⟩ := stack_focused c hn hz o alg f n rec (mem_prod hprod hk) i row hi
  obtain ⟨x1, s1, h1⟩ := stack_focused c hn hz o alg f1 n rec1 (mem_prod hprod k1) i row1 i1
  have e1 : rec1.result.shifts = rec.result.shifts := (congrArg (fun r : Record => r.result.shifts) o1 :)
  rw [e1, s0, Option.some.injEq] at s1
  subst s1
  refine ⟨_, h0 j hj, ?_⟩
  rw [h1 _ (moved_lt (by positivity) d j), ← focused_delayed c hz hN]
  congr 2
  funext s
  rw [hW f (fun _ => rfl) k rec hk i row hi hgap s,
    hW f1 q1 k rec1 k1 i row1 i1 (by rw [b1, afterGap_quiet c f f1 q1]; exact hgap) s, b1, Finset.mul_sum]
  refine Finset.sum_congr rfl fun p _ => ?_
  rw [corrected_delayed c hoff (hf _)]
  ring

/-- Without masking every sample of every look is kept. -/
theorem unmasked (c : Conf) (hn : 0 < c.pulses) (hP : 2 ≤ c.samples * c.zp) (hm : c.maskOn = false) (o : World) (alg : Surface.Alg) (file : ℕ → Raw)
    (n : ℕ) (rec : Record) (hr : rec ∈ (process c o alg file n).state.l1b ∨ rec ∈ (process c o alg file n).state.l1bs) (i : ℕ)
    (hi : i < rec.result.gathered.rows.length) (col : ℕ) (hcol : col < c.samples * c.zp) : (rec.result.masked.mask.getD i []).getD col false = true := by
  obtain ⟨bursts, s, p1, p2, p3, p4⟩ := record_parts c o alg file n hn rec hr
  have hwf : Stack.WellFormed (Chain.maskConf c.chain) (Chain.maskInput c.chain bursts s rec.result.gathered.rows) := by
    refine ⟨p3, by simp [Chain.maskInput], ?_⟩
    intro r hr
    simp only [Chain.maskInput, List.mem_map] at hr
    obtain ⟨row, _, rfl⟩ := hr
    simp [Chain.compressed, Chain.maskConf]
  obtain ⟨m, m1, m2⟩ := Chain.masking_rows o.round (Chain.maskConf c.chain) _ hP hwf
  rw [p2, Except.ok.injEq] at m1
  subst m1
  obtain ⟨orig, mrow, prow, v, g1, g2, g3, g4, g5, g6, g7, _⟩ := m2 i hi
  rw [List.getD_eq_getElem?_getD (l := rec.result.masked.mask), g2, Option.getD_some]
  refine (g7 col hcol).1.2 ?_
  intro h
  have h : c.maskOn = true := h
  rw [hm] at h
  cases h

/-- **C172.**  With CAL2, masking and weighting off, and unless a burst is the first after a gap: the waveforms are the same, `d` positions further on, counted
round. -/
theorem delay_moves_waveform (c : Conf) (hn : 0 < c.pulses) (hz : 0 < c.zp) (hP : 2 ≤ c.samples * c.zp) (hoff : c.cal2 = false)
    (hm : c.maskOn = false) (hw : c.weighting = false) (o : World) (ho : o.Steady) (alg : Surface.Alg) (d : ℤ) (f1 f : ℕ → Raw)
    (hf : ∀ id, Delayed c d (f1 id) (f id)) (prod : State → List Record) (hprod : prod = State.l1b ∨ prod = State.l1bs) (n k : ℕ) (rec : Record)
    (hk : (prod (process c o alg f n).state)[k]? = some rec) (hgap : ∀ id ∈ rec.bursts, ¬ AfterGap c f id) :
    ∃ rec1, (prod (process c o alg f1 n).state)[k]? = some rec1 ∧ ∀ col < c.samples * c.zp, ∃ y,
      rec.result.out.waveform[col]? = some y ∧ rec1.result.out.waveform[moved (c.samples * c.zp) d col]? = some y := by
  have hN : 0 < c.samples := by
    rcases Nat.eq_zero_or_pos c.samples with h | h
    · rw [h] at hP; omega
    · exact h
  obtain ⟨rec1, k1, o1, h⟩ := delay_moves_looks c hn hz hN hoff o ho alg d f1 f hf prod hprod n k rec hk
  refine ⟨rec1, k1, fun col hcol => ⟨_, waveform_formula c hn hP hw o alg f n rec (mem_prod hprod hk) col hcol, ?_⟩⟩
  have hc1 := moved_lt (show 0 < c.samples * c.zp by omega) d col
  rw [waveform_formula c hn hP hw o alg f1 n rec1 (mem_prod hprod k1) _ hc1, counted_outline c o1]
  have hcount : counted c rec (moved (c.samples * c.zp) d col) = counted c rec col := by
    unfold counted
    refine List.filter_congr fun i hi => ?_
    have hi := List.mem_range.1 hi
    rw [unmasked c hn hP hm o alg f n rec (mem_prod hprod hk) i hi _ hc1, unmasked c hn hP hm o alg f n rec (mem_prod hprod hk) i hi _ hcol]
  have hgiven : ∀ i ∈ counted c rec col, given c rec1 (moved (c.samples * c.zp) d col) i = given c rec col i := by
    intro i hi
    have hi' : i < rec.result.gathered.rows.length := List.mem_range.1 (List.mem_filter.1 hi).1
    have hrow := List.getElem?_eq_getElem hi'
    obtain ⟨z, z1, z2⟩ := h i _ hrow (hgap _ (List.mem_map.2 ⟨_, List.getElem_mem hi', rfl⟩)) col hcol
    have mD : rec1.result.masked.mask = rec.result.masked.mask := (congrArg (fun r : Record => r.result.masked.mask) o1 :)
    unfold given
    rw [mD, unmasked c hn hP hm o alg f n rec (mem_prod hprod hk) i hi' _ hc1, unmasked c hn hP hm o alg f n rec (mem_prod hprod hk) i hi' _ hcol,
      stackAt_some z1, stackAt_some z2]
  rw [hcount, List.map_congr_left hgiven]

/-- The echoes of the example from one position further away. -/
noncomputable def farFile (k : ℕ) : Raw :=
  { demoFile k with i := fun _ s => Real.cos (2 * π * s / (demoConf.zp * demoConf.samples)), q := fun _ s => Real.sin (2 * π * s / (demoConf.zp * demoConf.samples)) }

theorem far_delayed (id : ℕ) : Delayed demoConf 1 (demoFile id) (farFile id) where
  same := rfl
  echo := by
    intro p s
    have h : 2 * π * Complex.I * (((1 : ℤ) : ℂ) * s / (demoConf.zp * demoConf.samples)) =
        ((2 * π * s / (demoConf.zp * demoConf.samples) : ℝ) : ℂ) * Complex.I := by
      push_cast
      ring
    rw [h, Complex.exp_mul_I]
    simp only [farFile, demoFile]
    push_cast
    ring

/-- The hypotheses are met by the example: the sample 8 in the centre is found one position further on. -/
example (alg : Surface.Alg) : ∃ rec, (process demoConf (demoWorld realArg) alg farFile 2).state.l1b[0]? = some rec ∧
    rec.result.out.waveform[9]? = some (some 8) := by
  obtain ⟨s, rec1, e, h1, _, _, _, h4, h5⟩ := demo_run realArg realArg_isArgsort alg
  have hl : (process demoConf (demoWorld realArg) alg demoFile 2).state.l1b = [rec1] := by rw [e]; exact h1
  obtain ⟨rec, k0, ho⟩ := records_alike demoConf (by decide) (demoWorld realArg) (demo_steady _) alg demoFile farFile (fun _ => rfl) State.l1b
    (Or.inl rfl) 2 0 rec1 (by rw [hl]; rfl)
  have hb : rec.bursts = [0] := by
    have hb : ∀ x : Record, x.bursts = x.outline.bursts := by
      intro x
      unfold Record.bursts Record.outline
      simp
    rw [hb, ho, ← hb, h4]
  obtain ⟨r, k1, h⟩ := delay_moves_waveform demoConf (by decide) (by decide) (by decide) rfl rfl rfl (demoWorld realArg) (demo_steady _) alg 1
    demoFile farFile far_delayed State.l1b (Or.inl rfl) 2 0 rec k0 (by
      rw [hb]
      intro id hid
      rw [List.mem_singleton.1 hid, afterGap_quiet demoConf demoFile farFile (fun _ => rfl)]
      exact demo_no_gap)
  rw [hl] at k1
  have k1 : rec1 = r := Option.some.inj k1
  subst k1
  obtain ⟨y, y1, y2⟩ := h 9 (by decide)
  rw [show moved (demoConf.samples * demoConf.zp) 1 9 = 8 by decide, h5, Option.some.injEq] at y2
  exact ⟨rec, k0, by rw [y1, ← y2]⟩

end Dedop.Whole
