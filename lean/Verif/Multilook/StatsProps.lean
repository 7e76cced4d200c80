import Verif.Multilook.Stats
import Verif.Basic.Tactics
/-!
# The statistics of a stack in the products (C112)
-/
namespace Dedop.Multilook.Stats
open MeasureTheory ProbabilityTheory

/-! ## Specification: the standard deviation of a curve -/

/-- The centre of a curve: its first moment. -/
noncomputable def centroid (g : ℝ → ℝ) : ℝ := (∫ x, x * g x) / ∫ x, g x

/-- The standard deviation of a curve about its centre. -/
noncomputable def spread (g : ℝ → ℝ) : ℝ := √((∫ x, (x - centroid g) ^ 2 * g x) / ∫ x, g x)

/-- A fitted curve is a multiple of the density of a normal distribution with variance `c²/2`. -/
theorem gauss_eq_pdf (a b c : ℝ) (hc : c ≠ 0) :
    gauss a b c = fun x => a * √(Real.pi * c ^ 2) * gaussianPDFReal b (c ^ 2 / 2).toNNReal x := by
  funext x
  simp only [gauss, gaussianPDFReal, Real.coe_toNNReal _ (show (0 : ℝ) ≤ c ^ 2 / 2 by positivity)]
  have h1 : 2 * Real.pi * (c ^ 2 / 2) = Real.pi * c ^ 2 := by ring
  have h2 : 2 * (c ^ 2 / 2) = c ^ 2 := by ring
  have h3 : √(Real.pi * c ^ 2) ≠ 0 := (Real.sqrt_pos.2 (mul_pos Real.pi_pos (by positivity))).ne'
  rw [h1, h2]
  field_simp

theorem integral_gauss (a b c : ℝ) (hc : c ≠ 0) : ∫ x, gauss a b c x = a * √(Real.pi * c ^ 2) := by
  have hv : (c ^ 2 / 2).toNNReal ≠ 0 := by
    have : 0 < c ^ 2 / 2 := by positivity
    simpa using this
  rw [gauss_eq_pdf a b c hc, integral_const_mul, integral_gaussianPDFReal_eq_one b hv, mul_one]

/-- The centre of a fitted curve is its second parameter; its standard deviation is the third divided by √2. -/
theorem gauss_moments (a b c : ℝ) (ha : a ≠ 0) (hc : c ≠ 0) :
    centroid (gauss a b c) = b ∧ spread (gauss a b c) = |c| / √2 := by
  have hpos : 0 < c ^ 2 / 2 := by positivity
  set v : NNReal := (c ^ 2 / 2).toNNReal with hvdef
  have hvr : (v : ℝ) = c ^ 2 / 2 := Real.coe_toNNReal _ hpos.le
  have hv : v ≠ 0 := by
    intro h
    rw [h, NNReal.coe_zero] at hvr
    linarith
  set K := a * √(Real.pi * c ^ 2) with hK
  have hK0 : K ≠ 0 := mul_ne_zero ha (Real.sqrt_pos.2 (mul_pos Real.pi_pos (by positivity))).ne'
  have hg : gauss a b c = fun x => K * gaussianPDFReal b v x := gauss_eq_pdf a b c hc
  have hI : ∫ x, gauss a b c x = K := integral_gauss a b c hc
  have hcen : centroid (gauss a b c) = b := by
    unfold centroid
    rw [hI, div_eq_iff hK0, hg]
    have : (fun x => x * (K * gaussianPDFReal b v x)) = fun x => K * (gaussianPDFReal b v x • x) := by
      funext x; simp only [smul_eq_mul]; ring
    rw [this, integral_const_mul, ← integral_gaussianReal_eq_integral_smul hv, integral_id_gaussianReal]
    ring
  refine ⟨hcen, ?_⟩
  unfold spread
  rw [hcen, hI]
  have hvar : ∫ x, (x - b) ^ 2 * gauss a b c x = K * v := by
    rw [hg]
    have : (fun x => (x - b) ^ 2 * (K * gaussianPDFReal b v x)) = fun x => K * (gaussianPDFReal b v x • (x - b) ^ 2) := by
      funext x; simp only [smul_eq_mul]; ring
    rw [this, integral_const_mul, ← integral_gaussianReal_eq_integral_smul hv]
    have h := variance_fun_id_gaussianReal (μ := b) (v := v)
    rw [variance_eq_integral measurable_id'.aemeasurable] at h
    simp only [integral_id_gaussianReal] at h
    rw [h]
  rw [hvar, mul_comm, mul_div_assoc, div_self hK0, mul_one, hvr, Real.sqrt_div (sq_nonneg c), Real.sqrt_sq_eq_abs]

/-! ## The standard deviation in the products -/

/-- The curve fitted over the look angles, whose parameters go into the products. -/
def lookFit (fit : Fitter) (s : Input) (a b c : ℝ) : Prop :=
  gaussFit fit (points (s.centre s.lookAngles) s.heights) = .ok (a, b, c)

/-- The products carry the peak value, the centre and half the third parameter of the curve fitted over the look angles. -/
theorem characterise_look (fit : Fitter) (s : Input) (st : Stats) (h : characterise fit s = .ok st) :
    ∃ a b c, lookFit fit s a b c ∧ st.max = a ∧ st.lookCentre = b ∧ st.std = c / 2 := by
  unfold characterise at h
  unfold lookFit
  cases h1 : gaussFit fit (points (s.centre s.lookAngles) s.heights) with
  | error e => rw [h1] at h; cases h
  | ok p =>
    obtain ⟨a, b, c⟩ := p
    rw [h1] at h
    dsimp only at h
    cases h2 : gaussFit fit (points (s.centre s.pointingAngles) s.heights) with
    | error e => rw [h2] at h; cases h
    | ok q =>
      obtain ⟨q1, q2, q3⟩ := q
      rw [h2] at h
      dsimp only at h
      split at h
      · cases h
      · injection h with h
        subst h
        exact ⟨a, b, c, rfl, rfl, rfl, rfl⟩

/-- **C112 is violated (standard deviation).**  For every stack and every fit which is a curve at all, the standard deviation in
the products is not that of the fitted curve: it is smaller by the factor √2, and negative if the fit found a negative width,
which gives the same curve. -/
theorem standard_deviation_violated (fit : Fitter) (s : Input) (st : Stats) (h : characterise fit s = .ok st) :
    ∃ a b c, lookFit fit s a b c ∧ gauss a b c = gauss a b (-c) ∧
      (a ≠ 0 → c ≠ 0 → st.lookCentre = centroid (gauss a b c) ∧ st.std ≠ spread (gauss a b c) ∧
        |st.std| = spread (gauss a b c) / √2 ∧ (st.std < 0 ↔ c < 0)) := by
  obtain ⟨a, b, c, h1, h2, h3, h4⟩ := characterise_look fit s st h
  refine ⟨a, b, c, h1, ?_, fun ha hc => ?_⟩
  · funext x; simp [gauss]
  obtain ⟨m1, m2⟩ := gauss_moments a b c ha hc
  have hs : (0 : ℝ) < √2 := by positivity
  have hs2 : √2 * √2 = 2 := Real.mul_self_sqrt (by norm_num)
  have hc0 : 0 < |c| := abs_pos.2 hc
  have hlt : √2 < 2 := by nlinarith
  refine ⟨h3.trans m1.symm, ?_, ?_, ?_⟩
  · rw [h4, m2]
    intro heq
    have h5 : c / 2 ≤ |c| / 2 := by linarith [le_abs_self c]
    have h6 : |c| / 2 < |c| / √2 := by
      rw [div_lt_div_iff₀ (by norm_num) hs]
      nlinarith
    linarith
  · rw [h4, m2, div_div, hs2, abs_div, abs_two]
  · rw [h4]
    constructor <;> intro h <;> linarith

/-! ## The maximum in the products -/

theorem foldl_scale (k : ℝ) (hk : 0 < k) (l : List ℝ) (m : ℝ) :
    (l.map (k * ·)).foldl (fun m p => if p > m then p else m) (k * m) =
      k * l.foldl (fun m p => if p > m then p else m) m := by
  induction l generalizing m with
  | nil => rfl
  | cons x t ih =>
    simp only [List.map_cons, List.foldl_cons]
    by_cases h : x > m
    · rw [if_pos h, if_pos (by nlinarith)]
      exact ih x
    · rw [if_neg h, if_neg (by nlinarith)]
      exact ih m

theorem largest_scale (k : ℝ) (hk : 0 < k) (l : List ℝ) : largest (l.map (k * ·)) = k * largest l := by
  have := foldl_scale k hk l 0
  rw [mul_zero] at this
  exact this

/-- The same stack with all samples multiplied by `k`. -/
def Input.scaled (s : Input) (k : ℝ) : Input := { s with beams := s.beams.map fun row => row.map (k * ·) }

theorem sum_scale (k : ℝ) (l : List ℝ) : (l.map (k * ·)).sum = k * l.sum := by
  induction l with
  | nil => simp
  | cons x t ih => simp [ih, mul_add]

theorem powers_scaled (s : Input) (k : ℝ) : (s.scaled k).powers = s.powers.map (k * ·) := by
  have hm : (s.scaled k).maxStack = s.maxStack := by simp [Input.maxStack, Input.scaled]
  have hb : (s.scaled k).beams = s.beams.map fun row => row.map (k * ·) := rfl
  unfold Input.powers
  rw [hm, hb, ← List.map_take, List.map_map, List.map_map]
  refine List.map_congr_left fun row _ => ?_
  have hr : (s.scaled k).power (row.map (k * ·)) = ((row.map (k * ·)).take (s.samples / 2 * s.padding)).sum := rfl
  simp only [Function.comp]
  rw [hr, ← List.map_take, sum_scale]
  rfl

theorem heights_scaled (s : Input) (k : ℝ) (hk : 0 < k) : (s.scaled k).heights = s.heights := by
  have hw : (s.scaled k).window = s.window := by
    simp [Input.window, Input.closest, Input.maxStack, Input.scaled]
  unfold Input.heights Input.centre
  rw [hw, powers_scaled, largest_scale k hk, List.map_map]
  congr 3
  funext p
  simp only [Function.comp, normalised]
  by_cases h : largest s.powers = 0
  · simp [h]
  · rw [if_neg h, if_neg (mul_ne_zero hk.ne' h), mul_div_mul_left _ _ hk.ne']

/-- The statistics do not depend on the scale of the powers. -/
theorem scale_invariant (fit : Fitter) (s : Input) (k : ℝ) (hk : 0 < k) :
    characterise fit (s.scaled k) = characterise fit s := by
  have hw : (s.scaled k).window = s.window := by
    simp [Input.window, Input.closest, Input.maxStack, Input.scaled]
  unfold characterise
  rw [heights_scaled s k hk, hw]
  have h1 : (s.scaled k).centre (s.scaled k).lookAngles = s.centre s.lookAngles := by
    simp only [Input.centre, hw]; rfl
  have h2 : (s.scaled k).centre (s.scaled k).pointingAngles = s.centre s.pointingAngles := by
    simp only [Input.centre, hw]; rfl
  rw [h1, h2]

/-- **C112 is violated (maximum).**  Whatever fitting method is used: the maximum power of a stack in the products is not the
largest power of its beams, for the stack itself or for the same stack with all powers doubled. -/
theorem maximum_violated (fit : Fitter) (s : Input) (st : Stats) (h : characterise fit s = .ok st)
    (hp : 0 < largest s.powers) :
    ∃ s' st', characterise fit s' = .ok st' ∧ (s' = s ∨ s' = s.scaled 2) ∧ st'.max ≠ largest s'.powers := by
  by_cases hm : st.max = largest s.powers
  · refine ⟨s.scaled 2, st, (scale_invariant fit s 2 (by norm_num)).trans h, .inr rfl, ?_⟩
    rw [powers_scaled, largest_scale 2 (by norm_num), hm]
    intro heq
    linarith
  · exact ⟨s, st, h, .inl rfl, hm⟩

/-! ## Which samples count -/

/-- Two stacks with the same settings and angles whose beams agree in the first half of the samples. -/
def SameFirstHalf (s t : Input) : Prop :=
  s.samples = t.samples ∧ s.padding = t.padding ∧ s.looks = t.looks ∧ s.beamAngles = t.beamAngles ∧
  s.lookAngles = t.lookAngles ∧ s.pointingAngles = t.pointingAngles ∧
  s.beams.map (List.take (s.samples / 2 * s.padding)) = t.beams.map (List.take (s.samples / 2 * s.padding))

/-- Only the first half of the samples of the beams counts. -/
theorem second_half_unused (fit : Fitter) (s t : Input) (h : SameFirstHalf s t) : characterise fit s = characterise fit t := by
  obtain ⟨samples, padding, looks, beams, ba, la, pa⟩ := s
  obtain ⟨_, _, _, beams', _, _, _⟩ := t
  obtain ⟨rfl, rfl, rfl, rfl, rfl, rfl, hb⟩ := h
  dsimp only at hb
  have hlen : beams.length = beams'.length := by
    have := congrArg List.length hb
    simpa using this
  have hpow : ∀ n, (beams.take n).map (fun r : List ℝ => (r.take (samples / 2 * padding)).sum) =
      (beams'.take n).map (fun r : List ℝ => (r.take (samples / 2 * padding)).sum) := by
    intro n
    have := congrArg (fun l => (l.take n).map List.sum) hb
    simpa [← List.map_take, List.map_map, Function.comp_def] using this
  have hp : (⟨samples, padding, looks, beams, ba, la, pa⟩ : Input).powers =
      (⟨samples, padding, looks, beams', ba, la, pa⟩ : Input).powers := by
    simp only [Input.powers, Input.maxStack, hlen]
    exact hpow _
  have hw : (⟨samples, padding, looks, beams, ba, la, pa⟩ : Input).window =
      (⟨samples, padding, looks, beams', ba, la, pa⟩ : Input).window := by
    simp only [Input.window, Input.closest, Input.maxStack, hlen]
  have hh : (⟨samples, padding, looks, beams, ba, la, pa⟩ : Input).heights =
      (⟨samples, padding, looks, beams', ba, la, pa⟩ : Input).heights := by
    simp only [Input.heights, Input.centre, hw, hp]
  simp only [characterise, Input.centre, hw, hh]

/-! ## Skewness and kurtosis -/

theorem sum_sq_nonneg (l : List ℝ) (f : ℝ → ℝ) : 0 ≤ (l.map fun x => f x ^ 2).sum :=
  List.sum_nonneg fun y hy => by
    obtain ⟨x, _, rfl⟩ := List.mem_map.1 hy
    positivity

theorem sum_map_add (l : List ℝ) (f g : ℝ → ℝ) : (l.map fun x => f x + g x).sum = (l.map f).sum + (l.map g).sum := by
  induction l with
  | nil => simp
  | cons x t ih => simp only [List.map_cons, List.sum_cons, ih]; ring

theorem sum_map_mul (l : List ℝ) (k : ℝ) (f : ℝ → ℝ) : (l.map fun x => k * f x).sum = k * (l.map f).sum := by
  induction l with
  | nil => simp
  | cons x t ih => simp only [List.map_cons, List.sum_cons, ih]; ring

theorem sum_map_const (l : List ℝ) (k : ℝ) : (l.map fun _ => k).sum = l.length * k := by
  induction l with
  | nil => simp
  | cons x t ih => simp only [List.map_cons, List.sum_cons, ih, List.length_cons]; push_cast; ring

/-- The standardised values have mean 0 and mean square 1. -/
theorem standardised (l : List ℝ) (h : std l ≠ 0) :
    l ≠ [] ∧ mean (l.map fun x => (x - mean l) / std l) = 0 ∧ mean (l.map fun x => ((x - mean l) / std l) ^ 2) = 1 := by
  have hne : l ≠ [] := fun hl => h (by simp [hl, std, mean])
  have hn : (l.length : ℝ) ≠ 0 := by
    simpa using hne
  have hm : (l.map fun x => x - mean l).sum = 0 := by
    have h1 := sum_map_add l (fun x => x) (fun _ => -mean l)
    simp only [← sub_eq_add_neg] at h1
    rw [h1, sum_map_const, List.map_id']
    simp only [mean]
    field_simp
    ring
  have h2 : std l ^ 2 = (l.map fun x => (x - mean l) ^ 2).sum / l.length := by
    have h3 : 0 ≤ mean (l.map fun x => (x - mean l) ^ 2) :=
      div_nonneg (sum_sq_nonneg l fun x => x - mean l) (by positivity)
    have h4 : std l ^ 2 = mean (l.map fun x => (x - mean l) ^ 2) := Real.sq_sqrt h3
    rw [h4, mean, List.length_map]
  refine ⟨hne, ?_, ?_⟩
  · have : (fun x => (x - mean l) / std l) = fun x => (std l)⁻¹ * (x - mean l) := by
      funext x; rw [div_eq_inv_mul]
    unfold mean at *
    rw [this, sum_map_mul l _ fun x => x - l.sum / l.length, hm]
    simp
  · have : (fun x => ((x - mean l) / std l) ^ 2) = fun x => (std l ^ 2)⁻¹ * (x - mean l) ^ 2 := by
      funext x; rw [div_pow, div_eq_inv_mul]
    have hs2 : std l ^ 2 ≠ 0 := pow_ne_zero 2 h
    conv_lhs => rw [this, mean, sum_map_mul l _ fun x => (x - mean l) ^ 2, List.length_map]
    rw [mul_div_assoc, ← h2, inv_mul_cancel₀ hs2]

/-- The kurtosis is at least the square of the skewness plus 1 (before 3 is subtracted). -/
theorem moments_related (l : List ℝ) (s k : ℝ) (hs : moment l 3 = some s) (hk : moment l 4 = some k) : s ^ 2 + 1 ≤ k := by
  unfold moment at hs hk
  by_cases h : std l = 0
  · rw [if_pos h] at hs; cases hs
  rw [if_neg h] at hs hk
  obtain ⟨hne, h1, h2⟩ := standardised l h
  have hn : 0 < (l.length : ℝ) := by
    have := List.length_pos_iff.2 hne
    exact_mod_cast this
  simp only [Option.some.injEq] at hs hk
  set z : ℝ → ℝ := fun x => (x - mean l) / std l with hz
  have e : ∀ f : ℝ → ℝ, mean (l.map f) = (l.map f).sum / l.length := fun f => by rw [mean, List.length_map]
  rw [e] at h1 h2 hs hk
  rw [div_eq_iff hn.ne'] at h1 h2 hs hk
  have hsq := sum_sq_nonneg l fun x => z x ^ 2 - s * z x - 1
  have hexp : (fun x => (z x ^ 2 - s * z x - 1) ^ 2) = fun x =>
      z x ^ 4 + ((-2 * s) * z x ^ 3 + ((s ^ 2 - 2) * z x ^ 2 + ((2 * s) * z x + 1))) := by
    funext x; ring
  rw [hexp, sum_map_add l (fun x => z x ^ 4), sum_map_add l (fun x => (-2 * s) * z x ^ 3),
    sum_map_add l (fun x => (s ^ 2 - 2) * z x ^ 2), sum_map_add l (fun x => (2 * s) * z x) (fun _ => 1),
    sum_map_mul l _ fun x => z x ^ 3, sum_map_mul l _ fun x => z x ^ 2, sum_map_mul l _ z, sum_map_const,
    h1, h2, hs, hk] at hsq
  have : 0 ≤ (l.length : ℝ) * (k - s ^ 2 - 1) := by nlinarith
  have := nonneg_of_mul_nonneg_right this hn
  linarith

/-- The standard deviation vanishes exactly for equal values. -/
theorem std_eq_zero (l : List ℝ) : std l = 0 ↔ ∀ x ∈ l, ∀ y ∈ l, x = y := by
  rcases eq_or_ne l [] with rfl | hne
  · simp [std, mean]
  have hn : 0 < (l.length : ℝ) := by
    have := List.length_pos_iff.2 hne
    exact_mod_cast this
  have hnn : 0 ≤ (l.map fun x => (x - mean l) ^ 2).sum := sum_sq_nonneg l fun x => x - mean l
  have h0 : std l = 0 ↔ (l.map fun x => (x - mean l) ^ 2).sum = 0 := by
    unfold std
    rw [mean, Real.sqrt_eq_zero (div_nonneg hnn (by positivity)), List.length_map, div_eq_zero_iff]
    exact ⟨fun h => h.resolve_right hn.ne', Or.inl⟩
  rw [h0]
  constructor
  · intro hs
    have hz : ∀ x ∈ l, x = mean l := by
      have key : ∀ (m : List ℝ) (c : ℝ), (m.map fun x => (x - c) ^ 2).sum = 0 → ∀ x ∈ m, x = c := by
        intro m c
        induction m with
        | nil => simp
        | cons y t ih =>
          intro h x hx
          simp only [List.map_cons, List.sum_cons] at h
          have hy : 0 ≤ (y - c) ^ 2 := sq_nonneg _
          have ht := sum_sq_nonneg t fun x => x - c
          rcases List.mem_cons.1 hx with rfl | hx
          · have : (x - c) ^ 2 = 0 := by linarith
            have := pow_eq_zero_iff (two_ne_zero) |>.1 this
            linarith
          · exact ih (by linarith) x hx
      exact key l (mean l) hs
    intro x hx y hy
    rw [hz x hx, hz y hy]
  · intro h
    obtain ⟨x0, hx0⟩ := List.exists_mem_of_ne_nil l hne
    have hsum : l.sum = l.length * x0 := by
      have : l = l.map fun _ => x0 := by
        conv_lhs => rw [← List.map_id' l]
        exact List.map_congr_left fun y hy => h y hy x0 hx0
      conv_lhs => rw [this]
      exact sum_map_const l x0
    have hm : mean l = x0 := by rw [mean, hsum]; field_simp
    have : (l.map fun x => (x - mean l) ^ 2) = l.map fun _ => (0 : ℝ) :=
      List.map_congr_left fun y hy => by rw [hm, h y hy x0 hx0]; simp
    rw [this, sum_map_const, mul_zero]

/-- **C112, what holds.**  When skewness and kurtosis are numbers, they satisfy the relation of the moments of any list: the
kurtosis is at least the square of the skewness minus 2; they are both numbers unless the fitted curve has the same value for
all beams of the window. -/
theorem skewness_kurtosis_partial (fit : Fitter) (s : Input) (st : Stats) (h : characterise fit s = .ok st) :
    (∀ sk ku, st.skewness = some sk → st.kurtosis = some ku → sk ^ 2 - 2 ≤ ku) ∧
    (st.skewness = none ↔ st.kurtosis = none) ∧
    ∃ a b c, gaussFit fit (points ((List.range s.window.2).map fun i : Nat => (i : ℝ)) s.heights) = .ok (a, b, c) ∧
      (st.skewness = none ↔ ∀ i j : Nat, i < s.window.2 → j < s.window.2 → gauss a b c i = gauss a b c j) := by
  unfold characterise at h
  split at h
  · cases h
  split at h
  · cases h
  cases h3 : gaussFit fit (points ((List.range s.window.2).map fun i : Nat => (i : ℝ)) s.heights) with
  | error e => rw [h3] at h; cases h
  | ok q =>
    obtain ⟨a, b, c⟩ := q
    rw [h3] at h
    dsimp only at h
    injection h with h
    subst h
    dsimp only
    set l := (List.range s.window.2).map fun i : Nat => gauss a b c (i : ℝ) with hl
    have hnone : ∀ k, moment l k = none ↔ std l = 0 := by
      intro k
      unfold moment
      by_cases h : std l = 0 <;> simp [h]
    refine ⟨fun sk ku hs hk => ?_, ?_, a, b, c, rfl, ?_⟩
    · obtain ⟨k, hk1, hk2⟩ := Option.map_eq_some_iff.1 hk
      have := moments_related l sk k hs hk1
      linarith
    · rw [Option.map_eq_none_iff, hnone, hnone]
    · rw [hnone, std_eq_zero]
      constructor
      · intro h i j hi hj
        exact h _ (List.mem_map.2 ⟨i, List.mem_range.2 hi, rfl⟩) _ (List.mem_map.2 ⟨j, List.mem_range.2 hj, rfl⟩)
      · intro h x hx y hy
        obtain ⟨i, hi, rfl⟩ := List.mem_map.1 hx
        obtain ⟨j, hj, rfl⟩ := List.mem_map.1 hy
        exact h i j (List.mem_range.1 hi) (List.mem_range.1 hj)

/-- **C112 is violated (numbers).**  A stack of a single beam never gets a skewness or kurtosis, whatever the fit. -/
theorem skewness_violated (fit : Fitter) (s : Input) (hone : s.maxStack = 1) (st : Stats) (h : characterise fit s = .ok st) :
    st.skewness = none ∧ st.kurtosis = none := by
  obtain ⟨_, h2, a, b, c, _, h4⟩ := skewness_kurtosis_partial fit s st h
  have hw : s.window.2 ≤ 1 := by
    simp only [Input.window, hone]
    omega
  have : st.skewness = none := h4.2 fun i j hi hj => by
    have : i = j := by omega
    rw [this]
  exact ⟨this, h2.1 this⟩

/-! ## Which beams count -/

/-- The index found by `argmin` is that of the smallest element, the first one of them. -/
theorem argmin_spec (l : List ℝ) (hl : l ≠ []) :
    ∃ h : argmin l < l.length, (∀ y ∈ l, l[argmin l] ≤ y) ∧ ∀ j (hj : j < argmin l), l[argmin l] < l[j] := by
  have hex : ∃ x ∈ l, decide (∀ y ∈ l, x ≤ y) = true := by
    obtain ⟨x, hx, hm⟩ := l.toFinset.exists_min_image id (by simpa using hl)
    exact ⟨x, List.mem_toFinset.1 hx, decide_eq_true fun y hy => hm y (List.mem_toFinset.2 hy)⟩
  have h : argmin l < l.length := List.findIdx_lt_length_of_exists hex
  have h1 : ∀ y ∈ l, l[argmin l] ≤ y := of_decide_eq_true (List.findIdx_getElem (w := h))
  refine ⟨h, h1, fun j hj => ?_⟩
  have h2 := List.not_of_lt_findIdx hj
  have h3 : ¬ ∀ y ∈ l, l[j] ≤ y := of_decide_eq_false (by simpa using h2)
  by_contra h4
  exact h3 fun y hy => (not_lt.1 h4).trans (h1 y hy)

/-- **C112, the beams of the fit.**  The fits use the beams of the stack (at most as many as there are looks) which are at most
124 places from the beam whose angle is the closest to 90 degrees; their heights are their powers relative to the largest. -/
theorem fitted_beams (s : Input) (ha : s.beamAngles ≠ []) :
    ∃ n : Nat, (∃ h : n < s.beamAngles.length, ∀ x ∈ s.beamAngles, |Real.pi / 2 - s.beamAngles[n]| ≤ |Real.pi / 2 - x|) ∧
      ∀ row i, s.beams[i]? = some row → largest s.powers ≠ 0 →
        ((∃ k, s.window.1 + k = i ∧ s.heights[k]? = some (some ((row.take (s.samples / 2 * s.padding)).sum / largest s.powers))) ↔
          i < s.looks ∧ i ≤ n + 124 ∧ n ≤ i + 124) := by
  have hne : (s.beamAngles.map fun x => |Real.pi / 2 - x|) ≠ [] := by simpa using ha
  obtain ⟨h1, h2, _⟩ := argmin_spec _ hne
  have hc : s.closest < s.beamAngles.length := by simpa [Input.closest] using h1
  refine ⟨s.closest, ⟨hc, fun x hx => ?_⟩, fun row i hi hz => ?_⟩
  · have := h2 _ (List.mem_map.2 ⟨x, hx, rfl⟩)
    simpa [Input.closest] using this
  · obtain ⟨hlen, hrow⟩ := List.getElem?_eq_some_iff.1 hi
    have hget : ∀ k, s.window.1 + k = i → s.heights[k]? =
        if k < s.window.2 ∧ i < s.looks then
          some (some ((row.take (s.samples / 2 * s.padding)).sum / largest s.powers)) else none := by
      intro k hk
      have hp : s.powers[i]? = if i < s.looks then some (row.take (s.samples / 2 * s.padding)).sum else none := by
        unfold Input.powers Input.maxStack
        rw [List.getElem?_map, List.getElem?_take]
        by_cases h4 : i < s.looks
        · rw [if_pos (by omega), if_pos h4, hi]
          rfl
        · rw [if_neg (by omega), if_neg h4]
          rfl
      unfold Input.heights Input.centre
      rw [List.getElem?_take]
      by_cases h3 : k < s.window.2
      · rw [if_pos h3, List.getElem?_drop, hk, List.getElem?_map, hp]
        by_cases h4 : i < s.looks
        · rw [if_pos h4, if_pos ⟨h3, h4⟩, Option.map_some, normalised, if_neg hz]
        · rw [if_neg h4, if_neg fun h => h4 h.2]
          rfl
      · rw [if_neg h3, if_neg fun h => h3 h.1]
    have hw1 : s.window.1 = s.closest - 124 := rfl
    have hw2 : s.window.2 = min (s.closest + 124) (min s.looks s.beams.length - 1) + 1 - (s.closest - 124) := rfl
    constructor
    · rintro ⟨k, hk, h3⟩
      rw [hget k hk] at h3
      split at h3
      · rename_i h4
        omega
      · cases h3
    · rintro ⟨h3, h4, h5⟩
      refine ⟨i - s.window.1, by omega, ?_⟩
      rw [hget _ (by omega), if_pos (by omega)]

/-- **C112, a failed fit.**  If no curve can be fitted, the values of a curve with all parameters 1 are written: they do not describe the stack. -/
theorem failed_fit_violated (fit : Fitter) (s : Input) (hf : ∀ l, fit l = .ok none) :
    ∃ st, characterise fit s = .ok st ∧ st.max = 1 ∧ st.lookCentre = 1 ∧ st.std = 1 / 2 ∧ st.pointingCentre = 1 := by
  simp only [characterise, gaussFit, hf]
  exact ⟨_, rfl, rfl, rfl, rfl, rfl⟩

/-! ## Examples -/

/-- A stack of two beams with four samples; all the power of the second one is in the second half. -/
noncomputable def demoStack : Input where
  samples := 4
  padding := 1
  looks := 10
  beams := [[1, 2, 0, 0], [1, 0, 5, 5]]
  beamAngles := [3 / 2, 2]
  lookAngles := [0, 1]
  pointingAngles := [0, 1]

theorem demo_powers : demoStack.powers = [3, 1] ∧ largest demoStack.powers = 3 := by
  have h : demoStack.powers = [3, 1] := by
    simp [Input.powers, Input.power, Input.maxStack, demoStack]
    norm_num
  refine ⟨h, ?_⟩
  rw [h]
  simp only [largest, List.foldl_cons, List.foldl_nil]
  norm_num

/-- The hypotheses of the theorems are met; with a fit of negative width the standard deviation in the products is negative. -/
example : ∃ st, characterise (fun _ => .ok (some (1, 0, -2))) demoStack = .ok st ∧ 0 < largest demoStack.powers ∧
    st.std < 0 := by
  refine ⟨_, by simp only [characterise, gaussFit]; rfl, by rw [demo_powers.2]; norm_num, ?_⟩
  show (-2 : ℝ) / 2 < 0
  norm_num

example : demoStack.beamAngles ≠ [] ∧ demoStack.beams[1]? = some [1, 0, 5, 5] ∧ largest demoStack.powers ≠ 0 :=
  ⟨by simp [demoStack], rfl, by rw [demo_powers.2]; norm_num⟩

/-- The sum over all samples of a beam would make the second beam the strongest; the statistics are those of a stack without its
second half. -/
theorem power_violated (fit : Fitter) : ∃ t, characterise fit demoStack = characterise fit t ∧
    (demoStack.beams.map List.sum) = [3, 11] ∧ t.beams.map List.sum = [3, 1] := by
  refine ⟨{ demoStack with beams := [[1, 2, 0, 0], [1, 0, 0, 0]] }, second_half_unused fit _ _ ⟨rfl, rfl, rfl, rfl, rfl, rfl, ?_⟩,
    ?_, ?_⟩
  · simp [demoStack]
  · simp [demoStack]; norm_num
  · simp; norm_num

end Dedop.Multilook.Stats
