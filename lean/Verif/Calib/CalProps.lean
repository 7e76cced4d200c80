import Verif.Calib.Model
import Verif.Basic.Tactics
/-!
# The calibrations of the echoes (C81)
-/
namespace Dedop.Calib
open Complex (I exp)
open Finset

/-! ## Lemmas -/

theorem twiddle_comm (N : ℕ) (k n : ℤ) : Signal.twiddle N k n = Signal.twiddle N n k := by
  unfold Signal.twiddle
  congr 3
  ring

theorem twiddle_neg (N : ℕ) (k n : ℤ) : Signal.twiddle N (-k) n = Signal.twiddle N k (-n) := by
  unfold Signal.twiddle
  congr 3
  push_cast
  ring

theorem ifft_fft (N : ℕ) (x : ℕ → ℂ) (s : ℕ) (hs : s < N) : ifft N (fft N x) s = x s := by
  have hN : (N : ℂ) ≠ 0 := by
    have : 0 < N := by omega
    exact_mod_cast this.ne'
  unfold ifft fft
  simp only [sum_mul]
  rw [sum_comm, div_eq_iff hN]
  have : ∀ n ∈ range N, (∑ k ∈ range N, x n * Signal.twiddle N k n * Signal.twiddle N k (-(s : ℤ))) =
      x n * (if n = s then (N : ℂ) else 0) := by
    intro n hn
    rw [← Signal.sum_twiddle N n s (mem_range.mp hn) hs, mul_sum]
    exact sum_congr rfl fun k _ => by ring
  rw [sum_congr rfl this, sum_eq_single s]
  · simp
  · intro b _ hb
    simp [hb]
  · intro h
    exact absurd (mem_range.mpr hs) h

theorem fft_ifft (N : ℕ) (y : ℕ → ℂ) (k : ℕ) (hk : k < N) : fft N (ifft N y) k = y k := by
  have hN : (N : ℂ) ≠ 0 := by
    have : 0 < N := by omega
    exact_mod_cast this.ne'
  unfold ifft fft
  have h1 : ∀ n ∈ range N, (∑ j ∈ range N, y j * Signal.twiddle N j (-(n : ℤ))) / N * Signal.twiddle N k n =
      ∑ j ∈ range N, y j / N * (Signal.twiddle N n k * Signal.twiddle N n (-(j : ℤ))) := by
    intro n _
    rw [sum_div, sum_mul]
    refine sum_congr rfl fun j _ => ?_
    rw [twiddle_comm N k n, ← twiddle_neg N j n, twiddle_comm N (-(j : ℤ)) n]
    ring
  rw [sum_congr rfl h1, sum_comm]
  have h2 : ∀ j ∈ range N, (∑ n ∈ range N, y j / N * (Signal.twiddle N n k * Signal.twiddle N n (-(j : ℤ)))) =
      y j / N * (if k = j then (N : ℂ) else 0) := by
    intro j hj
    rw [← Signal.sum_twiddle N k j hk (mem_range.mp hj), mul_sum]
  rw [sum_congr rfl h2, sum_eq_single k]
  · simp only [if_true]
    exact div_mul_cancel₀ _ hN
  · intro b _ hb
    simp [hb.symm]
  · intro h
    exact absurd (mem_range.mpr hk) h

theorem fft_congr {N : ℕ} {x y : ℕ → ℂ} (h : ∀ n < N, x n = y n) (k : ℕ) : fft N x k = fft N y k :=
  sum_congr rfl fun n hn => by rw [h n (mem_range.mp hn)]

theorem ifft_congr {N : ℕ} {x y : ℕ → ℂ} (h : ∀ n < N, x n = y n) (k : ℕ) : ifft N x k = ifft N y k := by
  unfold ifft
  congr 1
  exact sum_congr rfl fun n hn => by rw [h n (mem_range.mp hn)]

/-- Where a frequency is found in the table of gains: the table is centred, frequency 0 at position `N // 2`. -/
def centred (N k : ℕ) : ℕ := (k + N / 2) % N

theorem unshift (N : ℕ) (f : ℕ → ℂ) (g : ℕ → ℝ) (k : ℕ) (hk : k < N) :
    ifftshift N (fun j => Signal.fftshift N f j / (√(g j) : ℝ)) k = f k / (√(g (centred N k)) : ℝ) := by
  unfold ifftshift Signal.fftshift centred
  simp only
  congr 2
  rw [Nat.mod_add_mod, show k + N / 2 + (N - N / 2) = k + N by omega, Nat.add_mod_right, Nat.mod_eq_of_lt hk]

theorem cal2_on (N : ℕ) (g : ℕ → ℝ) (w : ℕ → ℕ → ℂ) (p s : ℕ) :
    cal2 true N g w p s = ifft N (fun k => fft N (w p) k / (√(g (centred N k)) : ℝ)) s := by
  unfold cal2
  rw [if_pos rfl]
  exact ifft_congr (fun k hk => unshift N _ g k hk) s

theorem ifft_smul (N : ℕ) (c : ℂ) (y : ℕ → ℂ) (s : ℕ) : ifft N (fun k => c * y k) s = c * ifft N y s := by
  unfold ifft
  rw [mul_div_assoc', mul_sum]
  congr 1
  exact sum_congr rfl fun k _ => by ring

theorem fft_smul (N : ℕ) (c : ℂ) (x : ℕ → ℂ) (k : ℕ) : fft N (fun n => x n * c) k = c * fft N x k := by
  unfold fft
  rw [mul_sum]
  exact sum_congr rfl fun n _ => by ring

/-! ## Properties -/

/-- **C81**: with both switches off the echoes are not touched. -/
theorem calibration_off (N : ℕ) (agc sig0Cal : ℝ) (power phase gain : ℕ → ℝ) (w : ℕ → ℕ → ℂ) :
    calibrate false false N agc sig0Cal power phase gain w = w := by
  funext p s
  simp [calibrate, cal1, cal2]

/-- **C81**, CAL1: the power of every sample is multiplied by the correction of its pulse and by the fixed gain, for any phase. -/
theorem cal1_power (agc sig0Cal : ℝ) (power phase : ℕ → ℝ) (w : ℕ → ℕ → ℂ) (p s : ℕ) (h : 0 ≤ power p) :
    ‖cal1 true agc sig0Cal power phase w p s‖ ^ 2 = ‖w p s‖ ^ 2 * power p * pow10 ((sig0Cal - agc) / 10) := by
  unfold cal1
  have hpos : 0 < pow10 ((agc - sig0Cal) / 10) := Real.rpow_pos_of_pos (by norm_num) _
  have he : ‖exp (I * (phase p : ℂ))‖ = 1 := by
    rw [mul_comm]
    exact Complex.norm_exp_ofReal_mul_I _
  rw [if_pos rfl, norm_mul, norm_div, norm_mul, he, Complex.norm_real, Complex.norm_real, Real.norm_of_nonneg (Real.sqrt_nonneg _),
    Real.norm_of_nonneg (Real.sqrt_nonneg _), mul_one, mul_pow, div_pow, Real.sq_sqrt h, Real.sq_sqrt hpos.le]
  have : pow10 ((sig0Cal - agc) / 10) = (pow10 ((agc - sig0Cal) / 10))⁻¹ := by
    unfold pow10
    rw [← Real.rpow_neg (by norm_num)]
    congr 1
    ring
  rw [this]
  ring

/-- **C81**, CAL1: pulses that differ only by the measured variation within the burst become equal. -/
theorem cal1_aligns (agc sig0Cal : ℝ) (power phase : ℕ → ℝ) (w : ℕ → ℕ → ℂ) (x : ℕ → ℂ) (hp : ∀ p, 0 < power p)
    (h : ∀ p s, w p s = x s * exp (-(I * phase p)) / (√(power p) : ℝ)) (p q s : ℕ) :
    cal1 true agc sig0Cal power phase w p s = cal1 true agc sig0Cal power phase w q s := by
  have key : ∀ p, cal1 true agc sig0Cal power phase w p s = x s / (√(pow10 ((agc - sig0Cal) / 10)) : ℝ) := by
    intro p
    have hs : ((√(power p) : ℝ) : ℂ) ≠ 0 := by exact_mod_cast (Real.sqrt_pos.mpr (hp p)).ne'
    unfold cal1
    rw [if_pos rfl, h, Complex.exp_neg]
    have he := Complex.exp_ne_zero (I * (phase p : ℂ))
    field_simp
  rw [key p, key q]

/-- **C81**, CAL2: frequency `k` of each pulse is divided by the square root of its gain; nothing else changes in the spectrum. -/
theorem cal2_spectrum (N : ℕ) (gain : ℕ → ℝ) (w : ℕ → ℕ → ℂ) (p k : ℕ) (hk : k < N) :
    fft N (cal2 true N gain w p) k = fft N (w p) k / (√(gain (centred N k)) : ℝ) := by
  rw [fft_congr fun n _ => cal2_on N gain w p n, fft_ifft N _ k hk]

/-- **C81**, CAL2 is determined by that: it is the only echo with this spectrum. -/
theorem cal2_unique (N : ℕ) (gain : ℕ → ℝ) (w : ℕ → ℕ → ℂ) (p : ℕ) (x : ℕ → ℂ)
    (h : ∀ k < N, fft N x k = fft N (w p) k / (√(gain (centred N k)) : ℝ)) (s : ℕ) (hs : s < N) :
    cal2 true N gain w p s = x s := by
  rw [cal2_on, ← ifft_fft N x s hs]
  exact ifft_congr (fun k hk => (h k hk).symm) s

/-- **C81**, CAL2 with a flat gain of 1 leaves the echoes as they are. -/
theorem cal2_flat (N : ℕ) (gain : ℕ → ℝ) (hg : ∀ k < N, gain k = 1) (w : ℕ → ℕ → ℂ) (p s : ℕ) (hs : s < N) :
    cal2 true N gain w p s = w p s := by
  refine cal2_unique N gain w p (w p) (fun k hk => ?_) s hs
  rw [hg (centred N k) (Nat.mod_lt _ (by omega))]
  simp

/-- **C81**: echoes distorted by the gain are restored. -/
theorem cal2_restores (N : ℕ) (gain : ℕ → ℝ) (hg : ∀ k < N, 0 < gain k) (w : ℕ → ℕ → ℂ) (x : ℕ → ℕ → ℂ)
    (h : ∀ p k, k < N → fft N (w p) k = fft N (x p) k * (√(gain (centred N k)) : ℝ)) (p s : ℕ) (hs : s < N) :
    cal2 true N gain w p s = x p s := by
  refine cal2_unique N gain w p (x p) (fun k hk => ?_) s hs
  have : ((√(gain (centred N k)) : ℝ) : ℂ) ≠ 0 := by
    exact_mod_cast (Real.sqrt_pos.mpr (hg _ (Nat.mod_lt _ (by omega)))).ne'
  rw [h p k hk, mul_div_cancel_right₀ _ this]

/-- **C81**: the order of the two calibrations does not matter. -/
theorem calibrations_commute (N : ℕ) (agc sig0Cal : ℝ) (power phase gain : ℕ → ℝ) (w : ℕ → ℕ → ℂ) (p s : ℕ) :
    calibrate true true N agc sig0Cal power phase gain w p s =
      cal1 true agc sig0Cal power phase (cal2 true N gain w) p s := by
  unfold calibrate
  rw [cal2_on]
  set c : ℂ := (√(power p) : ℝ) * exp (I * phase p) / (√(pow10 ((agc - sig0Cal) / 10)) : ℝ) with hc
  have h1 : cal1 true agc sig0Cal power phase w p = fun s => w p s * c := by
    funext s
    simp [cal1, hc]
  have h2 : cal1 true agc sig0Cal power phase (cal2 true N gain w) p s = cal2 true N gain w p s * c := by
    simp [cal1, hc]
  rw [h1, h2, cal2_on, mul_comm, ← ifft_smul]
  refine ifft_congr (fun k _ => ?_) s
  rw [fft_smul]
  ring

/-- **C81**, switches: each calibration is made if and only if its own switch is on.  The spectrum of each pulse is multiplied by the
correction of the pulse with CAL1 on and divided by the square root of the gain with CAL2 on. -/
theorem calibration_switches (on1 on2 : Bool) (N : ℕ) (agc sig0Cal : ℝ) (power phase gain : ℕ → ℝ) (w : ℕ → ℕ → ℂ) (p k : ℕ)
    (hk : k < N) :
    fft N (calibrate on1 on2 N agc sig0Cal power phase gain w p) k =
      fft N (w p) k *
        (if on1 then (√(power p) : ℝ) * exp (I * phase p) / (√(pow10 ((agc - sig0Cal) / 10)) : ℝ) else 1) /
        (if on2 then ((√(gain (centred N k)) : ℝ) : ℂ) else 1) := by
  have h1 : fft N (cal1 on1 agc sig0Cal power phase w p) k = fft N (w p) k *
      (if on1 then (√(power p) : ℝ) * exp (I * phase p) / (√(pow10 ((agc - sig0Cal) / 10)) : ℝ) else 1) := by
    cases on1 with
    | true =>
      have : cal1 true agc sig0Cal power phase w p = fun s => w p s *
          ((√(power p) : ℝ) * exp (I * phase p) / (√(pow10 ((agc - sig0Cal) / 10)) : ℝ)) := by
        funext s
        simp [cal1]
      rw [this, fft_smul, if_pos rfl, mul_comm]
    | false =>
      have : cal1 false agc sig0Cal power phase w p = w p := by
        funext s
        simp [cal1]
      rw [this]
      simp
  unfold calibrate
  cases on2 with
  | true => rw [cal2_spectrum N gain _ p k hk, h1, if_pos rfl]
  | false =>
    have : cal2 false N gain (cal1 on1 agc sig0Cal power phase w) p = cal1 on1 agc sig0Cal power phase w p := by
      funext s
      simp [cal2]
    rw [this, h1]
    simp

/-- A burst of two pulses of the form required by `cal1_aligns`, and a table of gains that is not flat with echoes distorted by it. -/
example : ∃ (power phase : ℕ → ℝ) (w : ℕ → ℕ → ℂ) (x : ℕ → ℂ), (∀ p, 0 < power p) ∧
    (∀ p s, w p s = x s * exp (-(I * phase p)) / (√(power p) : ℝ)) ∧ w 0 0 ≠ w 1 0 := by
  refine ⟨fun p => if p = 0 then 1 else 4, fun _ => 0, _, fun _ => 1, fun p => by dsimp only; split <;> norm_num, fun _ _ => rfl, ?_⟩
  have : √(4 : ℝ) = 2 := by
    rw [show (4 : ℝ) = 2 ^ 2 by norm_num, Real.sqrt_sq (by norm_num)]
  simp [this]
example : ∃ (gain : ℕ → ℝ) (w x : ℕ → ℕ → ℂ), (∀ k < 2, 0 < gain k) ∧ gain 0 ≠ gain 1 ∧ x 0 0 ≠ 0 ∧
    ∀ p k, k < 2 → fft 2 (w p) k = fft 2 (x p) k * (√(gain (centred 2 k)) : ℝ) :=
  ⟨fun k => k + 1, fun p => ifft 2 fun k => fft 2 (fun _ => 1) k * (√((centred 2 k : ℕ) + 1 : ℝ) : ℝ), fun _ _ => 1,
    fun k _ => by positivity, by norm_num, one_ne_zero, fun p k hk => fft_ifft 2 _ k hk⟩

end Dedop.Calib
