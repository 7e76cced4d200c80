import Verif.Basic.Tactics
import Mathlib.Analysis.SpecialFunctions.Complex.Circle
import Mathlib.Algebra.Field.GeomSum
import Mathlib.Algebra.BigOperators.Field
import Mathlib.Algebra.Order.BigOperators.Ring.Finset

/-!
# The discrete Fourier transform (model of `numpy.fft`)

`np.fft.fft(x, norm='ortho')`, `np.fft.fftshift` and `np.fft.ifft` on a vector of length `N`, over the
complex numbers (the code computes in double precision).  A vector is a function on `ℕ` used below `N`.
-/
namespace Dedop.Signal

open Finset Complex

/-- The factor `exp(-2 π i k n / N)`. -/
noncomputable def twiddle (N : ℕ) (k n : ℤ) : ℂ := exp (-(2 * Real.pi * I * (k * n / N)))

/-- `np.fft.fft(x, norm='ortho')[k]`. -/
noncomputable def dft (N : ℕ) (x : ℕ → ℂ) (k : ℕ) : ℂ :=
  (∑ n ∈ range N, x n * twiddle N k n) / (Real.sqrt N : ℝ)

/-- `np.fft.fftshift(x)[k]`: `x` rolled by `N // 2`. -/
def fftshift {A : Type} (N : ℕ) (x : ℕ → A) (k : ℕ) : A := x ((k + (N - N / 2)) % N)

theorem twiddle_ne_zero (N : ℕ) (k n : ℤ) : twiddle N k n ≠ 0 := exp_ne_zero _

theorem twiddle_zero_left (N : ℕ) (n : ℤ) : twiddle N 0 n = 1 := by simp [twiddle]

theorem norm_twiddle (N : ℕ) (k n : ℤ) : ‖twiddle N k n‖ = 1 := by
  unfold twiddle
  have : -(2 * Real.pi * I * ((k : ℂ) * n / N)) = ((-(2 * Real.pi * (k * n / N)) : ℝ) : ℂ) * I := by
    push_cast; ring
  rw [this, norm_exp_ofReal_mul_I]

theorem twiddle_add (N : ℕ) (k n m : ℤ) : twiddle N k (n + m) = twiddle N k n * twiddle N k m := by
  unfold twiddle
  rw [← exp_add]
  congr 1
  push_cast
  ring

theorem twiddle_add_left (N : ℕ) (k j n : ℤ) : twiddle N (k + j) n = twiddle N k n * twiddle N j n := by
  unfold twiddle
  rw [← exp_add]
  congr 1
  push_cast
  ring

/-- Frequencies that differ by a multiple of `N` are the same. -/
theorem twiddle_add_period (N : ℕ) (hN : 0 < N) (k n m : ℤ) : twiddle N (k + m * N) n = twiddle N k n := by
  rw [twiddle_add_left]
  have : twiddle N (m * N) n = 1 := by
    unfold twiddle
    have hN' : (N : ℂ) ≠ 0 := by exact_mod_cast hN.ne'
    rw [exp_eq_one_iff]
    refine ⟨-(m * n), ?_⟩
    push_cast
    field_simp
  rw [this, mul_one]

theorem star_twiddle (N : ℕ) (k n : ℤ) : star (twiddle N k n) = twiddle N k (-n) := by
  unfold twiddle
  rw [← starRingEnd_apply, ← exp_conj]
  congr 1
  have h2 : (starRingEnd ℂ) 2 = 2 := map_ofNat _ 2
  simp only [map_neg, map_mul, map_div₀, conj_I, conj_ofReal, h2, map_intCast, map_natCast, Int.cast_neg]
  ring

/-- Orthogonality of the columns. -/
theorem sum_twiddle (N : ℕ) (a b : ℕ) (ha : a < N) (hb : b < N) :
    ∑ k ∈ range N, twiddle N k a * twiddle N k (-(b : ℤ)) = if a = b then (N : ℂ) else 0 := by
  have hN : 0 < N := by omega
  have hN' : (N : ℂ) ≠ 0 := by exact_mod_cast hN.ne'
  have h1 : ∀ k ∈ range N, twiddle N k a * twiddle N k (-(b : ℤ)) =
      (exp (-(2 * Real.pi * I * (((a : ℂ) - b) / N)))) ^ k := by
    intro k _
    rw [← twiddle_add, ← exp_nat_mul]
    unfold twiddle
    congr 1
    push_cast
    ring
  rw [sum_congr rfl h1]
  by_cases hab : a = b
  · subst hab; simp
  · rw [if_neg hab]
    set z := exp (-(2 * Real.pi * I * (((a : ℂ) - b) / N))) with hz
    have hz1 : z ≠ 1 := by
      intro h
      rw [hz, exp_eq_one_iff] at h
      obtain ⟨n, hn⟩ := h
      have hpi : (2 * Real.pi * I : ℂ) ≠ 0 := by
        simp [Real.pi_ne_zero]
      have : (a : ℂ) - b = -(n * N) := by
        have : (2 * Real.pi * I : ℂ) * (((a : ℂ) - b) / N) = (2 * Real.pi * I) * (-n) := by
          linear_combination -hn
        have := mul_left_cancel₀ hpi this
        field_simp at this
        linear_combination this
      have hi : (a : ℤ) - b = -(n * N) := by exact_mod_cast this
      have hn0 : n = 0 := by
        rcases lt_trichotomy n 0 with h | h | h
        · nlinarith
        · exact h
        · nlinarith
      rw [hn0] at hi
      omega
    have hzN : z ^ N = 1 := by
      rw [hz, ← exp_nat_mul, exp_eq_one_iff]
      refine ⟨(b : ℤ) - a, ?_⟩
      push_cast
      field_simp
      ring
    rw [geom_sum_eq hz1, hzN, sub_self, zero_div]

/-- **Parseval.**  The orthonormal transform preserves the energy. -/
theorem parseval (N : ℕ) (x : ℕ → ℂ) :
    ∑ k ∈ range N, ‖dft N x k‖ ^ 2 = ∑ n ∈ range N, ‖x n‖ ^ 2 := by
  rcases Nat.eq_zero_or_pos N with rfl | hN
  · simp
  have hN' : (N : ℂ) ≠ 0 := by exact_mod_cast hN.ne'
  have key : (∑ k ∈ range N, dft N x k * star (dft N x k)) = ∑ n ∈ range N, x n * star (x n) := by
    have e : ∀ k ∈ range N, dft N x k * star (dft N x k) =
        (∑ a ∈ range N, ∑ b ∈ range N,
          x a * star (x b) * (twiddle N k a * twiddle N k (-(b : ℤ)))) / N := by
      intro k _
      unfold dft
      rw [star_div₀, star_sum, div_mul_div_comm, sum_mul_sum]
      congr 1
      · apply sum_congr rfl; intro a _
        apply sum_congr rfl; intro b _
        rw [star_mul', star_twiddle]
        ring
      · rw [star_def, conj_ofReal, ← ofReal_mul, Real.mul_self_sqrt (by positivity)]
        simp
    rw [sum_congr rfl e, ← sum_div, div_eq_iff hN', sum_comm, sum_mul]
    apply sum_congr rfl
    intro a ha
    rw [sum_comm]
    have : ∀ b ∈ range N, ∑ k ∈ range N, x a * star (x b) * (twiddle N k a * twiddle N k (-(b : ℤ))) =
        x a * star (x b) * (if a = b then (N : ℂ) else 0) := by
      intro b hb
      rw [← mul_sum, sum_twiddle N a b (mem_range.1 ha) (mem_range.1 hb)]
    rw [sum_congr rfl this]
    simp only [mul_ite, mul_zero]
    rw [sum_ite_eq, if_pos ha]
  have conv : ∀ z : ℂ, z * star z = ((‖z‖ ^ 2 : ℝ) : ℂ) := by
    intro z
    rw [star_def, mul_conj, normSq_eq_norm_sq]
  simp only [conv] at key
  exact_mod_cast key

/-- Shifting only reorders. -/
theorem sum_fftshift {A : Type} [AddCommMonoid A] (N : ℕ) (f : ℕ → A) :
    ∑ k ∈ range N, fftshift N f k = ∑ k ∈ range N, f k := by
  unfold fftshift
  apply sum_bij' (fun k _ => (k + (N - N / 2)) % N) (fun k _ => (k + N / 2) % N)
  · intro k hk
    have := mem_range.1 hk
    exact mem_range.2 (Nat.mod_lt _ (by omega))
  · intro k hk
    have := mem_range.1 hk
    exact mem_range.2 (Nat.mod_lt _ (by omega))
  · intro k hk
    have := mem_range.1 hk
    rw [Nat.mod_add_mod, show k + (N - N / 2) + N / 2 = k + N by omega, Nat.add_mod_right,
      Nat.mod_eq_of_lt this]
  · intro k hk
    have := mem_range.1 hk
    rw [Nat.mod_add_mod, show k + N / 2 + (N - N / 2) = k + N by omega, Nat.add_mod_right,
      Nat.mod_eq_of_lt this]
  · intro k _
    rfl

/-- Row `k` of the shifted transform belongs to the signed frequency `k - N // 2`. -/
theorem fftshift_dft (N : ℕ) (x : ℕ → ℂ) (k : ℕ) (hk : k < N) :
    fftshift N (dft N x) k =
      (∑ n ∈ range N, x n * twiddle N ((k : ℤ) - (N / 2 : ℕ)) n) / (Real.sqrt N : ℝ) := by
  unfold fftshift dft
  congr 1
  apply sum_congr rfl
  intro n _
  congr 1
  have hN : 0 < N := by omega
  have h := Nat.div_add_mod (k + (N - N / 2)) N
  have e : (k : ℤ) - (N / 2 : ℕ) =
      (((k + (N - N / 2)) % N : ℕ) : ℤ) + ((((k + (N - N / 2)) / N : ℕ) : ℤ) - 1) * N := by
    have h' : (N : ℤ) * (((k + (N - N / 2)) / N : ℕ) : ℤ) + (((k + (N - N / 2)) % N : ℕ) : ℤ) =
        k + (N - (N / 2 : ℕ)) := by
      have := congrArg (Nat.cast (R := ℤ)) h
      push_cast [Nat.cast_sub (Nat.div_le_self N 2)] at this ⊢
      exact this
    linear_combination -h'
  rw [e, twiddle_add_period N hN]

end Dedop.Signal
