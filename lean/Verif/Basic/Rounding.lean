import Verif.Monitor.ConsoleLemmas
import Mathlib.Data.Int.Log
import Mathlib.Algebra.Order.Field.Power
import Mathlib.Algebra.Order.Ring.Pow
import Mathlib.Tactic.Positivity
import Mathlib.Tactic.Ring
import Mathlib.Tactic.Linarith
import Mathlib.Tactic.GCongr

/-!
# Rounded arithmetic

What is used of floating-point numbers: rounding after each operation on numbers that are not negative.  Rounding half to even to a fixed number of
binary digits is an instance.  `pyRound` is used for rounding half to even.
-/
namespace Dedop
open Dedop.Monitor (pyRound pyRound_int pyRound_mono pyRound_nearest)

/-! ## Specification: rounding -/

/-- A way to round the results of operations on numbers that are not negative: it keeps the order, has a relative error of at most `u`, and leaves
rounded numbers as they are. -/
structure Rounding where
  fl : ℚ → ℚ
  u : ℚ
  mono : ∀ x y, 0 ≤ x → x ≤ y → fl x ≤ fl y
  err : ∀ x, 0 ≤ x → |fl x - x| ≤ u * x
  idem : ∀ x, 0 ≤ x → fl (fl x) = fl x
  nonneg : ∀ x, 0 ≤ x → 0 ≤ fl x
  u_nonneg : 0 ≤ u

/-! ## Rounding to a number of binary digits -/

/-- Round half to even to `p + 1` significant binary digits (`p = 52` for `float`; without bounds of the exponent). -/
def binary (p : Nat) (x : ℚ) : ℚ :=
  if x ≤ 0 then 0 else (pyRound (x / 2 ^ (Int.log 2 x - p)) : ℚ) * 2 ^ (Int.log 2 x - p)

theorem binary_bounds (p : Nat) (x : ℚ) (h : 0 < x) :
    (2 : ℚ) ^ p ≤ x / 2 ^ (Int.log 2 x - p) ∧ x / 2 ^ (Int.log 2 x - p) < (2 : ℚ) ^ (p + 1) := by
  have hp : (0 : ℚ) < 2 ^ (Int.log 2 x - p) := by positivity
  have h1 := Int.zpow_log_le_self (b := 2) (by norm_num) h
  have h2 := Int.lt_zpow_succ_log_self (b := 2) (by norm_num) x
  norm_num at h1 h2
  constructor
  · rw [le_div_iff₀ hp, ← zpow_natCast, ← zpow_add₀ (by norm_num)]
    rw [show (p : ℤ) + (Int.log 2 x - p) = Int.log 2 x by ring]
    exact h1
  · rw [div_lt_iff₀ hp, ← zpow_natCast, ← zpow_add₀ (by norm_num)]
    rw [show ((p + 1 : ℕ) : ℤ) + (Int.log 2 x - p) = Int.log 2 x + 1 by push_cast; ring]
    exact h2

theorem pyRound_bounds_pow (p : Nat) (x : ℚ) (h : 0 < x) :
    (2 : ℤ) ^ p ≤ pyRound (x / 2 ^ (Int.log 2 x - p)) ∧ pyRound (x / 2 ^ (Int.log 2 x - p)) ≤ (2 : ℤ) ^ (p + 1) := by
  obtain ⟨h1, h2⟩ := binary_bounds p x h
  constructor
  · have := pyRound_mono h1
    rw [show ((2 : ℚ) ^ p) = (((2 : ℤ) ^ p : ℤ) : ℚ) by push_cast; ring, pyRound_int] at this
    exact this
  · have := pyRound_mono h2.le
    rw [show ((2 : ℚ) ^ (p + 1)) = (((2 : ℤ) ^ (p + 1) : ℤ) : ℚ) by push_cast; ring, pyRound_int] at this
    exact this

theorem binary_between (p : Nat) (x : ℚ) (h : 0 < x) : (2 : ℚ) ^ Int.log 2 x ≤ binary p x ∧ binary p x ≤ (2 : ℚ) ^ (Int.log 2 x + 1) := by
  obtain ⟨h1, h2⟩ := pyRound_bounds_pow p x h
  have hp : (0 : ℚ) < 2 ^ (Int.log 2 x - p) := by positivity
  rw [binary, if_neg (not_le.mpr h)]
  have h1' : (2 : ℚ) ^ p ≤ (pyRound (x / 2 ^ (Int.log 2 x - p)) : ℚ) := by exact_mod_cast h1
  have h2' : (pyRound (x / 2 ^ (Int.log 2 x - p)) : ℚ) ≤ (2 : ℚ) ^ (p + 1) := by exact_mod_cast h2
  constructor
  · calc (2 : ℚ) ^ Int.log 2 x = 2 ^ p * 2 ^ (Int.log 2 x - p) := by
          rw [← zpow_natCast, ← zpow_add₀ (by norm_num)]; congr 1; ring
      _ ≤ _ := by gcongr
  · calc _ ≤ (2 : ℚ) ^ (p + 1) * 2 ^ (Int.log 2 x - p) := by gcongr
      _ = _ := by rw [← zpow_natCast, ← zpow_add₀ (by norm_num)]; congr 1; push_cast; ring

theorem binary_of (p : Nat) (e : ℤ) (k : ℤ) (h1 : (2 : ℤ) ^ p ≤ k) (h2 : k < (2 : ℤ) ^ (p + 1)) : binary p ((k : ℚ) * 2 ^ e) = (k : ℚ) * 2 ^ e := by
  have hp : (0 : ℚ) < 2 ^ e := by positivity
  have hk : (0 : ℚ) < k := by
    have : (0 : ℤ) < k := lt_of_lt_of_le (by positivity) h1
    exact_mod_cast this
  have hx : (0 : ℚ) < (k : ℚ) * 2 ^ e := by positivity
  have h1' : (2 : ℚ) ^ p ≤ k := by exact_mod_cast h1
  have h2' : (k : ℚ) < (2 : ℚ) ^ (p + 1) := by exact_mod_cast h2
  have hlog : Int.log 2 ((k : ℚ) * 2 ^ e) = p + e := by
    apply le_antisymm
    · have : ((k : ℚ) * 2 ^ e) < ((2 : ℕ) : ℚ) ^ (p + e + 1) := by
        calc (k : ℚ) * 2 ^ e < 2 ^ (p + 1) * 2 ^ e := by gcongr
          _ = _ := by rw [← zpow_natCast, ← zpow_add₀ (by norm_num)]; push_cast; congr 1; ring
      have := (Int.lt_zpow_iff_log_lt (by norm_num) hx).mp this
      omega
    · have : ((2 : ℕ) : ℚ) ^ ((p : ℤ) + e) ≤ (k : ℚ) * 2 ^ e := by
        calc ((2 : ℕ) : ℚ) ^ ((p : ℤ) + e) = 2 ^ p * 2 ^ e := by push_cast; rw [zpow_add₀ (by norm_num), zpow_natCast]
          _ ≤ _ := by gcongr
      exact (Int.zpow_le_iff_le_log (by norm_num) hx).mp this
  rw [binary, if_neg (not_le.mpr hx), hlog, show (p : ℤ) + e - p = e by ring, mul_div_assoc, div_self hp.ne', mul_one, pyRound_int]

/-- Rounding to `p + 1` binary digits is a rounding in the sense of the specification. -/
def binaryRounding (p : Nat) : Rounding where
  fl := binary p
  u := 1 / 2 ^ (p + 1)
  u_nonneg := by positivity
  nonneg := by
    intro x hx
    rcases hx.eq_or_lt with rfl | h
    · simp [binary]
    · exact le_trans (by positivity) (binary_between p x h).1
  mono := by
    intro x y hx hxy
    rcases hx.eq_or_lt with rfl | h
    · rcases hxy.eq_or_lt with rfl | h'
      · rfl
      · refine le_trans ?_ (binary_between p y h').1
        simp only [binary, le_refl, if_true]
        positivity
    · have hy : 0 < y := lt_of_lt_of_le h hxy
      have hlog := Int.log_mono_right (b := 2) h hxy
      rcases hlog.eq_or_lt with e | hl
      · rw [binary, binary, if_neg (not_le.mpr h), if_neg (not_le.mpr hy), e]
        have hp : (0 : ℚ) < 2 ^ (Int.log 2 y - p) := by positivity
        have : pyRound (x / 2 ^ (Int.log 2 y - p)) ≤ pyRound (y / 2 ^ (Int.log 2 y - p)) := pyRound_mono (by gcongr)
        have : (pyRound (x / 2 ^ (Int.log 2 y - p)) : ℚ) ≤ (pyRound (y / 2 ^ (Int.log 2 y - p)) : ℚ) := by exact_mod_cast this
        gcongr
      · calc binary p x ≤ (2 : ℚ) ^ (Int.log 2 x + 1) := (binary_between p x h).2
          _ ≤ (2 : ℚ) ^ (Int.log 2 y) := zpow_le_zpow_right₀ (by norm_num) (by omega)
          _ ≤ _ := (binary_between p y hy).1
  err := by
    intro x hx
    rcases hx.eq_or_lt with rfl | h
    · simp [binary]
    · rw [binary, if_neg (not_le.mpr h)]
      have hp : (0 : ℚ) < 2 ^ (Int.log 2 x - p) := by positivity
      obtain ⟨h1, _⟩ := binary_bounds p x h
      have hn := (pyRound_nearest (x / 2 ^ (Int.log 2 x - p))).1
      set q := x / 2 ^ (Int.log 2 x - p) with hq
      have hx' : x = q * 2 ^ (Int.log 2 x - p) := by rw [hq]; field_simp
      have : (pyRound q : ℚ) * 2 ^ (Int.log 2 x - p) - x = ((pyRound q : ℚ) - q) * 2 ^ (Int.log 2 x - p) := by
        rw [sub_mul, ← hx']
      rw [this, abs_mul, abs_of_pos hp]
      calc |(pyRound q : ℚ) - q| * 2 ^ (Int.log 2 x - p) ≤ 1 / 2 * 2 ^ (Int.log 2 x - p) := by gcongr
        _ = 1 / 2 ^ (p + 1) * (2 ^ p * 2 ^ (Int.log 2 x - p)) := by field_simp; ring
        _ ≤ 1 / 2 ^ (p + 1) * (q * 2 ^ (Int.log 2 x - p)) := by gcongr
        _ = 1 / 2 ^ (p + 1) * x := by rw [← hx']
  idem := by
    intro x hx
    rcases hx.eq_or_lt with rfl | h
    · simp [binary]
    · obtain ⟨h1, h2⟩ := pyRound_bounds_pow p x h
      have e : binary p x = (pyRound (x / 2 ^ (Int.log 2 x - p)) : ℚ) * 2 ^ (Int.log 2 x - p) := by rw [binary, if_neg (not_le.mpr h)]
      rw [e]
      rcases h2.eq_or_lt with h2 | h2
      · rw [h2]
        have : (((2 : ℤ) ^ (p + 1) : ℤ) : ℚ) * 2 ^ (Int.log 2 x - p) = (((2 : ℤ) ^ p : ℤ) : ℚ) * 2 ^ (Int.log 2 x - p + 1) := by
          push_cast
          rw [zpow_add₀ (by norm_num), pow_succ, zpow_one]
          ring
        rw [this]
        exact binary_of p _ _ le_rfl (by rw [pow_succ]; have : (0 : ℤ) < 2 ^ p := by positivity
                                         linarith)
      · exact binary_of p _ _ h1 h2

/-! ## Numbers that agree up to some roundings -/

/-- `a` agrees with `b` up to `m` roundings of relative error `u`. -/
def Close (u : ℚ) (m : Nat) (a b : ℚ) : Prop := |a - b| ≤ ((1 + u) ^ m - 1) * b

section Close
variable {u : ℚ} (hu : 0 ≤ u)
include hu

theorem one_le_pow_u (m : Nat) : (1 : ℚ) ≤ (1 + u) ^ m := one_le_pow₀ (by linarith)

theorem Close.rfl' (a : ℚ) : Close u 0 a a := by simp [Close]

theorem Close.le {m n : Nat} {a b : ℚ} (h : Close u m a b) (hb : 0 ≤ b) (hmn : m ≤ n) : Close u n a b := by
  refine le_trans h ?_
  have : (1 + u) ^ m ≤ (1 + u) ^ n := pow_le_pow_right₀ (by linarith) hmn
  gcongr

theorem Close.trans {m n : Nat} {a b c : ℚ} (h1 : Close u m a b) (h2 : Close u n b c) : Close u (m + n) a c := by
  unfold Close at *
  have hA := one_le_pow_u hu m
  have hb : b ≤ (1 + u) ^ n * c := by
    have := (abs_le.mp h2).2
    linarith
  calc |a - c| ≤ |a - b| + |b - c| := abs_sub_le a b c
    _ ≤ ((1 + u) ^ m - 1) * b + ((1 + u) ^ n - 1) * c := add_le_add h1 h2
    _ ≤ ((1 + u) ^ m - 1) * ((1 + u) ^ n * c) + ((1 + u) ^ n - 1) * c := by
        have : 0 ≤ (1 + u) ^ m - 1 := by linarith
        gcongr
    _ = _ := by rw [pow_add]; ring

theorem Close.mul {m : Nat} {a b : ℚ} (c : ℚ) (hc : 0 ≤ c) (h : Close u m a b) : Close u m (c * a) (c * b) := by
  unfold Close at *
  rw [← mul_sub, abs_mul, abs_of_nonneg hc]
  calc c * |a - b| ≤ c * (((1 + u) ^ m - 1) * b) := by gcongr
    _ = _ := by ring

theorem Close.div {m : Nat} {a b : ℚ} (c : ℚ) (hc : 0 < c) (h : Close u m a b) : Close u m (a / c) (b / c) := by
  have := h.mul hu c⁻¹ (by positivity)
  rwa [inv_mul_eq_div, inv_mul_eq_div] at this

theorem Close.add {m : Nat} {a b a' b' : ℚ} (h : Close u m a b) (h' : Close u m a' b') : Close u m (a + a') (b + b') := by
  unfold Close at *
  calc |a + a' - (b + b')| = |(a - b) + (a' - b')| := by congr 1; ring
    _ ≤ |a - b| + |a' - b'| := abs_add_le _ _
    _ ≤ _ := by rw [mul_add]; exact add_le_add h h'

end Close

theorem Close.fl (R : Rounding) {m : Nat} {a b : ℚ} (ha : 0 ≤ a) (h : Close R.u m a b) : Close R.u (m + 1) (R.fl a) b := by
  have : Close R.u 1 (R.fl a) a := by
    unfold Close
    have := R.err a ha
    simpa using this
  rw [Nat.add_comm]
  exact this.trans R.u_nonneg h

theorem pow_bound {u : ℚ} (hu : 0 ≤ u) (M : Nat) (h : (M : ℚ) * u ≤ 1 / 202) : (1 + u) ^ M - 1 ≤ 1 / 201 := by
  rcases Nat.eq_zero_or_pos M with rfl | hM
  · norm_num
  have hM' : (1 : ℚ) ≤ M := by exact_mod_cast hM
  have hu1 : u ≤ 1 / 202 := by nlinarith
  have h1 : 1 + (M : ℚ) * (-u) ≤ (1 + -u) ^ M := one_add_mul_le_pow (by linarith) M
  have h2 : (1 + -u) ^ M * (1 + u) ^ M ≤ 1 := by
    rw [← mul_pow]
    exact pow_le_one₀ (by nlinarith) (by nlinarith)
  have h3 : (201 : ℚ) / 202 ≤ (1 + -u) ^ M := by linarith
  have h4 : 0 ≤ (1 + u) ^ M := by positivity
  have h5 : (201 : ℚ) / 202 * (1 + u) ^ M ≤ 1 := le_trans (by gcongr) h2
  linarith

theorem pow_bound_two {u : ℚ} (hu : 0 ≤ u) (M : Nat) (h : (M : ℚ) * u ≤ 1 / 2) : (1 + u) ^ M - 1 ≤ 2 * (M * u) := by
  rcases Nat.eq_zero_or_pos M with rfl | hM
  · norm_num
  have hM' : (1 : ℚ) ≤ M := by exact_mod_cast hM
  have hu1 : u ≤ 1 / 2 := by nlinarith
  have h1 : 1 + (M : ℚ) * (-u) ≤ (1 + -u) ^ M := one_add_mul_le_pow (by linarith) M
  have h2 : (1 + -u) ^ M * (1 + u) ^ M ≤ 1 := by
    rw [← mul_pow]
    exact pow_le_one₀ (by nlinarith) (by nlinarith)
  have h4 : 0 ≤ (1 + u) ^ M := by positivity
  have ha : 0 ≤ (M : ℚ) * u := by positivity
  have h5 : (1 - (M : ℚ) * u) * (1 + u) ^ M ≤ 1 := by
    refine le_trans ?_ h2
    apply mul_le_mul_of_nonneg_right _ h4
    linarith
  nlinarith

end Dedop
