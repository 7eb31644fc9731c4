import Mathlib.Analysis.SpecialFunctions.Log.Base
import Mathlib.Data.Nat.Fib.Basic

/-! The height of a balanced tree as a logarithm. -/

set_option autoImplicit false

namespace Verif.Avl

/-- The Fibonacci numbers grow at least as the powers of 1.618. -/
theorem pow_le_fib : ∀ h : Nat, ((809 : ℚ) / 500) ^ h ≤ Nat.fib (h + 2)
  | 0 => by simp
  | 1 => by norm_num [Nat.fib]
  | h + 2 => by
    have h1 := pow_le_fib h
    have h2 := pow_le_fib (h + 1)
    have e : Nat.fib (h + 2 + 2) = Nat.fib (h + 2) + Nat.fib (h + 1 + 2) := Nat.fib_add_two
    rw [e]
    push_cast
    have hp : (0 : ℚ) < (809 / 500) ^ h := by positivity
    rw [pow_succ] at h2
    rw [pow_succ, pow_succ]
    nlinarith

/-- A tree that meets the bound by Fibonacci numbers has a height below `1.45 log2 (n + 2)`. -/
theorem height_pow {h n : Nat} (hf : Nat.fib (h + 2) ≤ n + 1) : 2 ^ (100 * h) < (n + 2) ^ 145 := by
  have h1 : ((809 : ℚ) / 500) ^ h ≤ (n : ℚ) + 1 := le_trans (pow_le_fib h) (by exact_mod_cast hf)
  have h2 : (2 : ℚ) ^ 100 ≤ (809 / 500) ^ 145 := by norm_num
  have h3 : ((2 : ℚ) ^ (100 * h)) < (n + 2) ^ 145 := by
    calc (2 : ℚ) ^ (100 * h) = (2 ^ 100) ^ h := by rw [pow_mul]
      _ ≤ ((809 / 500) ^ 145) ^ h := pow_le_pow_left₀ (by positivity) h2 h
      _ = ((809 / 500) ^ h) ^ 145 := by rw [← pow_mul, ← pow_mul, Nat.mul_comm]
      _ ≤ ((n : ℚ) + 1) ^ 145 := pow_le_pow_left₀ (by positivity) h1 145
      _ < (n + 2) ^ 145 := pow_lt_pow_left₀ (by linarith) (by positivity) (by norm_num)
  exact_mod_cast h3

theorem height_log {h n : Nat} (hf : Nat.fib (h + 2) ≤ n + 1) : (h : ℝ) < 1.45 * Real.logb 2 (n + 2) := by
  have h1 : (2 : ℝ) ^ (100 * h) < ((n : ℝ) + 2) ^ 145 := by exact_mod_cast height_pow hf
  have h2 := Real.logb_lt_logb (b := 2) (by norm_num) (by positivity) h1
  rw [Real.logb_pow, Real.logb_pow, Real.logb_self_eq_one (by norm_num)] at h2
  push_cast at h2
  linarith

end Verif.Avl
