import Verif.Proofs.Float

/-! Properties C41 and C42: `float.c`. -/

namespace Verif.Float64
open Verif.Spec.Float64

/-- C41. For all 2^64 bit patterns: no undefined behaviour, and the result is `n` exactly if the pattern denotes the integer
`n` and `n` is in the range of `long long`. In particular the call fails exactly if there is no such `n`. -/
theorem binary64_to_integer_exact (v : UInt64) :
    ∃ r, toInteger v = .ok r ∧ ∀ n : Int, r = some n ↔ (IsInteger v n ∧ -(2 ^ 63) ≤ n ∧ n < 2 ^ 63) := by
  unfold toInteger
  have hv := v.toNat_lt
  by_cases h0 : v <<< 1 = 0
  · rw [if_pos h0]
    refine ⟨_, rfl, fun n => ?_⟩
    rw [zero_case v ((shl1 v).mp h0)]
    simp only [Option.some.injEq]
    omega
  rw [if_neg h0]
  have hne : v.toNat % 2 ^ 63 ≠ 0 := fun h => h0 ((shl1 v).mpr h)
  by_cases hmin : v = 0xc3e0000000000000
  · rw [if_pos hmin]
    refine ⟨_, rfl, fun n => ?_⟩
    subst hmin
    rw [isInteger_iff]
    have hs : sign 0xc3e0000000000000 = -1 := by decide
    have hb : bexp 0xc3e0000000000000 = 63 + 1023 := by decide
    have hf : Finite 0xc3e0000000000000 := by unfold Finite; decide
    have hfr : frac 0xc3e0000000000000 = 0 := by decide
    rw [hs]
    constructor
    · intro h
      simp only [Option.some.injEq] at h
      subst h
      refine ⟨⟨hf, 2 ^ 63, by norm_num, ?_⟩, by omega, by omega⟩
      rw [mag_iff _ 63 _ hb, hfr, Nat.mul_comm]
      rfl
    · rintro ⟨⟨_, k, rfl, hk⟩, _, _⟩
      have := large_units _ 63 k hb (by omega) hk
      rw [hfr] at this
      subst this
      rfl
  rw [if_neg hmin, expo_eq]
  by_cases hr : (bexp v : Int) - 1023 < 0 ∨ (bexp v : Int) - 1023 ≥ 64 - 1
  · rw [if_pos hr]
    refine ⟨_, rfl, fun n => ?_⟩
    simp only [reduceCtorEq, false_iff]
    rintro ⟨hi, hlo, hhi⟩
    obtain ⟨hfin, k, rfl, hk⟩ := (isInteger_iff v _).mp hi
    rcases hr with hr | hr
    · exact small_units v (by omega) hne k hk
    · obtain ⟨e, he⟩ : ∃ e, bexp v = e + 1023 := ⟨bexp v - 1023, by omega⟩
      have hk' := large_units v e k he (by omega) hk
      have h11 : (2 : Nat) ^ 11 ≤ 2 ^ (e - 52) := Nat.pow_le_pow_right (by omega) (by omega)
      by_cases h63 : e = 63
      · subst h63
        simp only [show (63 - 52 : Nat) = 11 from rfl] at hk'
        have hb2 : v.toNat / 2 ^ 52 % 2 ^ 11 = 63 + 1023 := he
        have hf2 : v.toNat % 2 ^ 52 = frac v := rfl
        simp only [sign] at hlo hhi
        split at hlo
        · rename_i hs
          simp only [hs, if_true] at hhi
          omega
        · rename_i hs
          simp only [hs, if_false] at hhi
          have hfr : frac v = 0 := by omega
          apply hmin
          rw [u64_inj]
          have : (0xc3e0000000000000 : UInt64).toNat = 0xc3e0000000000000 := by decide
          omega
      · have h12 : (2 : Nat) ^ 12 ≤ 2 ^ (e - 52) := Nat.pow_le_pow_right (by omega) (by omega)
        have hge : 2 ^ 52 * 2 ^ 12 ≤ k := by
          rw [hk']
          exact Nat.mul_le_mul (by omega) h12
        simp only [sign] at hlo hhi
        split at hlo
        · rename_i hs
          simp only [hs, if_true] at hhi
          omega
        · omega
  · rw [if_neg hr]
    obtain ⟨e, he⟩ : ∃ e, bexp v = e + 1023 := ⟨bexp v - 1023, by omega⟩
    rw [show ((bexp v : Int) - 1023) = (e : Int) by omega]
    have hfin : Finite v := by unfold Finite; omega
    rcases scaled_iff v e he (by omega) with ⟨k, hk64, hk, hklo, hkhi, hsc⟩ | ⟨hsc, hnone⟩
    · rw [hsc]
      have hk63 : k < 2 ^ 63 := Nat.lt_of_lt_of_le hkhi (Nat.pow_le_pow_right (by omega) (by omega))
      have hto : toLL (UInt64.ofNat k) = k := by
        simp only [toLL, UInt64.toNat_ofNat']
        rw [Nat.mod_eq_of_lt hk64, if_pos hk63]
      have hsg : signed v (toLL (UInt64.ofNat k)) = .ok (sign v * k) := by
        rw [hto]
        simp only [signed, shr63, sign, negLL]
        split
        · rw [if_neg (by omega), if_neg (by omega), Int.neg_one_mul]
        · rw [if_pos (by omega), Int.one_mul]
      simp only [hsg]
      refine ⟨_, rfl, fun n => ?_⟩
      rw [isInteger_iff]
      have hs : sign v = 1 ∨ sign v = -1 := by simp only [sign]; split <;> simp
      constructor
      · intro h
        simp only [Option.some.injEq] at h
        subst h
        exact ⟨⟨hfin, k, rfl, hk⟩, by rcases hs with hs | hs <;> rw [hs] <;> omega,
          by rcases hs with hs | hs <;> rw [hs] <;> omega⟩
      · rintro ⟨⟨_, k', rfl, hk'⟩, _, _⟩
        have : k = k' := Nat.eq_of_mul_eq_mul_right (Nat.two_pow_pos 1074) (hk.trans hk'.symm)
        rw [this]
    · rw [hsc]
      refine ⟨_, rfl, fun n => ?_⟩
      simp only [reduceCtorEq, false_iff]
      rintro ⟨hi, _, _⟩
      obtain ⟨_, k, _, hk⟩ := (isInteger_iff v _).mp hi
      exact hnone k hk

example : toInteger 0xC045000000000000 = .ok (some (-42)) := by decide +kernel
example : toInteger 0x3FF8000000000000 = .ok none := by decide +kernel

/-- C42. For all 2^64 bit patterns: the result is `n` exactly if the pattern denotes the integer `n` and `n < 2^64`. -/
theorem binary64_to_unsigned_exact (v : UInt64) :
    ∃ r, toUnsigned v = .ok r ∧ ∀ n : Nat, r = some n ↔ (IsInteger v n ∧ n < 2 ^ 64) := by
  unfold toUnsigned
  have hv := v.toNat_lt
  by_cases h0 : v <<< 1 = 0
  · rw [if_pos h0]
    refine ⟨_, rfl, fun n => ?_⟩
    rw [zero_case v ((shl1 v).mp h0)]
    simp only [Option.some.injEq]
    omega
  rw [if_neg h0]
  have hne : v.toNat % 2 ^ 63 ≠ 0 := fun h => h0 ((shl1 v).mpr h)
  by_cases hneg : v >>> 63 ≠ 0
  · rw [if_pos hneg]
    have hs : sign v = -1 := by
      have := (shr63 v).mp hneg
      simp only [sign]; rw [if_neg (by omega)]
    refine ⟨_, rfl, fun n => ?_⟩
    simp only [reduceCtorEq, false_iff]
    rintro ⟨hi, hlt⟩
    obtain ⟨_, k, hnk, hk⟩ := (isInteger_iff v _).mp hi
    rw [hs] at hnk
    have hk0 : k = 0 := by omega
    subst hk0
    rw [Nat.zero_mul] at hk
    have hu : units v ≠ 0 := by
      unfold units
      split
      · rename_i hb
        simp only [bexp, frac] at hb ⊢
        omega
      · positivity
    exact hu hk.symm
  rw [if_neg hneg]
  have hs : sign v = 1 := by
    have : ¬ 2 ^ 63 ≤ v.toNat := fun h => hneg ((shr63 v).mpr h)
    simp only [sign]; rw [if_pos (by omega)]
  rw [expo_eq]
  by_cases hr : (bexp v : Int) - 1023 < 0 ∨ (bexp v : Int) - 1023 ≥ 64
  · rw [if_pos hr]
    refine ⟨_, rfl, fun n => ?_⟩
    simp only [reduceCtorEq, false_iff]
    rintro ⟨hi, hlt⟩
    obtain ⟨hfin, k, hnk, hk⟩ := (isInteger_iff v _).mp hi
    rw [hs] at hnk
    rcases hr with hr | hr
    · exact small_units v (by omega) hne k hk
    · obtain ⟨e, he⟩ : ∃ e, bexp v = e + 1023 := ⟨bexp v - 1023, by omega⟩
      have hk' := large_units v e k he (by omega) hk
      have h12 : (2 : Nat) ^ 12 ≤ 2 ^ (e - 52) := Nat.pow_le_pow_right (by omega) (by omega)
      have hge : 2 ^ 52 * 2 ^ 12 ≤ k := by
        rw [hk']
        exact Nat.mul_le_mul (by omega) h12
      omega
  · rw [if_neg hr]
    obtain ⟨e, he⟩ : ∃ e, bexp v = e + 1023 := ⟨bexp v - 1023, by omega⟩
    rw [show ((bexp v : Int) - 1023) = (e : Int) by omega]
    have hfin : Finite v := by unfold Finite; omega
    rcases scaled_iff v e he (by omega) with ⟨k, hk64, hk, _, _, hsc⟩ | ⟨hsc, hnone⟩
    · rw [hsc]
      simp only [UInt64.toNat_ofNat', Nat.mod_eq_of_lt hk64]
      refine ⟨_, rfl, fun n => ?_⟩
      rw [isInteger_iff, hs]
      constructor
      · intro h
        simp only [Option.some.injEq] at h
        subst h
        exact ⟨⟨hfin, k, by omega, hk⟩, hk64⟩
      · rintro ⟨⟨_, k', hnk, hk'⟩, _⟩
        have : k = k' := Nat.eq_of_mul_eq_mul_right (Nat.two_pow_pos 1074) (hk.trans hk'.symm)
        rw [Option.some.injEq]; clear hk hk'; omega
    · rw [hsc]
      refine ⟨_, rfl, fun n => ?_⟩
      simp only [reduceCtorEq, false_iff]
      rintro ⟨hi, _⟩
      obtain ⟨_, k, _, hk⟩ := (isInteger_iff v _).mp hi
      exact hnone k hk

example : toUnsigned 0x43EFFFFFFFFFFFFF = .ok (some 18446744073709549568) := by decide +kernel
example : toUnsigned 0x43F0000000000000 = .ok none := by decide +kernel

end Verif.Float64
