import Verif.Model.Float
import Verif.Spec.Float
import Verif.Base.Tac

/-! Helper lemmas for `float.c`. -/

namespace Verif.Float64
open Verif.Spec.Float64

theorem u64_inj {a b : UInt64} : a = b ↔ a.toNat = b.toNat := UInt64.toNat_inj.symm

theorem shl1 (v : UInt64) : v <<< 1 = 0 ↔ v.toNat % 2 ^ 63 = 0 := by
  rw [u64_inj]
  simp only [UInt64.toNat_shiftLeft, UInt64.toNat_ofNat, Nat.shiftLeft_eq]
  have h : (1 % 2 ^ 64 % 64) = 1 := by decide
  rw [h]
  omega

theorem expo_eq (v : UInt64) : expo v = (bexp v : Int) - 1023 := by
  have h : (v.toNat >>> 52 &&& 2047) = v.toNat >>> 52 % 2 ^ 11 := Nat.and_two_pow_sub_one_eq_mod _ 11
  simp only [expo, bexp, UInt64.toNat_and, UInt64.toNat_shiftRight, UInt64.toNat_ofNat]
  have h52 : (52 % 2 ^ 64 % 64) = 52 := by decide
  have h2 : (2047 % 2 ^ 64) = 2047 := by decide
  rw [h52, h2, h, Nat.shiftRight_eq_div_pow]

theorem mask_eq : mask.toNat = 2 ^ 52 - 1 := by decide +kernel

theorem sig_eq (v : UInt64) : (significand v).toNat = 2 ^ 52 + frac v := by
  have h1 : ((1 : UInt64) <<< 52).toNat = 2 ^ 52 := by decide +kernel
  simp only [significand, UInt64.toNat_or, UInt64.toNat_and, mask_eq, h1, Nat.and_two_pow_sub_one_eq_mod, frac]
  have := Nat.shiftLeft_add_eq_or_of_lt (Nat.mod_lt v.toNat (show 0 < 2 ^ 52 by decide)) 1
  rw [Nat.or_comm]
  simp only [Nat.shiftLeft_eq, Nat.one_mul] at this
  exact this.symm

theorem maskshr (v : UInt64) {e : Nat} (h : e < 52) : (v &&& (mask >>> UInt64.ofNat e)) = 0 ↔ v.toNat % 2 ^ (52 - e) = 0 := by
  rw [u64_inj]
  have hm : (mask >>> UInt64.ofNat e).toNat = 2 ^ (52 - e) - 1 := by
    simp only [UInt64.toNat_shiftRight, mask_eq, UInt64.toNat_ofNat']
    rw [Nat.mod_eq_of_lt (show e < 2 ^ 64 by omega), Nat.mod_eq_of_lt (show e < 64 by omega), Nat.shiftRight_eq_div_pow]
    interval_cases e <;> rfl
  simp only [UInt64.toNat_and, hm, Nat.and_two_pow_sub_one_eq_mod]
  rfl

theorem mod_pow_frac (v : UInt64) {k : Nat} (h : k ≤ 52) : v.toNat % 2 ^ k = (2 ^ 52 + frac v) % 2 ^ k := by
  have h1 : (2 ^ 52 + frac v) % 2 ^ k = frac v % 2 ^ k := by
    rw [Nat.add_mod, Nat.mod_eq_zero_of_dvd (Nat.pow_dvd_pow 2 h)]; simp
  rw [h1, frac, Nat.mod_mod_of_dvd _ (Nat.pow_dvd_pow 2 h)]

/-- Exact behaviour of the shared shifting code for exponents 0 to 63. -/
theorem scaled_eq (v : UInt64) (e : Nat) (h : e < 64) :
    scaled v e = .ok (if e < 52 ∧ (2 ^ 52 + frac v) % 2 ^ (52 - e) ≠ 0 then none
      else some (UInt64.ofNat ((2 ^ 52 + frac v) * 2 ^ e / 2 ^ 52))) := by
  have hf : frac v < 2 ^ 52 := Nat.mod_lt _ (by decide)
  unfold scaled
  by_cases h52 : e < 52
  · have hshr : shr mask (e : Int) = .ok (mask >>> UInt64.ofNat e) := by
      simp only [shr]; rw [if_pos (by omega)]; simp
    rw [if_neg (by omega), hshr]
    simp only [h52, true_and, maskshr v h52, mod_pow_frac v (show 52 - e ≤ 52 by omega)]
    by_cases hz : (2 ^ 52 + frac v) % 2 ^ (52 - e) = 0
    · simp only [hz, if_true]
      have hs : shr (significand v) (52 - (e : Int)) = .ok (significand v >>> UInt64.ofNat (52 - e)) := by
        simp only [shr]; rw [if_pos (by omega)]; congr 3; omega
      rw [hs]
      simp only [ne_eq, not_true, if_false, Except.ok.injEq, Option.some.injEq, u64_inj]
      simp only [UInt64.toNat_shiftRight, sig_eq, UInt64.toNat_ofNat']
      rw [Nat.mod_eq_of_lt (show 52 - e < 2 ^ 64 by omega), Nat.mod_eq_of_lt (show 52 - e < 64 by omega),
        Nat.shiftRight_eq_div_pow]
      have hd : (2 ^ 52 + frac v) * 2 ^ e / 2 ^ 52 = (2 ^ 52 + frac v) / 2 ^ (52 - e) := by
        have : (2 : Nat) ^ 52 = 2 ^ (52 - e) * 2 ^ e := by rw [← Nat.pow_add]; congr 1; omega
        conv_lhs => rw [show (2 ^ 52 + frac v) * 2 ^ e / 2 ^ 52 = (2 ^ 52 + frac v) * 2 ^ e / (2 ^ (52 - e) * 2 ^ e) by rw [← this]]
        rw [Nat.mul_div_mul_right _ _ (Nat.two_pow_pos e)]
      rw [hd, Nat.mod_eq_of_lt]
      exact Nat.lt_of_le_of_lt (Nat.div_le_self _ _) (by omega)
    · simp only [hz, if_false, ne_eq, not_false_iff, if_true]
  · have hs : shl (significand v) ((e : Int) - 52) = .ok (significand v <<< UInt64.ofNat (e - 52)) := by
      simp only [shl]; rw [if_pos (by omega)]; congr 3; omega
    rw [if_pos (by omega), hs]
    simp only [h52, false_and, if_false, Except.ok.injEq, Option.some.injEq, u64_inj]
    simp only [UInt64.toNat_shiftLeft, sig_eq, UInt64.toNat_ofNat']
    rw [Nat.mod_eq_of_lt (show e - 52 < 2 ^ 64 by omega), Nat.mod_eq_of_lt (show e - 52 < 64 by omega), Nat.shiftLeft_eq]
    have hd : (2 ^ 52 + frac v) * 2 ^ e / 2 ^ 52 = (2 ^ 52 + frac v) * 2 ^ (e - 52) := by
      have : (2 : Nat) ^ e = 2 ^ (e - 52) * 2 ^ 52 := by rw [← Nat.pow_add]; congr 1; omega
      rw [this, ← Nat.mul_assoc, Nat.mul_div_cancel _ (by decide)]
    rw [hd]

/-- `n` times a power of two against the magnitude: reduction to natural numbers. -/
theorem isInteger_iff (v : UInt64) (n : Int) :
    IsInteger v n ↔ Finite v ∧ ∃ k : Nat, n = sign v * k ∧ k * 2 ^ 1074 = units v := by
  have hs : sign v = 1 ∨ sign v = -1 := by simp only [sign]; split <;> simp
  unfold IsInteger
  generalize 1074 = q
  refine and_congr_right fun _ => ⟨fun h => ?_, ?_⟩
  · refine ⟨(sign v * n).toNat, ?_, ?_⟩
    · have hnn : 0 ≤ sign v * n := by
        have h2 : (sign v * n) * 2 ^ q = (units v : Int) := by
          rw [Int.mul_assoc, h, ← Int.mul_assoc]
          rcases hs with hs | hs <;> rw [hs] <;> simp
        by_contra hneg
        have h3 : (sign v * n) * 2 ^ q < 0 := Int.mul_neg_of_neg_of_pos (by omega) (Int.pow_pos (by omega))
        omega
      rw [Int.toNat_of_nonneg hnn, ← Int.mul_assoc]
      rcases hs with hs | hs <;> rw [hs] <;> simp
    · have h2 : (sign v * n) * 2 ^ q = (units v : Int) := by
        rw [Int.mul_assoc, h, ← Int.mul_assoc]
        rcases hs with hs | hs <;> rw [hs] <;> simp
      have hnn : 0 ≤ sign v * n := by
        by_contra hneg
        have h3 : (sign v * n) * 2 ^ q < 0 := Int.mul_neg_of_neg_of_pos (by omega) (Int.pow_pos (by omega))
        omega
      have : (((sign v * n).toNat * 2 ^ q : Nat) : Int) = units v := by
        push_cast
        rw [Int.toNat_of_nonneg hnn, h2]
      exact_mod_cast this
  · rintro ⟨k, rfl, hk⟩
    rw [← hk]; push_cast; rw [Int.mul_assoc]

/-- Normal numbers of exponent 0 and more: the magnitude is a natural number iff the low bits vanish. -/
theorem mag_iff (v : UInt64) (e k : Nat) (he : bexp v = e + 1023) :
    k * 2 ^ 1074 = units v ↔ k * 2 ^ 52 = (2 ^ 52 + frac v) * 2 ^ e := by
  unfold units
  rw [if_neg (by omega), he]
  have h1 : (2 : Nat) ^ 1074 = 2 ^ 52 * 2 ^ 1022 := by rw [← Nat.pow_add]
  have h2 : (2 : Nat) ^ (e + 1023 - 1) = 2 ^ e * 2 ^ 1022 := by rw [← Nat.pow_add]; rfl
  rw [h1, h2, ← Nat.mul_assoc, ← Nat.mul_assoc]
  exact Nat.mul_left_inj (Nat.pos_iff_ne_zero.mp (Nat.two_pow_pos 1022))

theorem small_units (v : UInt64) (h : bexp v < 1023) (hne : v.toNat % 2 ^ 63 ≠ 0) (k : Nat) : k * 2 ^ 1074 ≠ units v := by
  have hf : frac v < 2 ^ 52 := Nat.mod_lt _ (by decide)
  have hpos : 0 < units v := by
    unfold units
    split
    · rename_i h0
      simp only [frac, bexp] at *
      omega
    · positivity
  have hlt : units v < 2 ^ 1074 := by
    unfold units
    split
    · exact Nat.lt_trans hf (Nat.pow_lt_pow_right (by omega) (by omega))
    · calc (2 ^ 52 + frac v) * 2 ^ (bexp v - 1) < 2 ^ 53 * 2 ^ (bexp v - 1) :=
            Nat.mul_lt_mul_of_pos_right (by omega) (Nat.two_pow_pos _)
        _ ≤ 2 ^ 53 * 2 ^ 1021 := Nat.mul_le_mul_left _ (Nat.pow_le_pow_right (by omega) (by omega))
        _ = 2 ^ 1074 := by rw [← Nat.pow_add]
  intro h
  rcases Nat.eq_zero_or_pos k with rfl | hk
  · rw [Nat.zero_mul] at h
    omega
  · have : 1 * 2 ^ 1074 ≤ k * 2 ^ 1074 := Nat.mul_le_mul_right _ hk
    rw [Nat.one_mul] at this
    exact absurd (h ▸ hlt) (Nat.not_lt.mpr this)

theorem zero_case (v : UInt64) (h : v.toNat % 2 ^ 63 = 0) (n : Int) : IsInteger v n ↔ n = 0 := by
  have hb : bexp v = 0 := by simp only [bexp]; omega
  have hf : frac v = 0 := by simp only [frac]; omega
  have hu : units v = 0 := by simp [units, hb, hf]
  unfold IsInteger Finite
  rw [hu, hb]
  generalize 1074 = q
  simp

theorem shr63 (v : UInt64) : v >>> 63 ≠ 0 ↔ 2 ^ 63 ≤ v.toNat := by
  rw [ne_eq, u64_inj]
  simp only [UInt64.toNat_shiftRight, UInt64.toNat_ofNat, Nat.shiftRight_eq_div_pow]
  have := v.toNat_lt
  have h : (63 % 2 ^ 64 % 64) = 63 := by decide
  rw [h]
  omega

/-- Exponents 0 to 63: the magnitude is `k` iff the shifting code yields `k` without losing bits. -/
theorem scaled_iff (v : UInt64) (e : Nat) (he : bexp v = e + 1023) (h : e < 64) :
    (∃ k : Nat, k < 2 ^ 64 ∧ k * 2 ^ 1074 = units v ∧ 2 ^ e ≤ k ∧ k < 2 ^ (e + 1) ∧ scaled v e = .ok (some (UInt64.ofNat k))) ∨
      (scaled v e = .ok none ∧ ∀ k : Nat, k * 2 ^ 1074 ≠ units v) := by
  have hf : frac v < 2 ^ 52 := Nat.mod_lt _ (by decide)
  rw [scaled_eq v e h]
  by_cases hc : e < 52 ∧ (2 ^ 52 + frac v) % 2 ^ (52 - e) ≠ 0
  · right
    refine ⟨by rw [if_pos hc], fun k hk => ?_⟩
    rw [mag_iff v e k he] at hk
    apply hc.2
    have : (2 : Nat) ^ 52 = 2 ^ (52 - e) * 2 ^ e := by rw [← Nat.pow_add]; congr 1; omega
    rw [show k * 2 ^ 52 = k * (2 ^ (52 - e) * 2 ^ e) by rw [← this], ← Nat.mul_assoc] at hk
    have := Nat.eq_of_mul_eq_mul_right (Nat.two_pow_pos e) hk
    rw [← this]
    simp
  · left
    have hdvd : 2 ^ 52 ∣ (2 ^ 52 + frac v) * 2 ^ e := by
      by_cases h52 : e < 52
      · have hz : (2 ^ 52 + frac v) % 2 ^ (52 - e) = 0 := by
          by_contra hz; exact hc ⟨h52, hz⟩
        have : (2 : Nat) ^ 52 = 2 ^ (52 - e) * 2 ^ e := by rw [← Nat.pow_add]; congr 1; omega
        rw [show (2 ^ 52 ∣ (2 ^ 52 + frac v) * 2 ^ e) ↔ (2 ^ (52 - e) * 2 ^ e ∣ (2 ^ 52 + frac v) * 2 ^ e) by rw [← this]]
        exact Nat.mul_dvd_mul_right (Nat.dvd_of_mod_eq_zero hz) _
      · exact Dvd.dvd.mul_left (Nat.pow_dvd_pow 2 (by omega)) _
    have hmul := Nat.div_mul_cancel hdvd
    refine ⟨(2 ^ 52 + frac v) * 2 ^ e / 2 ^ 52, ?_, (mag_iff v e _ he).mpr hmul, ?_, ?_, by rw [if_neg hc]⟩
    · have : (2 ^ 52 + frac v) * 2 ^ e < 2 ^ 53 * 2 ^ 63 := by
        calc (2 ^ 52 + frac v) * 2 ^ e < 2 ^ 53 * 2 ^ e := Nat.mul_lt_mul_of_pos_right (by omega) (Nat.two_pow_pos _)
          _ ≤ _ := Nat.mul_le_mul_left _ (Nat.pow_le_pow_right (by omega) (by omega))
      omega
    · rw [Nat.le_div_iff_mul_le (by decide), Nat.mul_comm]
      exact Nat.mul_le_mul_right _ (by omega)
    · rw [Nat.div_lt_iff_lt_mul (by decide)]
      calc (2 ^ 52 + frac v) * 2 ^ e < 2 ^ 53 * 2 ^ e := Nat.mul_lt_mul_of_pos_right (by omega) (Nat.two_pow_pos _)
        _ = 2 ^ (e + 1) * 2 ^ 52 := by rw [← Nat.pow_add, ← Nat.pow_add]; congr 1; omega

/-- Larger exponents: the magnitude is at least 2^e, with equality only for significand 1.0. -/
theorem large_units (v : UInt64) (e k : Nat) (he : bexp v = e + 1023) (h : 52 ≤ e) (hk : k * 2 ^ 1074 = units v) :
    k = (2 ^ 52 + frac v) * 2 ^ (e - 52) := by
  rw [mag_iff v e k he] at hk
  have : (2 : Nat) ^ e = 2 ^ (e - 52) * 2 ^ 52 := by rw [← Nat.pow_add]; congr 1; omega
  rw [this, ← Nat.mul_assoc] at hk
  exact Nat.eq_of_mul_eq_mul_right (by decide) hk

end Verif.Float64
