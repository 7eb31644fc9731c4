import Verif.Model.Integer
import Verif.Base.Tac

/-! Property C67 of `integer.c`. -/

namespace Verif.Integer

/-- C67. Boxing and unboxing give the value back, for every signed and unsigned value, and boxing is injective. -/
theorem integer_round_trip (v : Int64) (u p : UInt64) :
    asIntptr (asInteger v) = v ∧ asUintptr (asUnsigned u) = u ∧ asInteger (asIntptr p) = p ∧ asUnsigned (asUintptr p) = p := by
  simp [asIntptr, asInteger, asUintptr, asUnsigned]

/-- C67. `integer_cmp` is the sign of the difference of the signed values. -/
theorem integer_cmp_sign (v w : Int64) : integerCmp (asInteger v) (asInteger w) = (v.toInt - w.toInt).sign := by
  simp only [integerCmp, asIntptr, asInteger, Int64.toInt64_toUInt64, Int64.lt_iff_toInt_lt, gt_iff_lt]
  by_cases h1 : v.toInt < w.toInt
  · rw [if_pos h1, Int.sign_eq_neg_one_of_neg (by omega)]
  · by_cases h2 : w.toInt < v.toInt
    · rw [if_neg h1, if_pos h2, Int.sign_eq_one_of_pos (by omega)]
    · rw [if_neg h1, if_neg h2, show v.toInt - w.toInt = 0 by omega]; rfl

/-- C67. `unsigned_cmp` is the sign of the difference of the unsigned values, also where the signed reading is negative. -/
theorem unsigned_cmp_sign (v w : UInt64) :
    unsignedCmp (asUnsigned v) (asUnsigned w) = ((v.toNat : Int) - w.toNat).sign := by
  simp only [unsignedCmp, asIntptr, asUintptr, asUnsigned, UInt64.toUInt64_toInt64, UInt64.lt_iff_toNat_lt, gt_iff_lt]
  by_cases h1 : v.toNat < w.toNat
  · rw [if_pos h1, Int.sign_eq_neg_one_of_neg (by omega)]
  · by_cases h2 : w.toNat < v.toNat
    · rw [if_neg h1, if_pos h2, Int.sign_eq_one_of_pos (by omega)]
    · rw [if_neg h1, if_neg h2, show (v.toNat : Int) - w.toNat = 0 by omega]; rfl

/-- What a comparison function for sorted containers must satisfy. -/
structure TotalOrderCmp {α : Type} (cmp : α → α → Int) : Prop where
  refl : ∀ a b, cmp a b = 0 ↔ a = b
  anti : ∀ a b, cmp a b < 0 ↔ 0 < cmp b a
  trans : ∀ a b c, cmp a b ≤ 0 → cmp b c ≤ 0 → cmp a c ≤ 0

/-- C67. Both comparisons are total orders on all pointer values (as the keys of an AVL tree need). -/
theorem integer_cmps_total_orders : TotalOrderCmp integerCmp ∧ TotalOrderCmp unsignedCmp := by
  have ki : ∀ a b, integerCmp a b = ((asIntptr a).toInt - (asIntptr b).toInt).sign := by
    intro a b
    rw [← integer_cmp_sign]; simp [asInteger, asIntptr]
  have ku : ∀ a b, unsignedCmp a b = ((a.toNat : Int) - b.toNat).sign := fun a b => unsigned_cmp_sign a b
  have s0 : ∀ x : Int, x.sign ≤ 0 ↔ x ≤ 0 := by
    intro x; rcases Int.lt_trichotomy x 0 with h | h | h
    · rw [Int.sign_eq_neg_one_of_neg h]; omega
    · subst h; simp
    · rw [Int.sign_eq_one_of_pos h]; omega
  have s1 : ∀ x : Int, x.sign < 0 ↔ x < 0 := by
    intro x; rcases Int.lt_trichotomy x 0 with h | h | h
    · rw [Int.sign_eq_neg_one_of_neg h]; omega
    · subst h; simp
    · rw [Int.sign_eq_one_of_pos h]; omega
  have s2 : ∀ x : Int, 0 < x.sign ↔ 0 < x := by
    intro x; have := s0 x; omega
  refine ⟨⟨?_, ?_, ?_⟩, ⟨?_, ?_, ?_⟩⟩
  · intro a b
    rw [ki, Int.sign_eq_zero_iff_zero]
    constructor
    · intro h
      have : asIntptr a = asIntptr b := Int64.toInt_inj.mp (by omega)
      have := congrArg Int64.toUInt64 this
      simpa [asIntptr] using this
    · rintro rfl; omega
  · intro a b; rw [ki, ki, s1, s2]; omega
  · intro a b c; rw [ki, ki, ki, s0, s0, s0]; omega
  · intro a b
    rw [ku, Int.sign_eq_zero_iff_zero]
    constructor
    · intro h; exact UInt64.toNat_inj.mp (by omega)
    · rintro rfl; omega
  · intro a b; rw [ku, ku, s1, s2]; omega
  · intro a b c; rw [ku, ku, ku, s0, s0, s0]; omega

example : integerCmp (asInteger (-1)) (asInteger 1) = -1 ∧ unsignedCmp (asUnsigned (2 ^ 64 - 1)) (asUnsigned 1) = 1 := by decide +kernel

end Verif.Integer
