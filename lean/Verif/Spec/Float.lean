/-!
Specification of IEEE 754-2019 binary64 (section 3.4), independent of the code: a bit pattern is a sign bit, an 11-bit biased
exponent and a 52-bit trailing significand.
-/

namespace Verif.Spec.Float64

/-- Sign bit. -/
def sign (v : UInt64) : Int := if v.toNat / 2 ^ 63 = 0 then 1 else -1
/-- Biased exponent. -/
def bexp (v : UInt64) : Nat := v.toNat / 2 ^ 52 % 2 ^ 11
/-- Trailing significand field. -/
def frac (v : UInt64) : Nat := v.toNat % 2 ^ 52

/-- Magnitude in units of 2^-1074, the smallest positive number: subnormals have exponent field 0 and no hidden bit. -/
def units (v : UInt64) : Nat := if bexp v = 0 then frac v else (2 ^ 52 + frac v) * 2 ^ (bexp v - 1)

/-- The pattern denotes a finite number (not an infinity, not a NaN). -/
def Finite (v : UInt64) : Prop := bexp v ≠ 2 ^ 11 - 1

/-- The pattern denotes exactly the integer `n`. -/
def IsInteger (v : UInt64) (n : Int) : Prop := Finite v ∧ n * 2 ^ 1074 = sign v * (units v : Int)

end Verif.Spec.Float64
