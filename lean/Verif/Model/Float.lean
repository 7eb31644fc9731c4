import Verif.Base.Outcome

/-! Model of `/repo/src/float.c`. `long long` and `uint64_t` have 64 bits. -/

namespace Verif.Float64

/-- `x << k` on `uint64_t`; a shift count outside 0..63 is undefined. -/
def shl (x : UInt64) (k : Int) : C UInt64 :=
  if 0 ≤ k ∧ k < 64 then .ok (x <<< UInt64.ofNat k.toNat) else .error .ub

/-- `x >> k` on `uint64_t`; a shift count outside 0..63 is undefined. -/
def shr (x : UInt64) (k : Int) : C UInt64 :=
  if 0 ≤ k ∧ k < 64 then .ok (x >>> UInt64.ofNat k.toNat) else .error .ub

/-- Conversion of `uint64_t` to `long long` (two's complement, as gcc defines it). -/
def toLL (x : UInt64) : Int := if x.toNat < 2 ^ 63 then x.toNat else x.toNat - 2 ^ 64

/-- `-n` on `long long`; overflows for `LLONG_MIN`. -/
def negLL (n : Int) : C Int := if n = -(2 ^ 63) then .error .ub else .ok (-n)

/-- float.c:19 and 56: `(int)(value >> 52 & 0x7ff) - 1023`. -/
def expo (v : UInt64) : Int := ((v >>> 52) &&& 0x7ff).toNat - 1023

/-- float.c:24 and 60: `~0ULL >> 12`. -/
def mask : UInt64 := (~~~ (0 : UInt64)) >>> 12

/-- float.c:25 and 61: `(value & mask) | 1ULL << 52`. -/
def significand (v : UInt64) : UInt64 := (v &&& mask) ||| ((1 : UInt64) <<< 52)

/-- float.c:29-30, 36-37: `if (negative) *n = -*n`. -/
def signed (v : UInt64) (n : Int) : C Int := if v >>> 63 ≠ 0 then negLL n else .ok n

/-- float.c:27-41 and 63-73: the significand shifted by the exponent. `none` is `return false`. -/
def scaled (v : UInt64) (exp : Int) : C (Option UInt64) :=
  if exp ≥ 52 then
    match shl (significand v) (exp - 52) with
    | .error e => .error e
    | .ok x => .ok (some x)
  else
    match shr mask exp with
    | .error e => .error e
    | .ok m =>
      if v &&& m = 0 then
        match shr (significand v) (52 - exp) with
        | .error e => .error e
        | .ok x => .ok (some x)
      else .ok none

/-- float.c:6-42 `binary64_to_integer`: `none` is `false`, `some n` is `true` with `*n` set. The comparison
`exp >= bits - 1` is done in `size_t`; `exp` is not negative there, so it is an ordinary comparison. -/
def toInteger (v : UInt64) : C (Option Int) :=
  if v <<< 1 = 0 then .ok (some 0)
  else if v = 0xc3e0000000000000 then .ok (some (-(2 ^ 63)))
  else if expo v < 0 ∨ expo v ≥ 64 - 1 then .ok none
  else match scaled v (expo v) with
    | .error e => .error e
    | .ok none => .ok none
    | .ok (some x) => match signed v (toLL x) with
      | .error e => .error e
      | .ok n => .ok (some n)

/-- float.c:44-74 `binary64_to_unsigned`. -/
def toUnsigned (v : UInt64) : C (Option Nat) :=
  if v <<< 1 = 0 then .ok (some 0)
  else if v >>> 63 ≠ 0 then .ok none
  else if expo v < 0 ∨ expo v ≥ 64 then .ok none
  else match scaled v (expo v) with
    | .error e => .error e
    | .ok none => .ok none
    | .ok (some x) => .ok (some x.toNat)

end Verif.Float64
