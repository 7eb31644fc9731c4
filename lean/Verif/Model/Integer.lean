/-!
Model of `/repo/src/integer.c` and `/repo/include/integer.h`. A pointer is a 64-bit word; casts between pointers and
`intptr_t`/`uintptr_t` keep the bits.
-/

namespace Verif.Integer

/-- integer.h:29-32 `as_integer`. -/
def asInteger (v : Int64) : UInt64 := v.toUInt64
/-- integer.h:38-41 `as_unsigned`. -/
def asUnsigned (v : UInt64) : UInt64 := v
/-- integer.h:47-50 `as_intptr`. -/
def asIntptr (p : UInt64) : Int64 := p.toInt64
/-- integer.h:56-59 `as_uintptr`. -/
def asUintptr (p : UInt64) : UInt64 := p

/-- integer.c:4-11 `integer_cmp`. -/
def integerCmp (a b : UInt64) : Int :=
  if asIntptr a < asIntptr b then -1 else if asIntptr a > asIntptr b then 1 else 0

/-- integer.c:13-20 `unsigned_cmp`. The first comparison mixes `intptr_t` and `uintptr_t`: the signed operand is converted to
unsigned. -/
def unsignedCmp (a b : UInt64) : Int :=
  if (asIntptr a).toUInt64 < asUintptr b then -1 else if asUintptr a > asUintptr b then 1 else 0

end Verif.Integer
