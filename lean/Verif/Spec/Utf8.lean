/-!
Specification of UTF-8 (The Unicode Standard, section 3.9, definition D92 and table 3-6; RFC 3629), independent of the code.
-/

namespace Verif.Spec.Utf8

/-- Unicode scalar values. -/
def IsScalar (cp : Nat) : Prop := cp < 0xD800 ∨ (0xE000 ≤ cp ∧ cp < 0x110000)

instance (cp : Nat) : Decidable (IsScalar cp) := by unfold IsScalar; infer_instance

/-- The `k`-byte bit distribution of table 3-6. -/
def form (k cp : Nat) : List UInt8 :=
  match k with
  | 1 => [UInt8.ofNat cp]
  | 2 => [UInt8.ofNat (0xC0 + cp / 64), UInt8.ofNat (0x80 + cp % 64)]
  | 3 => [UInt8.ofNat (0xE0 + cp / 4096), UInt8.ofNat (0x80 + cp / 64 % 64), UInt8.ofNat (0x80 + cp % 64)]
  | _ => [UInt8.ofNat (0xF0 + cp / 262144), UInt8.ofNat (0x80 + cp / 4096 % 64), UInt8.ofNat (0x80 + cp / 64 % 64),
      UInt8.ofNat (0x80 + cp % 64)]

/-- Number of values the `k`-byte form can carry. -/
def cap (k : Nat) : Nat := match k with | 1 => 0x80 | 2 => 0x800 | 3 => 0x10000 | _ => 0x200000

/-- Number of bytes of the (shortest, hence only legal) encoding. -/
def width (cp : Nat) : Nat := if cp < 0x80 then 1 else if cp < 0x800 then 2 else if cp < 0x10000 then 3 else 4

/-- The UTF-8 encoding of a scalar value. -/
def enc (cp : Nat) : List UInt8 := form (width cp) cp

/-- `p` is the legal encoding of `cp`. -/
def Legal (p : List UInt8) (cp : Nat) : Prop := IsScalar cp ∧ p = enc cp

/-- `p` is an encoding of `cp` in some form, possibly longer than necessary. -/
def Loose (p : List UInt8) (cp : Nat) : Prop := IsScalar cp ∧ ∃ k, 1 ≤ k ∧ k ≤ 4 ∧ cp < cap k ∧ p = form k cp

/-- Concatenations of encodings accepted by `A`. -/
inductive Seq (A : List UInt8 → Nat → Prop) : List UInt8 → List Nat → Prop
  | nil : Seq A [] []
  | cons {p cp r cps} : A p cp → Seq A r cps → Seq A (p ++ r) (cp :: cps)

/-- Replacement of bytes that do not start an encoding accepted by `A` by U+FFFD. -/
inductive Sanitized (A : List UInt8 → Nat → Prop) : List UInt8 → List UInt8 → Prop
  | nil : Sanitized A [] []
  | good {p cp r o} : A p cp → Sanitized A r o → Sanitized A (p ++ r) (p ++ o)
  | bad {b r o} : (∀ p cp t, A p cp → b :: r ≠ p ++ t) → Sanitized A r o → Sanitized A (b :: r) (0xEF :: 0xBF :: 0xBD :: o)

end Verif.Spec.Utf8
