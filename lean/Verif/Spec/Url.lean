import Verif.Spec.Charstr

/-! Specification of URL (percent) encoding. -/

namespace Verif.Spec.Url
open Verif.Spec.Charstr (hexValue)

/-- The upper-case hexadecimal digits. -/
def digits : List UInt8 := [48, 49, 50, 51, 52, 53, 54, 55, 56, 57, 65, 66, 67, 68, 69, 70]

/-- Percent encoding of a byte. -/
def pct (c : UInt8) : List UInt8 := [37, digits.getD (c.toNat / 16) 0, digits.getD (c.toNat % 16) 0]

/-- Letters and digits. -/
def alnum (c : UInt8) : Bool :=
  (48 ≤ c.toNat && c.toNat ≤ 57) || (65 ≤ c.toNat && c.toNat ≤ 90) || (97 ≤ c.toNat && c.toNat ≤ 122)

/-- The punctuation that charstr.h documents as encoded by itself: - . / < > \ ^ _ ` { | ] ~ -/
def documentedPunct : List UInt8 := [45, 46, 47, 60, 62, 92, 94, 95, 96, 123, 124, 93, 126]

/-- The documented encoding of a byte (charstr.h). -/
def documented (c : UInt8) : List UInt8 :=
  if c = 32 then [43] else if alnum c || documentedPunct.contains c then [c] else pct c

/-- The bytes an encoded string denotes; `none` if some `%` is not followed by two hexadecimal digits. -/
def denote (plusIsSpace : Bool) : List UInt8 → Option (List UInt8)
  | [] => some []
  | c :: cs =>
    if c = 37 then match cs with
      | a :: b :: cs => match hexValue a, hexValue b with
        | some x, some y => (denote plusIsSpace cs).map (UInt8.ofNat (16 * x + y) :: ·)
        | _, _ => none
      | _ => none
    else (denote plusIsSpace cs).map ((if c = 43 ∧ plusIsSpace then 32 else c) :: ·)

end Verif.Spec.Url
