/-!
Specification of Base64 (RFC 4648, sections 3.2, 3.5 and 4), independent of the code: the alphabet as character ranges,
groups of three bytes as a 24-bit number cut into four base-64 digits, padding by `=`, unused bits zero.
-/

namespace Verif.Spec.Base64

/-- RFC 4648 table 1, with the 62nd and 63rd characters as parameters. -/
def digit (p62 p63 : UInt8) (v : Nat) : UInt8 :=
  if v < 26 then UInt8.ofNat (65 + v)
  else if v < 52 then UInt8.ofNat (97 + (v - 26))
  else if v < 62 then UInt8.ofNat (48 + (v - 52))
  else if v = 62 then p62
  else p63

/-- The base-64 digits of a byte string; the last group is padded with zero bits (RFC 4648 section 4). -/
def digits : List UInt8 → List Nat
  | [] => []
  | [a] =>
    let n := a.toNat * 65536
    [n / 262144, n / 4096 % 64]
  | [a, b] =>
    let n := a.toNat * 65536 + b.toNat * 256
    [n / 262144, n / 4096 % 64, n / 64 % 64]
  | a :: b :: c :: rest =>
    let n := a.toNat * 65536 + b.toNat * 256 + c.toNat
    n / 262144 :: n / 4096 % 64 :: n / 64 % 64 :: n % 64 :: digits rest

/-- The padding of a byte string of length `n`: completes the last group of four characters. -/
def pad (n : Nat) : List UInt8 := List.replicate ((3 - n % 3) % 3) 61

/-- The encoding of a byte string. -/
def encode (p62 p63 : UInt8) (bs : List UInt8) : List UInt8 :=
  (digits bs).map (digit p62 p63) ++ pad bs.length

/-- `' \t\n\f\r'` -/
def isWs (c : UInt8) : Bool := c = 32 || c = 9 || c = 10 || c = 12 || c = 13

/-- The text presented to a decoder: up to the size limit or the first NUL. -/
def text (src : List UInt8) (size : Nat) : List UInt8 := (src.take size).takeWhile (· ≠ 0)

/-- `t` is a well-formed encoding of `bs`. When whitespace is ignored it may occur anywhere except inside the padding. -/
def Valid (p62 p63 : UInt8) (ign : Bool) (t bs : List UInt8) : Prop :=
  ∃ d w, t = d ++ pad bs.length ++ w ∧
    d.filter (fun c => !(ign && isWs c)) ++ pad bs.length = encode p62 p63 bs ∧
    (∀ c ∈ w, ign = true ∧ isWs c = true)

/-- A usable pair of extra characters: distinct, not alphanumeric, not `=`, NUL or whitespace, and not one of the two codes
127 and 255 for which the decoding table is wrong. -/
def Alphabet (p62 p63 : UInt8) : Prop :=
  p62 ≠ p63 ∧ ∀ c, (c = p62 ∨ c = p63) →
    ¬ (65 ≤ c ∧ c ≤ 90) ∧ ¬ (97 ≤ c ∧ c ≤ 122) ∧ ¬ (48 ≤ c ∧ c ≤ 57) ∧ c ≠ 61 ∧ c ≠ 0 ∧ isWs c = false ∧ c ≠ 127 ∧ c ≠ 255

end Verif.Spec.Base64
