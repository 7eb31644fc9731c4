import Mathlib.Data.List.Forall2

/-!
Specification of Punycode decoding (RFC 3492, sections 5 and 6) with natural numbers, and of the ASCII form of a label and of a host name.
-/

namespace Verif.Spec.Punycode

/-- Section 5: the value of a digit. -/
def value (c : UInt8) : Option Nat :=
  if 97 ≤ c.toNat ∧ c.toNat ≤ 122 then some (c.toNat - 97)
  else if 65 ≤ c.toNat ∧ c.toNat ≤ 90 then some (c.toNat - 65)
  else if 48 ≤ c.toNat ∧ c.toNat ≤ 57 then some (c.toNat - 48 + 26)
  else none

/-- Section 6.1: the loop dividing `delta`. -/
def shrink (delta k : Nat) : Nat × Nat := if delta > (36 - 1) * 26 / 2 then shrink (delta / (36 - 1)) (k + 36) else (delta, k)
termination_by delta

/-- Section 6.1: the adaptation of the bias. -/
def adapt (delta points : Nat) (first : Bool) : Nat :=
  let delta := if first then delta / 700 else delta / 2
  let (delta, k) := shrink (delta + delta / points) 0
  k + (36 - 1 + 1) * delta / (delta + 38)

/-- Section 6.2: the threshold for the digit with this `k`. -/
def threshold (bias k : Nat) : Nat := if k ≤ bias then 1 else if k ≥ bias + 26 then 26 else k - bias

/-- Section 6.2: the variables of the decoder. `oldi`, `w` and `k` belong to the integer being read. -/
structure State where
  output : List Nat
  n : Nat
  i : Nat
  bias : Nat
  oldi : Nat
  w : Nat
  k : Nat

/-- Section 6.2: what the decoder does with one digit. -/
def step (s : State) (c : UInt8) : Option State :=
  match value c with
  | none => none
  | some digit =>
    let i := s.i + digit * s.w
    let t := threshold s.bias s.k
    if digit < t then
      let length := s.output.length + 1
      let n := s.n + i / length
      let place := i % length
      some { output := s.output.take place ++ n :: s.output.drop place, n := n, i := place + 1,
             bias := adapt (i - s.oldi) length (s.oldi == 0), oldi := place + 1, w := 1, k := 36 }
    else some { s with i := i, w := s.w * (36 - t), k := s.k + 36 }

/-- The digits are read from left to right. -/
def steps (s : State) : List UInt8 → Option State
  | [] => some s
  | c :: cs => match step s c with
    | none => none
    | some s => steps s cs

/-- What follows the last hyphen. -/
def extended (s : List UInt8) : List UInt8 := (s.reverse.takeWhile (· ≠ 0x2D)).reverse

/-- Section 6.2: decoding. The basic code points precede the last hyphen, which is there only if there are any. The text ends where an
integer ends. -/
def decode (s : List UInt8) : Option (List Nat) :=
  let ext := extended s
  let basic := s.take (s.length - ext.length - 1)
  if basic.any (· ≥ 128) || (ext.length < s.length && basic.isEmpty) then none
  else match steps { output := basic.map UInt8.toNat, n := 128, i := 0, bias := 72, oldi := 0, w := 1, k := 36 } ext with
    | none => none
    | some st => if st.k = 36 then some st.output else none

/-- A code point with ASCII capitals replaced. -/
def lower (c : Nat) : Nat := if 65 ≤ c ∧ c ≤ 90 then c + 32 else c

/-- The ASCII form of a label: the label itself if it is ASCII, otherwise "xn--" and text decoding to the label, in lower case. -/
def ToAscii (l : List Nat) (e : List UInt8) : Prop :=
  ((∀ c ∈ l, c < 128) ∧ e = l.map fun c => UInt8.ofNat (lower c)) ∨
    ((∃ c ∈ l, 128 ≤ c) ∧ ∃ p, e = [0x78, 0x6E, 0x2D, 0x2D] ++ p ∧ decode p = some (l.map lower) ∧ ∀ c ∈ p, ¬ (65 ≤ c.toNat ∧ c.toNat ≤ 90))

/-- A label the encoder accepts: it does not begin with a hyphen or a character that `mark` holds for, and its ASCII characters are letters,
digits and hyphens. -/
def Acceptable (mark : Nat → Bool) (l : List Nat) : Prop :=
  l.head? ≠ some 0x2D ∧ (∀ c ∈ l, c < 128 → c = 0x2D ∨ 48 ≤ c ∧ c ≤ 57 ∨ 65 ≤ c ∧ c ≤ 90 ∨ 97 ≤ c ∧ c ≤ 122) ∧
    ∀ c, l.head? = some c → 128 ≤ c → mark c = false

/-- The ASCII form of a host name whose labels the encoder accepts: those of the labels, separated by full stops; each has at most 63 characters
and all together, without a full stop at the end, at most 252. -/
def HostAscii (mark : Nat → Bool) (x : List Nat) (out : List UInt8) : Prop :=
  x.getLast? ≠ some 0x2D ∧ (∀ l ∈ x.splitOn 0x2E, Acceptable mark l) ∧
    ∃ es, List.Forall₂ ToAscii (x.splitOn 0x2E) es ∧ (∀ e ∈ es, e.length ≤ 63) ∧ out = [0x2E].intercalate es ∧
      out.length ≤ 252 + if x.getLast? = some 0x2E then 1 else 0

/-- A label in ASCII has more than 63 characters and everything before it is in order. -/
def LongAscii (mark : Nat → Bool) (x : List Nat) : Prop :=
  x.getLast? ≠ some 0x2D ∧ ∃ before l after es, x.splitOn 0x2E = before ++ l :: after ∧ (∀ a ∈ before, Acceptable mark a) ∧
    List.Forall₂ ToAscii before es ∧ (∀ e ∈ es, e.length ≤ 63) ∧ (es.map fun e => e.length + 1).sum ≤ 253 ∧
    Acceptable mark l ∧ (∀ c ∈ l, c < 128) ∧ 63 < l.length

/-- The mapping step of IDNA (UTS #46): `f` tells what replaces a character, `none` that it is not allowed. -/
def mapText (f : Nat → Option (List Nat)) : List Nat → Option (List Nat)
  | [] => some []
  | c :: cs => match f c, mapText f cs with
    | some m, some r => some (m ++ r)
    | _, _ => none

end Verif.Spec.Punycode
