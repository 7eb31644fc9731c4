/-! Specification of ASCII string functions, on strings as lists of bytes (without the NUL). -/

namespace Verif.Spec.Charstr

/-- ASCII lower case. -/
def lower (c : UInt8) : UInt8 := if 65 ≤ c.toNat ∧ c.toNat ≤ 90 then c + 32 else c
/-- ASCII upper case. -/
def upper (c : UInt8) : UInt8 := if 97 ≤ c.toNat ∧ c.toNat ≤ 122 then c - 32 else c

/-- Lexicographic comparison of byte strings, a shorter prefix first. -/
def lexCmp : List UInt8 → List UInt8 → Int
  | [], [] => 0
  | [], _ :: _ => -1
  | _ :: _, [] => 1
  | a :: as, b :: bs => if a.toNat < b.toNat then -1 else if b.toNat < a.toNat then 1 else lexCmp as bs

/-- Value of a hexadecimal digit. -/
def hexValue (c : UInt8) : Option Nat :=
  if 48 ≤ c.toNat ∧ c.toNat ≤ 57 then some (c.toNat - 48)
  else if 65 ≤ c.toNat ∧ c.toNat ≤ 70 then some (c.toNat - 55)
  else if 97 ≤ c.toNat ∧ c.toNat ≤ 102 then some (c.toNat - 87)
  else none

/-- The pieces of `s` split at `d`, at most `max` times, from the left. -/
structure Split (d : UInt8) (max : Nat) (s : List UInt8) (pieces : List (List UInt8)) : Prop where
  /-- joining gives the string back -/
  join : List.intercalate [d] pieces = s
  /-- only the last piece may contain the delimiter -/
  clean : ∀ p ∈ pieces.dropLast, d ∉ p
  /-- as many splits as delimiters, up to the limit -/
  count : pieces.length = min (s.count d) max + 1

/-- Splitting at a string: `s` is cut at the leftmost occurrence of `d`, then the rest is split likewise, at most `max` times. -/
inductive SplitStr (d : List UInt8) : Nat → List UInt8 → List (List UInt8) → Prop
  | limit (s : List UInt8) : SplitStr d 0 s [s]
  | none (max : Nat) (s : List UInt8) (h : ¬ d <:+: s) : SplitStr d max s [s]
  | cut (max : Nat) (a b : List UInt8) (ps : List (List UInt8))
      (leftmost : ∀ a' b', a ++ d ++ b = a' ++ d ++ b' → a.length ≤ a'.length) (h : SplitStr d max b ps) :
      SplitStr d (max + 1) (a ++ d ++ b) (a :: ps)

/-- The maximal runs of characters that are not white space. -/
inductive Atoms (ws : UInt8 → Bool) : List UInt8 → List (List UInt8) → Prop
  | done (s : List UInt8) (h : ∀ c ∈ s, ws c = true) : Atoms ws s []
  | atom (w a r : List UInt8) (as : List (List UInt8)) (hw : ∀ c ∈ w, ws c = true) (h0 : a ≠ [])
      (ha : ∀ c ∈ a, ws c = false) (hr : ∀ c ∈ r.head?, ws c = true) (h : Atoms ws r as) :
      Atoms ws (w ++ a ++ r) (a :: as)

/-- `t` is `s` without surrounding white space. -/
def Stripped (ws : UInt8 → Bool) (s t : List UInt8) : Prop :=
  ∃ a b, s = a ++ t ++ b ∧ (∀ c ∈ a, ws c = true) ∧ (∀ c ∈ b, ws c = true) ∧
    (∀ c ∈ t.head?, ws c = false) ∧ (∀ c ∈ t.getLast?, ws c = false)

end Verif.Spec.Charstr
