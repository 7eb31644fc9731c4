/-!
Specification of a byte array: a sequence of bytes and a limit. The limit counts the NUL terminator, so a sequence fits if its
length is less than the limit.
-/

namespace Verif.Spec.ByteArray

/-- Append. -/
def append (max : Nat) (c bs : List UInt8) : Bool × List UInt8 :=
  if c.length + bs.length < max then (true, c ++ bs) else (false, c)

/-- Overwrite at `pos`, extending if needed; `pos` must not be past the end. -/
def copy (max : Nat) (c : List UInt8) (pos : Nat) (bs : List UInt8) : Bool × List UInt8 :=
  if pos ≤ c.length ∧ pos + bs.length < max then (true, c.take pos ++ bs ++ c.drop (pos + bs.length)) else (false, c)

/-- Truncate or pad to `n` bytes. -/
def resize (max : Nat) (c : List UInt8) (n : Nat) (b : UInt8) : Bool × List UInt8 :=
  if n ≤ c.length then (true, c.take n)
  else if n < max then (true, c ++ List.replicate (n - c.length) b) else (false, c)

end Verif.Spec.ByteArray
