import Verif.Model.Base64
import Verif.Model.Unicode

/-!
`/repo/src/base64.c`, `/repo/src/charstr_recompose.c` and `/repo/src/charstr_decompose.c` for calls in which the source and the destination
are in one object. `mem` is the object from the destination on, the source begins at offset `k`: every read of the source sees what has been
written before. The rest of the code is that of Model/Base64.lean and Model/Unicode.lean.
-/

set_option autoImplicit false

namespace Verif.Base64

/-- The locals of `base64_decode_buffer` and the object: `mem`, the offset of `&source[si]`, `source_size - si`, `pi`, `bits`, `bit_count`. -/
structure InSt where
  mem : List UInt8
  k : Nat
  left : Nat
  pi : Nat
  bits : UInt32
  bitCount : Nat

/-- base64.c:206-221: the first loop, which stores bytes; `size` is `dest_size`. An inner `.error mem` is the `return -1` inside it. -/
def storeLoopIn (p62 p63 : UInt8) (ign : Bool) (size : Nat) (mem : List UInt8) (k left pi : Nat) (bits : UInt32) (bc : Nat) :
    C (Except (List UInt8) InSt) :=
  if _h : pi < size ∧ 0 < left then
    match rd mem k with
    | .error e => .error e
    | .ok c =>
      if c ≠ 0 ∧ c ≠ 61 then
        let nb := getBits c p62 p63 ign
        if nb < 0 then
          if nb = -2 then storeLoopIn p62 p63 ign size mem (k + 1) (left - 1) pi bits bc
          else .ok (.error mem)
        else
          let bits := bits <<< 6 ||| UInt32.ofNat nb.toNat
          let bc := bc + 6
          if 8 ≤ bc then
            let bc := bc - 8
            match wr mem pi (bits >>> UInt32.ofNat bc).toUInt8 with
            | .ok mem => storeLoopIn p62 p63 ign size mem (k + 1) (left - 1) (pi + 1) bits bc
            | .error e => .error e
          else storeLoopIn p62 p63 ign size mem (k + 1) (left - 1) pi bits bc
      else .ok (.ok ⟨mem, k, left, pi, bits, bc⟩)
  else .ok (.ok ⟨mem, k, left, pi, bits, bc⟩)
termination_by left
decreasing_by all_goals omega

/-- base64.c:192-247 `base64_decode_buffer`. After the first loop nothing is written. -/
def decodeBufferIn (mem : List UInt8) (k sourceSize size : Nat) (pos62 pos63 : UInt8) (ign : Bool) : C (DecRes × List UInt8) := do
  let pos62 := dflt pos62 43
  let pos63 := dflt pos63 47
  match ← storeLoopIn pos62 pos63 ign size mem k sourceSize 0 0 0 with
  | .error mem => return (.eilseq, mem)
  | .ok s =>
    match ← decLoop2 pos62 pos63 ign (s.mem.drop s.k) s.left s.pi s.bits s.bitCount with
    | none => return (.eilseq, s.mem)
    | some (src, left, pi, bits, bc) =>
      if bits &&& ~~~((~~~ (0 : UInt32)) <<< UInt32.ofNat bc) ≠ 0 then return (.eilseq, s.mem)
      if !(← goodTail src left bc ign) then return (.eilseq, s.mem)
      if 2 ^ 63 ≤ pi % 2 ^ 64 then return (.eoverflow, s.mem)
      return (.count pi, s.mem)

end Verif.Base64

namespace Verif.Unicode
open Verif.Utf8

/-- charstr_recompose.c:232-252: the loop of `charstr_unicode_recompose`; `lim` is the distance to `end`, as in `Pos`. -/
def recomposeLoopIn (u : Ucd) (k : Nat) (lim : Option Nat) (r : Recomposer) (h : Hangul) (mem : List UInt8) (q : Nat) (e : Option Nat) :
    D (Except Errno (Recomposer × Hangul × Nat) × List UInt8) := do
  if lim = some 0 then pure (.ok (r, h, q), mem)
  else match mem.drop k with
    | [] => throw .ub
    | c :: _ =>
      if c = 0 then pure (.ok (r, h, q), mem)
      else
        match ← liftC (decode (mem.drop k, lim)) with
        | none => pure (.error .eilseq, mem)
        | some (cp, p) =>
          let (r, out) ← liftC (feed u r cp)
          match ← deliver r h out mem q e with
          | (_, _, none, mem) => pure (.error .eoverflow, mem)
          | (r, h, some (errno, q), mem) =>
            if errno ≠ .eagain then pure (.error errno, mem)
            else recomposeLoopIn u (mem.length - p.1.length) p.2 r h mem q e
partial_fixpoint

/-- charstr_recompose.c:223-281 `charstr_unicode_recompose` -/
def recomposeIn (u : Ucd) (mem : List UInt8) (k : Nat) (lim : Option Nat) (e : Option Nat) : D (Res × List UInt8) := do
  let (x, mem) ← recomposeLoopIn u k lim Recomposer.new none mem 0 e
  match x with
  | .error errno => pure (.null errno, mem)
  | .ok (r, h, q) => recomposeEnd r h mem q e

/-- charstr_decompose.c:85-97: the loop of `charstr_unicode_decompose` -/
def decomposeLoopIn (u : Ucd) (k : Nat) (lim : Option Nat) (mem : List UInt8) (q : Nat) (e : Option Nat) : D (Except Errno Nat × List UInt8) := do
  if lim = some 0 then pure (.ok q, mem)
  else match mem.drop k with
    | [] => throw .ub
    | c :: _ =>
      if c = 0 then pure (.ok q, mem)
      else
        match ← liftC (decode (mem.drop k, lim)) with
        | none => pure (.error .eilseq, mem)
        | some (cp, p) =>
          let (q, mem) ← decomposeFully u cp mem q e
          match q with
          | none => pure (.error .eoverflow, mem)
          | some q => decomposeLoopIn u (mem.length - p.1.length) p.2 mem q e
partial_fixpoint

/-- charstr_decompose.c:81-105 `charstr_unicode_decompose` -/
def decomposeIn (u : Ucd) (mem : List UInt8) (k : Nat) (lim : Option Nat) (e : Option Nat) : D (Res × List UInt8) := do
  let (r, mem) ← decomposeLoopIn u k lim mem 0 e
  match r with
  | .error errno => pure (.null errno, mem)
  | .ok q =>
    if e = some q then pure (.null .eoverflow, mem)
    else
      let mem ← liftC (wr mem q 0)
      let mem ← sortLoop u mem 0 0 0 q
      pure (.ptr q, mem)

end Verif.Unicode
