import Verif.Spec.Strings
import Verif.Model.Owned
import Verif.Model.Utf8
import Verif.Model.Url
import Verif.Model.Base64

/-!
The string functions of `/repo/src/charstr.c` and `/repo/src/base64.c` on pointer memory: each reads its argument from the block it points into, as
the block is at that moment, and what it makes is in a new block. What is computed from the bytes is as in `Verif.Model.Charstr`, `Utf8`, `Url` and
`Base64`. The functions that split are in `Verif.Model.Owned`, together with `charstr_printf`.
-/

namespace Verif.Strings
open Spec.Strings (Fn SplitFn Part Op Res)
set_option autoImplicit false

/-- `fsalloc(n)`: bytes of a new block. -/
abbrev fresh (junk : Nat → UInt8) (n : Nat) : List UInt8 := BA.malloc junk n

/-- The functions that make one string from one; the block and the length stored, or `none` for NULL:
charstr.c:326-331 `charstr_dupstr`, 333-342 `charstr_dupsubstr`, 439-449 `charstr_strip`, 510-541 `charstr_sanitize_utf8`, 672-675
`charstr_url_encode`, 677-712 `charstr_url_decode`; base64.c:123-132 `base64_encode_simple`, 249-259 `base64_decode_simple`. -/
def fnC (junk : Nat → UInt8) (s : List UInt8) : Fn → C (Option (List UInt8 × Option Nat))
  | .dup => do return (← Charstr.dupstr (some s)).map (·, none)
  | .dupsub n => do return (← Charstr.dupsubstr (some s) (some n)).map (·, none)
  | .strip => do return (← Charstr.strip (some s)).map (·, none)
  | .sanitize => do return some (← Utf8.sanitize (fresh junk) s, none)
  | .urlEncode => do return some (← Url.urlEncode junk s, none)
  | .urlDecode plus => do return (← Url.urlDecode junk s plus).map fun r => (r.1, some r.2)
  | .base64Encode n => if n ≤ s.length then do return (← Base64.encodeSimple (fresh junk) (s.take n)).map (·, none) else .error .ub
  | .base64Decode => do return (← Base64.decodeSimple (fresh junk) s).map fun r => (r.1, some r.2)

/-- A call of one of them. -/
def makeM (A : Alloc) (junk : Nat → UInt8) (fn : Fn) (a off : Nat) : M Res := do
  let b ← readBytes a
  match ← M.lift (liftC (fnC junk (b.drop off) fn)) with
  | none => pure (.ptr 0 none)
  | some (d, n) => do
    let p ← M.alloc A (.bytes d)
    pure (.ptr p n)

/-- The user takes all strings out of a list: list.c:139-147 `list_pop_first` until the list is empty. -/
def drainM (list : Nat) : M (List Nat) := do
  if ← CList.empty list then pure []
  else
    let v ← CList.popFirst list
    let vs ← drainM list
    pure (v :: vs)
partial_fixpoint

/-- The user takes all strings out of a list and destroys it. -/
def takeAllM (list : Nat) : M Res := do
  let ps ← drainM list
  CList.destroy list
  pure (.ptrs ps)

/-- A call of one of the splitting functions. For `charstr_split_into_array` the user provides an array of `max_split + 1` pointers, and takes from
it as many as the function says. -/
def splitM (A : Alloc) (fn : SplitFn) (a off : Nat) : M Res := match fn with
  | .split d max => do takeAllM (← Owned.splitM A a off d max)
  | .atoms => do takeAllM (← Owned.splitAtomsM A a off)
  | .str ad od max => do takeAllM (← Owned.splitStrM A a off ad od max)
  | .intoArray d max => do
    let array ← M.alloc A (.slots (List.replicate (max + 1) none))
    let i ← Owned.splitIntoArrayM A a off d array max
    let x ← readSlots array
    M.free array
    pure (.ptrs (x.take (i + 1)).reduceOption)

/-- What the C library's formatter makes of a format that has fixed text and `%s` only. -/
def formatted (m : Mem) : List Part → Option (List UInt8)
  | [] => some []
  | .lit t :: parts => (formatted m parts).map (t ++ ·)
  | .str a off :: parts => match m.get a with
    | some (.bytes b) => (formatted m parts).map (Spec.Strings.text (b.drop off) ++ ·)
    | _ => none

/-- A call of `charstr_printf`. -/
def printfM (A : Alloc) (junk : Nat → UInt8) (parts : List Part) : M Res := do
  let p ← Owned.vprintfM A (fresh junk) fun m => formatted m parts
  pure (.ptr p none)

/-- charstr.c:599-602: an encoder is an array of 256 entries of 4 bytes. -/
def table (b : List UInt8) : Url.Encoder := (List.range 256).map fun i => (b.drop (4 * i)).take 4

/-- charstr.c:607-623 `charstr_create_url_encoder`. -/
def makeEncoderM (A : Alloc) (r roff u uoff : Nat) : M Res := do
  let rb ← readBytes r
  let ub ← readBytes u
  let enc ← M.lift (liftC (Url.createUrlEncoder (rb.drop roff) (ub.drop uoff)))
  let p ← M.alloc A (.bytes enc.flatten)
  pure (.ptr p none)

/-- charstr.c:651-670 `charstr_url_custom_encode`. -/
def customEncodeM (A : Alloc) (junk : Nat → UInt8) (e a off : Nat) : M Res := do
  let t ← readBytes e
  let b ← readBytes a
  let d ← M.lift (liftC (Url.customEncode junk (table t) (b.drop off)))
  let p ← M.alloc A (.bytes d)
  pure (.ptr p none)

/-- charstr.c:344-350 `charstr_lcase_str`, 361-367 `charstr_ucase_str`: `x` is the part of the block from the pointer on, afterwards. -/
def inPlaceM (p off : Nat) (f : List UInt8 → C (List UInt8)) : M Res := do
  let b ← readBytes p
  let x ← M.lift (liftC (f (b.drop off)))
  M.write p (.bytes (b.take off ++ x))
  pure .unit

/-- A call. `destroyEncoder` is charstr.c:625-628 `charstr_destroy_url_encoder`; `recaseSub` charstr.c:352-359 and 369-376. -/
def callM (A : Alloc) : Op → M Res
  | .make junk fn a off => makeM A junk fn a off
  | .split fn a off => splitM A fn a off
  | .printf junk parts => printfM A junk parts
  | .makeEncoder r roff u uoff => makeEncoderM A r roff u uoff
  | .customEncode junk e a off => customEncodeM A junk e a off
  | .destroyEncoder e => do M.free e; pure .unit
  | .recase up p off => inPlaceM p off (if up then Charstr.ucaseStr else Charstr.lcaseStr)
  | .recaseSub up p off n => inPlaceM p off fun s => if up then Charstr.ucaseSubstr s n else Charstr.lcaseSubstr s n
  | .poke p i c => inPlaceM p 0 fun s => wr s i c
  | .look p => do return .bytes (← readBytes p)
  | .free p => do M.free p; pure .unit

end Verif.Strings
