import Verif.Model.ByteArray
import Verif.Model.Url
import Verif.Base.Outcome

/-!
The functions of `/repo/src/bytearray.c` and `/repo/src/charstr.c` that assign to `errno`, with the value of `errno` as a state. Assumption: the
allocator leaves `errno` alone when it succeeds. The parts that do not touch `errno` are those of `Model/ByteArray.lean` and `Model/Url.lean`.
-/

set_option autoImplicit false

namespace Verif.Err
open Verif.BA

/-- A computation that may assign to `errno`. -/
abbrev E (α : Type) : Type := StateT Int (Except Err) α

/-- `ENOSPC` on Linux. -/
def ENOSPC : Int := 28
/-- `EILSEQ` on Linux. -/
def EILSEQ : Int := 84

/-- A part that leaves `errno` alone. -/
def quiet {α : Type} (c : C α) : E α := fun e => match c with
  | .error x => .error x
  | .ok a => .ok (a, e)

/-- bytearray.c:44-69 `ensure_space`; `none` is `false`. -/
def ensureSpace (junk : Junk) (a : BA) (len : Nat) : E (Option BA) :=
  if len ≥ sub64 a.maxSize a.cursor then do
    set ENOSPC
    pure none
  else if len ≥ sub64 a.size a.cursor then
    let n := roundUp 0 (add64 (add64 a.cursor len) 1)
    pure (some { a with size := n, data := realloc junk a.data n })
  else pure (some a)

/-- bytearray.c:71-90 `byte_array_copy`. -/
def copy (junk : Junk) (a : BA) (pos : Nat) (bs : List UInt8) : E (Bool × BA) :=
  if pos > a.cursor then pure (false, a)
  else if bs.length > sub64 a.cursor pos then do
    match ← ensureSpace junk a (sub64 (add64 pos bs.length) a.cursor) with
    | none => pure (false, a)
    | some a => quiet (copyTail a pos bs)
  else quiet (copyTail a pos bs)

/-- bytearray.c:92-95 `byte_array_copy_string`. -/
def copyString (junk : Junk) (a : BA) (pos : Nat) (str : List UInt8) : E (Bool × BA) := do
  let n ← quiet (strlen str)
  copy junk a pos (str.take n)

/-- bytearray.c:97-106 `byte_array_append`. -/
def append (junk : Junk) (a : BA) (bs : List UInt8) : E (Bool × BA) := do
  match ← ensureSpace junk a bs.length with
  | none => pure (false, a)
  | some a =>
    let data ← quiet (memmove a.data a.cursor bs)
    let a ← quiet (terminate { a with data, cursor := add64 a.cursor bs.length })
    pure (true, a)

/-- bytearray.c:108-111 `byte_array_append_string`. -/
def appendString (junk : Junk) (a : BA) (str : List UInt8) : E (Bool × BA) := do
  let n ← quiet (strlen str)
  append junk a (str.take n)

/-- bytearray.c:126-134: `ensure_space`, the callback and the update. `cbErr` is what the callback makes of `errno`. -/
def streamTail (junk : Junk) (a : BA) (cb : ReadCb) (cbErr : Nat → Int → Int) (len : Nat) : E (Int × BA) := do
  match ← ensureSpace junk a len with
  | none => pure (-1, a)
  | some a =>
    let data ← quiet (memmove a.data a.cursor (cb len).1)
    modify (cbErr len)
    let a := { a with data }
    let count := (cb len).2
    if count > 0 then do
      let a ← quiet (terminate { a with cursor := add64 a.cursor count.toNat })
      pure (count, a)
    else pure (count, a)

/-- bytearray.c:113-135 `byte_array_append_stream`. -/
def appendStream (junk : Junk) (a : BA) (cb : ReadCb) (cbErr : Nat → Int → Int) (len : Nat) : E (Int × BA) :=
  let available := sub64 a.maxSize a.cursor
  if len ≥ available then
    if available = 1 then do
      set ENOSPC
      pure (-1, a)
    else streamTail junk a cb cbErr (sub64 available 1)
  else streamTail junk a cb cbErr len

/-- bytearray.c:143-153 `byte_array_resize`. -/
def resize (junk : Junk) (a : BA) (n : Nat) (c : UInt8) : E (Bool × BA) :=
  if n > a.cursor then do
    match ← ensureSpace junk a (sub64 n a.cursor) with
    | none => pure (false, a)
    | some a =>
      let data ← quiet (memmove a.data a.cursor (List.replicate (sub64 n a.cursor) c))
      quiet (resizeTail { a with data } n)
  else quiet (resizeTail a n)

/-- charstr.c:677-712 `charstr_url_decode`; `none` is NULL. -/
def urlDecode (junk : Junk) (encoding : List UInt8) (plusIsSpace : Bool) : E (Option (List UInt8 × Nat)) := do
  match ← quiet (Url.checkLoop encoding 0) with
  | none =>
    set EILSEQ
    pure none
  | some length =>
    let d ← quiet (Url.decodeLoop plusIsSpace encoding (malloc junk (length + 1)) 0)
    pure (some (d, length))

/-- charstr.c:714-728 `charstr_vprintf`. `text` is what the C library's formatter makes of the format and the arguments, `libErr` what it makes of
`errno`. An `int` is returned, so it fails for 2^31 characters or more. -/
def vprintf (text : Option (List UInt8)) (libErr : Int → Int) : E (Option (List UInt8)) := do
  modify libErr
  match text with
  | none =>
    set EILSEQ
    pure none
  | some t =>
    if t.length ≥ 2 ^ 31 then do
      set EILSEQ
      pure none
    else do
      modify libErr
      pure (some (t ++ [0]))

end Verif.Err
