import Verif.Base.Outcome
import Verif.Base.Splice
import Verif.Base.Tac

/-!
Model of `/repo/src/bytearray.c`. `size_t` arithmetic is arithmetic modulo 2^64 on `Nat`. The heap block behind `data` is the list
`data`; an access outside it is undefined behaviour. Allocation succeeds (the default reallocator aborts otherwise, fsalloc.c:16);
bytes of a new block are arbitrary (`junk`). `errno` is in `Model/Errno.lean`. Source buffers do not overlap the array's own block.
-/

namespace Verif.BA

/-- `a - b` in `size_t`. -/
def sub64 (a b : Nat) : Nat := (a + (2 ^ 64 - b % 2 ^ 64)) % 2 ^ 64
/-- `a + b` in `size_t`. -/
def add64 (a b : Nat) : Nat := (a + b) % 2 ^ 64

/-- bytearray.c:8-14 `struct byte_array` (without the reference count, see `Rc` below). -/
structure BA where
  data : List UInt8
  cursor : Nat
  maxSize : Nat
  size : Nat
  deriving DecidableEq, Repr

/-- Contents of fresh memory. -/
abbrev Junk := Nat → UInt8

/-- `fsalloc(n)`. -/
def malloc (junk : Junk) (n : Nat) : List UInt8 := (List.range n).map junk

/-- `fsrealloc(data, n)`: keeps the common prefix. -/
def realloc (junk : Junk) (data : List UInt8) (n : Nat) : List UInt8 := (List.range n).map fun i => data.getD i (junk i)

/-- `memcpy`/`memmove` of `bs` to offset `pos` of a block. -/
def memmove (data : List UInt8) (pos : Nat) (bs : List UInt8) : C (List UInt8) :=
  if pos + bs.length ≤ data.length then .ok (splice data pos bs) else .error .ub

/-- bytearray.c:16-28 `make_byte_array`. -/
def make (junk : Junk) (maxSize : Nat) : C BA :=
  let size := if 128 > maxSize then maxSize else 128
  match wr (malloc junk size) 0 0 with
  | .error e => .error e
  | .ok data => .ok { data, cursor := 0, maxSize, size }

/-- bytearray.c:52-63: `n` doubles from `2^k` until it reaches `target` or would overflow. -/
def roundUp (k target : Nat) : Nat :=
  if 2 ^ k < target then
    if 2 ^ k > (2 ^ 64 - 1) / 2 then 2 ^ 64 - 1 else roundUp (k + 1) target
  else 2 ^ k
termination_by 64 - k
decreasing_by
  have : k < 64 := by
    by_contra h
    have : 2 ^ 64 ≤ 2 ^ k := Nat.pow_le_pow_right (by omega) (by omega)
    omega
  omega

/-- bytearray.c:44-69 `ensure_space`; `none` is `false`. -/
def ensureSpace (junk : Junk) (a : BA) (len : Nat) : Option BA :=
  if len ≥ sub64 a.maxSize a.cursor then none
  else if len ≥ sub64 a.size a.cursor then
    let n := roundUp 0 (add64 (add64 a.cursor len) 1)
    some { a with size := n, data := realloc junk a.data n }
  else some a

/-- Store of the terminating NUL at the cursor. -/
def terminate (a : BA) : C BA :=
  match wr a.data a.cursor 0 with
  | .error e => .error e
  | .ok data => .ok { a with data }

/-- bytearray.c:84-89: the part of `byte_array_copy` after the space has been ensured. -/
def copyTail (a : BA) (pos : Nat) (bs : List UInt8) : C (Bool × BA) :=
  match memmove a.data pos bs with
  | .error e => .error e
  | .ok data =>
    let a := { a with data }
    if bs.length > sub64 a.cursor pos then
      match terminate { a with cursor := add64 pos bs.length } with
      | .error e => .error e
      | .ok a => .ok (true, a)
    else .ok (true, a)

/-- bytearray.c:71-90 `byte_array_copy`. -/
def copy (junk : Junk) (a : BA) (pos : Nat) (bs : List UInt8) : C (Bool × BA) :=
  if pos > a.cursor then .ok (false, a)
  else if bs.length > sub64 a.cursor pos then
    match ensureSpace junk a (sub64 (add64 pos bs.length) a.cursor) with
    | none => .ok (false, a)
    | some a => copyTail a pos bs
  else copyTail a pos bs

/-- `strlen`. -/
def strlen : List UInt8 → C Nat
  | [] => .error .ub
  | c :: s => if c = 0 then .ok 0 else match strlen s with
    | .error e => .error e
    | .ok n => .ok (n + 1)

/-- bytearray.c:92-95 `byte_array_copy_string`. -/
def copyString (junk : Junk) (a : BA) (pos : Nat) (str : List UInt8) : C (Bool × BA) :=
  match strlen str with
  | .error e => .error e
  | .ok n => copy junk a pos (str.take n)

/-- bytearray.c:97-106 `byte_array_append`. -/
def append (junk : Junk) (a : BA) (bs : List UInt8) : C (Bool × BA) :=
  match ensureSpace junk a bs.length with
  | none => .ok (false, a)
  | some a => match memmove a.data a.cursor bs with
    | .error e => .error e
    | .ok data => match terminate { a with data, cursor := add64 a.cursor bs.length } with
      | .error e => .error e
      | .ok a => .ok (true, a)

/-- bytearray.c:108-111 `byte_array_append_string`. -/
def appendString (junk : Junk) (a : BA) (str : List UInt8) : C (Bool × BA) :=
  match strlen str with
  | .error e => .error e
  | .ok n => append junk a (str.take n)

/-- A read callback: given the room it stores some bytes at the start of the buffer and returns a count. -/
abbrev ReadCb := Nat → List UInt8 × Int

/-- bytearray.c:126-134: `ensure_space`, the callback and the update. -/
def streamTail (junk : Junk) (a : BA) (cb : ReadCb) (len : Nat) : C (Int × BA) :=
  match ensureSpace junk a len with
  | none => .ok (-1, a)
  | some a => match memmove a.data a.cursor (cb len).1 with
    | .error e => .error e
    | .ok data =>
      let a := { a with data }
      let count := (cb len).2
      if count > 0 then
        match terminate { a with cursor := add64 a.cursor count.toNat } with
        | .error e => .error e
        | .ok a => .ok (count, a)
      else .ok (count, a)

/-- bytearray.c:113-135 `byte_array_append_stream`. -/
def appendStream (junk : Junk) (a : BA) (cb : ReadCb) (len : Nat) : C (Int × BA) :=
  let available := sub64 a.maxSize a.cursor
  if len ≥ available then
    if available = 1 then .ok (-1, a)
    else streamTail junk a cb (sub64 available 1)
  else streamTail junk a cb len

/-- bytearray.c:137-141 `byte_array_clear`. -/
def clear (a : BA) : C BA := terminate { a with cursor := 0 }

/-- bytearray.c:150-152: the part of `byte_array_resize` after the growing. -/
def resizeTail (a : BA) (n : Nat) : C (Bool × BA) :=
  match terminate { a with cursor := n } with
  | .error e => .error e
  | .ok a => .ok (true, a)

/-- bytearray.c:143-153 `byte_array_resize`. -/
def resize (junk : Junk) (a : BA) (n : Nat) (c : UInt8) : C (Bool × BA) :=
  if n > a.cursor then
    match ensureSpace junk a (sub64 n a.cursor) with
    | none => .ok (false, a)
    | some a => match memmove a.data a.cursor (List.replicate (sub64 n a.cursor) c) with
      | .error e => .error e
      | .ok data => resizeTail { a with data } n
  else resizeTail a n

/-- bytearray.c:155-163 `byte_array_data` and `byte_array_size`: the block and the number of bytes in use. -/
def view (a : BA) : List UInt8 × Nat := (a.data, a.cursor)

/-! Reference counting: `some rc` is a live array with `ref_count` rc, `none` a freed one. -/

/-- bytearray.c:30-34 `share_byte_array`. -/
def share : Option UInt32 → C (Option UInt32)
  | none => .error .ub
  | some rc => .ok (some (rc + 1))

/-- bytearray.c:36-42 `destroy_byte_array`. -/
def destroy : Option UInt32 → C (Option UInt32)
  | none => .error .ub
  | some rc => if rc - 1 ≠ 0 then .ok (some (rc - 1)) else .ok none

end Verif.BA
