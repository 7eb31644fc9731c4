import Verif.Model.Charstr
import Verif.Model.ByteArray

/-!
Model of `/repo/src/charstr.c` lines 566-712: URL encoding and decoding. An encoder is its table of 256 four-byte entries. Blocks from
`fsalloc` hold arbitrary bytes (`Junk`); `fsalloc` does not return NULL. `errno` is not modelled (a NULL result is `none`).
-/

namespace Verif.Url
open Verif.Charstr
open Verif.BA (Junk malloc)

/-- charstr.c:566-568 `struct charstr_url_encoder`. -/
abbrev Encoder := List (List UInt8)

/-- charstr.c:570-605 `url_encoder`. -/
def urlEncoder : Encoder := [
  [37, 48, 48, 0], [37, 48, 49, 0], [37, 48, 50, 0], [37, 48, 51, 0], [37, 48, 52, 0], [37, 48, 53, 0], [37, 48, 54, 0],
  [37, 48, 55, 0], [37, 48, 56, 0], [37, 48, 57, 0], [37, 48, 65, 0], [37, 48, 66, 0], [37, 48, 67, 0], [37, 48, 68, 0],
  [37, 48, 69, 0], [37, 48, 70, 0], [37, 49, 48, 0], [37, 49, 49, 0], [37, 49, 50, 0], [37, 49, 51, 0], [37, 49, 52, 0],
  [37, 49, 53, 0], [37, 49, 54, 0], [37, 49, 55, 0], [37, 49, 56, 0], [37, 49, 57, 0], [37, 49, 65, 0], [37, 49, 66, 0],
  [37, 49, 67, 0], [37, 49, 68, 0], [37, 49, 69, 0], [37, 49, 70, 0], [43, 0, 0, 0], [37, 50, 49, 0], [34, 0, 0, 0],
  [37, 50, 51, 0], [37, 50, 52, 0], [37, 50, 53, 0], [37, 50, 54, 0], [37, 50, 55, 0], [37, 50, 56, 0], [37, 50, 57, 0],
  [37, 50, 65, 0], [37, 50, 66, 0], [37, 50, 67, 0], [45, 0, 0, 0], [46, 0, 0, 0], [47, 0, 0, 0], [48, 0, 0, 0],
  [49, 0, 0, 0], [50, 0, 0, 0], [51, 0, 0, 0], [52, 0, 0, 0], [53, 0, 0, 0], [54, 0, 0, 0], [55, 0, 0, 0], [56, 0, 0, 0],
  [57, 0, 0, 0], [37, 51, 65, 0], [37, 51, 66, 0], [60, 0, 0, 0], [37, 51, 68, 0], [62, 0, 0, 0], [37, 51, 70, 0],
  [37, 52, 48, 0], [65, 0, 0, 0], [66, 0, 0, 0], [67, 0, 0, 0], [68, 0, 0, 0], [69, 0, 0, 0], [70, 0, 0, 0], [71, 0, 0, 0],
  [72, 0, 0, 0], [73, 0, 0, 0], [74, 0, 0, 0], [75, 0, 0, 0], [76, 0, 0, 0], [77, 0, 0, 0], [78, 0, 0, 0], [79, 0, 0, 0],
  [80, 0, 0, 0], [81, 0, 0, 0], [82, 0, 0, 0], [83, 0, 0, 0], [84, 0, 0, 0], [85, 0, 0, 0], [86, 0, 0, 0], [87, 0, 0, 0],
  [88, 0, 0, 0], [89, 0, 0, 0], [90, 0, 0, 0], [37, 53, 66, 0], [92, 0, 0, 0], [37, 53, 68, 0], [94, 0, 0, 0],
  [95, 0, 0, 0], [96, 0, 0, 0], [97, 0, 0, 0], [98, 0, 0, 0], [99, 0, 0, 0], [100, 0, 0, 0], [101, 0, 0, 0],
  [102, 0, 0, 0], [103, 0, 0, 0], [104, 0, 0, 0], [105, 0, 0, 0], [106, 0, 0, 0], [107, 0, 0, 0], [108, 0, 0, 0],
  [109, 0, 0, 0], [110, 0, 0, 0], [111, 0, 0, 0], [112, 0, 0, 0], [113, 0, 0, 0], [114, 0, 0, 0], [115, 0, 0, 0],
  [116, 0, 0, 0], [117, 0, 0, 0], [118, 0, 0, 0], [119, 0, 0, 0], [120, 0, 0, 0], [121, 0, 0, 0], [122, 0, 0, 0],
  [123, 0, 0, 0], [124, 0, 0, 0], [125, 0, 0, 0], [126, 0, 0, 0], [37, 55, 70, 0], [37, 56, 48, 0], [37, 56, 49, 0],
  [37, 56, 50, 0], [37, 56, 51, 0], [37, 56, 52, 0], [37, 56, 53, 0], [37, 56, 54, 0], [37, 56, 55, 0], [37, 56, 56, 0],
  [37, 56, 57, 0], [37, 56, 65, 0], [37, 56, 66, 0], [37, 56, 67, 0], [37, 56, 68, 0], [37, 56, 69, 0], [37, 56, 70, 0],
  [37, 57, 48, 0], [37, 57, 49, 0], [37, 57, 50, 0], [37, 57, 51, 0], [37, 57, 52, 0], [37, 57, 53, 0], [37, 57, 54, 0],
  [37, 57, 55, 0], [37, 57, 56, 0], [37, 57, 57, 0], [37, 57, 65, 0], [37, 57, 66, 0], [37, 57, 67, 0], [37, 57, 68, 0],
  [37, 57, 69, 0], [37, 57, 70, 0], [37, 65, 48, 0], [37, 65, 49, 0], [37, 65, 50, 0], [37, 65, 51, 0], [37, 65, 52, 0],
  [37, 65, 53, 0], [37, 65, 54, 0], [37, 65, 55, 0], [37, 65, 56, 0], [37, 65, 57, 0], [37, 65, 65, 0], [37, 65, 66, 0],
  [37, 65, 67, 0], [37, 65, 68, 0], [37, 65, 69, 0], [37, 65, 70, 0], [37, 66, 48, 0], [37, 66, 49, 0], [37, 66, 50, 0],
  [37, 66, 51, 0], [37, 66, 52, 0], [37, 66, 53, 0], [37, 66, 54, 0], [37, 66, 55, 0], [37, 66, 56, 0], [37, 66, 57, 0],
  [37, 66, 65, 0], [37, 66, 66, 0], [37, 66, 67, 0], [37, 66, 68, 0], [37, 66, 69, 0], [37, 66, 70, 0], [37, 67, 48, 0],
  [37, 67, 49, 0], [37, 67, 50, 0], [37, 67, 51, 0], [37, 67, 52, 0], [37, 67, 53, 0], [37, 67, 54, 0], [37, 67, 55, 0],
  [37, 67, 56, 0], [37, 67, 57, 0], [37, 67, 65, 0], [37, 67, 66, 0], [37, 67, 67, 0], [37, 67, 68, 0], [37, 67, 69, 0],
  [37, 67, 70, 0], [37, 68, 48, 0], [37, 68, 49, 0], [37, 68, 50, 0], [37, 68, 51, 0], [37, 68, 52, 0], [37, 68, 53, 0],
  [37, 68, 54, 0], [37, 68, 55, 0], [37, 68, 56, 0], [37, 68, 57, 0], [37, 68, 65, 0], [37, 68, 66, 0], [37, 68, 67, 0],
  [37, 68, 68, 0], [37, 68, 69, 0], [37, 68, 70, 0], [37, 69, 48, 0], [37, 69, 49, 0], [37, 69, 50, 0], [37, 69, 51, 0],
  [37, 69, 52, 0], [37, 69, 53, 0], [37, 69, 54, 0], [37, 69, 55, 0], [37, 69, 56, 0], [37, 69, 57, 0], [37, 69, 65, 0],
  [37, 69, 66, 0], [37, 69, 67, 0], [37, 69, 68, 0], [37, 69, 69, 0], [37, 69, 70, 0], [37, 70, 48, 0], [37, 70, 49, 0],
  [37, 70, 50, 0], [37, 70, 51, 0], [37, 70, 52, 0], [37, 70, 53, 0], [37, 70, 54, 0], [37, 70, 55, 0], [37, 70, 56, 0],
  [37, 70, 57, 0], [37, 70, 65, 0], [37, 70, 66, 0], [37, 70, 67, 0], [37, 70, 68, 0], [37, 70, 69, 0], [37, 70, 70, 0]]

/-- Upper-case hexadecimal digit, as printed by `%02X`. -/
def hexDigit (n : Nat) : UInt8 := UInt8.ofNat (if n < 10 then 48 + n else 55 + n)

/-- charstr.c:614-617: `snprintf(table[i], 4, "%%%02X", i)` for each character of `reserve`. -/
def reserveLoop (enc : Encoder) : List UInt8 → C Encoder
  | [] => .error .ub
  | c :: cs =>
    if c = 0 then .ok enc
    else reserveLoop (enc.set c.toNat [37, hexDigit (c.toNat / 16), hexDigit (c.toNat % 16), 0]) cs

/-- charstr.c:618-621: `snprintf(table[i], 4, "%c", i)` for each character of `unreserve`; the last two bytes of the entry stay. -/
def unreserveLoop (enc : Encoder) : List UInt8 → C Encoder
  | [] => .error .ub
  | c :: cs =>
    if c = 0 then .ok enc
    else unreserveLoop (enc.set c.toNat ([c, 0] ++ (enc.getD c.toNat []).drop 2)) cs

/-- charstr.c:607-623 `charstr_create_url_encoder`. -/
def createUrlEncoder (reserve unreserve : List UInt8) : C Encoder :=
  match reserveLoop urlEncoder reserve with
  | .error e => .error e
  | .ok enc => unreserveLoop enc unreserve

/-- charstr.c:630-634 `charstr_url_custom_encode_byte`: the entry, as the string it points to. -/
def customEncodeByte (enc : Encoder) (byte : UInt8) : List UInt8 := enc.getD byte.toNat []

/-- charstr.c:636-639 `charstr_url_encode_byte`. -/
def encodeByte (byte : UInt8) : List UInt8 := customEncodeByte urlEncoder byte

/-- charstr.c:641-649 `url_encoding_width`. -/
def encodingWidth (enc : Encoder) (byte : UInt8) : C Nat :=
  match peek (customEncodeByte enc byte) with
  | .error e => .error e
  | .ok c => if c = 37 then .ok 3 else .ok 1

/-- charstr.c:654-657: sum of the widths. -/
def encodedLength (enc : Encoder) : List UInt8 → Nat → C Nat
  | [], _ => .error .ub
  | c :: cs, length =>
    if c = 0 then .ok length
    else match encodingWidth enc c with
      | .error e => .error e
      | .ok w => encodedLength enc cs (length + w)

/-- charstr.c:664-667: copy one entry up to its NUL to offset `ep` of the buffer. -/
def copyEntry : List UInt8 → List UInt8 → Nat → C (List UInt8 × Nat)
  | [], _, _ => .error .ub
  | c :: cs, buf, ep =>
    if c = 0 then .ok (buf, ep)
    else match wr buf ep c with
      | .error e => .error e
      | .ok buf => copyEntry cs buf (ep + 1)

/-- charstr.c:663-668. -/
def encodeLoop (enc : Encoder) : List UInt8 → List UInt8 → Nat → C (List UInt8)
  | [], _, _ => .error .ub
  | c :: cs, buf, ep =>
    if c = 0 then wr buf ep 0
    else match copyEntry (customEncodeByte enc c) buf ep with
      | .error e => .error e
      | .ok (buf, ep) => encodeLoop enc cs buf ep

/-- charstr.c:651-670 `charstr_url_custom_encode`; the block returned. -/
def customEncode (junk : Junk) (enc : Encoder) (s : List UInt8) : C (List UInt8) :=
  match encodedLength enc s 0 with
  | .error e => .error e
  | .ok length => encodeLoop enc s (malloc junk (length + 1)) 0

/-- charstr.c:672-675 `charstr_url_encode`. -/
def urlEncode (junk : Junk) (s : List UInt8) : C (List UInt8) := customEncode junk urlEncoder s

/-- charstr.c:681-687: the first pass; `none` is the EILSEQ return. -/
def checkLoop : List UInt8 → Nat → C (Option Nat)
  | [], _ => .error .ub
  | c :: cs, length =>
    if c = 0 then .ok (some length)
    else if c = 37 then match cs with
      | [] => .error .ub
      | a :: cs => if !hasClass a HEX then .ok none else match cs with
        | [] => .error .ub
        | b :: cs => if !hasClass b HEX then .ok none else checkLoop cs (length + 1)
    else checkLoop cs (length + 1)

/-- charstr.c:693-711: the second pass. `*dp` is a `char`: the sum is taken modulo 256. -/
def decodeLoop (plusIsSpace : Bool) : List UInt8 → List UInt8 → Nat → C (List UInt8)
  | [], _, _ => .error .ub
  | c :: cs, buf, dp =>
    if c = 0 then wr buf dp 0
    else if c = 43 then match wr buf dp (if plusIsSpace then 32 else 43) with
      | .error e => .error e
      | .ok buf => decodeLoop plusIsSpace cs buf (dp + 1)
    else if c = 37 then match cs with
      | [] => .error .ub
      | a :: cs => match wr buf dp (UInt8.ofNat (digitValue a * 16)) with
        | .error e => .error e
        | .ok buf => match cs with
          | [] => .error .ub
          | b :: cs => match rd buf dp with
            | .error e => .error e
            | .ok v => match wr buf dp (UInt8.ofNat (v.toNat + digitValue b)) with
              | .error e => .error e
              | .ok buf => decodeLoop plusIsSpace cs buf (dp + 1)
    else match wr buf dp c with
      | .error e => .error e
      | .ok buf => decodeLoop plusIsSpace cs buf (dp + 1)

/-- charstr.c:677-712 `charstr_url_decode`: the block and the value stored in `*size`. -/
def urlDecode (junk : Junk) (encoding : List UInt8) (plusIsSpace : Bool) : C (Option (List UInt8 × Nat)) :=
  match checkLoop encoding 0 with
  | .error e => .error e
  | .ok none => .ok none
  | .ok (some length) => match decodeLoop plusIsSpace encoding (malloc junk (length + 1)) 0 with
    | .error e => .error e
    | .ok d => .ok (some (d, length))

end Verif.Url
