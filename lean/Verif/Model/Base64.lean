import Verif.Base.Outcome

/-!
Model of `/repo/src/base64.c`.

A `char` is its bit pattern, a `UInt8`; `(char) -1` is `0xFF`. `source` of the encoder and `dest` are byte lists whose
length is the size of the object. `source` of the decoder is the list of bytes from the pointer to the end of its object.
Indices `i`, `pi` are `Nat`: they are bounded by 4/3 of the size of an object in memory, which is below 2^63, so the C
`size_t` cannot wrap.
-/

namespace Verif.Base64

/-- base64.c:8-14 `base64_encoding_size`; `size_t` arithmetic modulo 2^64, `-1` is `2^64 - 1`. -/
def encodingSize (binary_size : UInt64) : UInt64 :=
  let encoding_size := (binary_size + 2) / 3 * 4
  if encoding_size < binary_size then -1 else encoding_size

/-- base64.c:16-17 `base64_bitfield_encoding`. -/
def bitfieldEncoding : List UInt8 :=
  "ABCDEFGHIJKLMNOPQRSTUVWXYZabcdefghijklmnopqrstuvwxyz0123456789+/".toUTF8.toList

/-- base64.c:19-36 `base64_bitfield_decoding`. Line 27 ends in `-1` without a comma, so the last entry of that line and the
first of line 28 are the single entry `-1 -1 = -2`, and the last of the 256 entries is the implicit `0`. -/
def bitfieldDecoding : List Int :=
  [-4, -1, -1, -1, -1, -1, -1, -1, -1, -2, -2, -1, -2, -2, -1, -1,
   -1, -1, -1, -1, -1, -1, -1, -1, -1, -1, -1, -1, -1, -1, -1, -1,
   -2, -1, -1, -1, -1, -1, -1, -1, -1, -1, -1, 62, -1, -1, -1, 63,
   52, 53, 54, 55, 56, 57, 58, 59, 60, 61, -1, -1, -1, -3, -1, -1,
   -1,  0,  1,  2,  3,  4,  5,  6,  7,  8,  9, 10, 11, 12, 13, 14,
   15, 16, 17, 18, 19, 20, 21, 22, 23, 24, 25, -1, -1, -1, -1, -1,
   -1, 26, 27, 28, 29, 30, 31, 32, 33, 34, 35, 36, 37, 38, 39, 40,
   41, 42, 43, 44, 45, 46, 47, 48, 49, 50, 51, -1, -1, -1, -1, -1
   -1, -1, -1, -1, -1, -1, -1, -1, -1, -1, -1, -1, -1, -1, -1, -1,
   -1, -1, -1, -1, -1, -1, -1, -1, -1, -1, -1, -1, -1, -1, -1, -1,
   -1, -1, -1, -1, -1, -1, -1, -1, -1, -1, -1, -1, -1, -1, -1, -1,
   -1, -1, -1, -1, -1, -1, -1, -1, -1, -1, -1, -1, -1, -1, -1, -1,
   -1, -1, -1, -1, -1, -1, -1, -1, -1, -1, -1, -1, -1, -1, -1, -1,
   -1, -1, -1, -1, -1, -1, -1, -1, -1, -1, -1, -1, -1, -1, -1, -1,
   -1, -1, -1, -1, -1, -1, -1, -1, -1, -1, -1, -1, -1, -1, -1, -1,
   -1, -1, -1, -1, -1, -1, -1, -1, -1, -1, -1, -1, -1, -1, -1, -1,
   0]

/-- `base64_bitfield_decoding[c & 0xff]`. -/
def decodingOf (c : UInt8) : Int := bitfieldDecoding.getD c.toNat 0

/-- base64.c:38-49 `base64_char`. -/
def base64Char (bitfield pos62 pos63 : UInt8) : UInt8 :=
  let b := bitfield &&& 0x3f
  if b = 62 then pos62 else if b = 63 then pos63 else bitfieldEncoding.getD b.toNat 0

/-- One statement `if (i++ < size) p[i-1] = c;` of `put4` (base64.c:54-61). -/
def putIf (p : List UInt8) (i : Nat) (c : UInt8) : C (List UInt8) :=
  if i < p.length then wr p i c else .ok p

/-- base64.c:51-63 `put4`; `p` has `size = p.length` bytes. -/
def put4 (p : List UInt8) (i : Nat) (c0 c1 c2 c3 : UInt8) : C (List UInt8 × Nat) := do
  let p ← putIf p i c0
  let p ← putIf p (i + 1) c1
  let p ← putIf p (i + 2) c2
  let p ← putIf p (i + 3) c3
  return (p, i + 4)

/-- `q[0] << 16 | q[1] << 8 | q[2]` (base64.c:77, 85). -/
def bits24 (a b c : UInt8) : UInt32 := a.toUInt32 <<< 16 ||| b.toUInt32 <<< 8 ||| c.toUInt32

/-- base64.c:76-83: the loop over whole groups. `q` is the offset into `src`. -/
def encBody (src : List UInt8) (tail : Nat) (p62 p63 : UInt8) :
    (counter : Nat) → (q i : Nat) → (dest : List UInt8) → C (Nat × Nat × List UInt8)
  | 0, q, i, dest => pure (q, i, dest)
  | counter + 1, q, i, dest =>
    if q < tail then do
      let bits := bits24 (← rd src q) (← rd src (q + 1)) (← rd src (q + 2))
      let dest ← wr dest i (base64Char (bits >>> 18).toUInt8 p62 p63)
      let dest ← wr dest (i + 1) (base64Char (bits >>> 12).toUInt8 p62 p63)
      let dest ← wr dest (i + 2) (base64Char (bits >>> 6).toUInt8 p62 p63)
      let dest ← wr dest (i + 3) (base64Char bits.toUInt8 p62 p63)
      encBody src tail p62 p63 counter (q + 3) (i + 4) dest
    else pure (q, i, dest)

/-- base64.c:84-92: the group that may be cut off by the end of the destination. -/
def encCut (src : List UInt8) (tail : Nat) (p62 p63 : UInt8) (q i : Nat) (dest : List UInt8) :
    C (Nat × Nat × List UInt8) :=
  if q < tail then do
    let bits := bits24 (← rd src q) (← rd src (q + 1)) (← rd src (q + 2))
    let (dest, i) ← put4 dest i (base64Char (bits >>> 18).toUInt8 p62 p63)
      (base64Char (bits >>> 12).toUInt8 p62 p63) (base64Char (bits >>> 6).toUInt8 p62 p63)
      (base64Char bits.toUInt8 p62 p63)
    return (q + 3, i, dest)
  else return (q, i, dest)

/-- base64.c:95-113: the last, incomplete group. -/
def encTail (src : List UInt8) (p62 p63 : UInt8) (q i : Nat) (dest : List UInt8) : C (List UInt8 × Nat) :=
  match src.length % 3 with
  | 0 => return (dest, i)
  | 1 => do
    let bits := bits24 (← rd src q) 0 0
    put4 dest i (base64Char (bits >>> 18).toUInt8 p62 p63) (base64Char (bits >>> 12).toUInt8 p62 p63) 61 61
  | _ => do
    let bits := bits24 (← rd src q) (← rd src (q + 1)) 0
    put4 dest i (base64Char (bits >>> 18).toUInt8 p62 p63) (base64Char (bits >>> 12).toUInt8 p62 p63)
      (base64Char (bits >>> 6).toUInt8 p62 p63) 61

/-- base64.c:114-117: the NUL terminator. -/
def encNul (i : Nat) (dest : List UInt8) : C (List UInt8) :=
  if i < dest.length then wr dest i 0
  else if dest.length ≠ 0 then wr dest (dest.length - 1) 0
  else .ok dest

/-- `if (pos62 == -1) pos62 = '+';` and the like (base64.c:71-74, 200-203). -/
def dflt (p d : UInt8) : UInt8 := if p = 0xFF then d else p

/-- base64.c:65-121 `base64_encode_buffer`. Result: return value and the destination afterwards. -/
def encodeBuffer (src dest : List UInt8) (pos62 pos63 : UInt8) : C (Nat × List UInt8) := do
  let tail := src.length - src.length % 3
  let (q, i, dest) ← encBody src tail (dflt pos62 43) (dflt pos63 47) (dest.length / 4) 0 0 dest
  let (q, i, dest) ← encCut src tail (dflt pos62 43) (dflt pos63 47) q i dest
  let (dest, i) ← encTail src (dflt pos62 43) (dflt pos63 47) tail (i + (tail - q) / 3 * 4) dest
  return (i, ← encNul i dest)

/-- base64.c:123-132 `base64_encode_simple`; `fresh n` are the initial bytes of the new block. `none` is NULL. -/
def encodeSimple (fresh : Nat → List UInt8) (buffer : List UInt8) : C (Option (List UInt8)) := do
  let encoding_size := encodingSize (UInt64.ofNat buffer.length)
  if encoding_size = -1 then return none
  let (_, result) ← encodeBuffer buffer (fresh (encoding_size + 1).toNat) 0xFF 0xFF
  return some result

/-- base64.c:134-144 `good_termination`. `rem` runs to the end of the object, `size` is `remainder_size`. -/
def goodTermination (rem : List UInt8) (size : Nat) (ignoreWsp : Bool) : C Bool :=
  if !ignoreWsp then
    if size = 0 then pure true
    else match rem with
      | [] => .error .ub
      | c :: _ => pure (c = 0)
  else loop rem size
where
  /-- base64.c:139-143, the `for` loop. -/
  loop : List UInt8 → Nat → C Bool
    | _, 0 => pure true
    | [], _ + 1 => .error .ub
    | c :: r, size + 1 =>
      if c = 0 then pure true
      else if decodingOf c ≠ -2 then pure false
      else loop r size

/-- `!strncmp(tail, padding, strlen(padding))` for a `padding` without NUL. -/
def hasPrefix : (tail padding : List UInt8) → C Bool
  | _, [] => pure true
  | [], _ :: _ => .error .ub
  | c :: r, p :: ps => if c = p then hasPrefix r ps else pure false

/-- base64.c:146-170 `good_base64_tail`. -/
def goodTail (tail : List UInt8) (size : Nat) (bitCount : Nat) (ignoreWsp : Bool) : C Bool := do
  if bitCount = 6 then return false
  let padding ← match bitCount with
    | 0 => pure []
    | 4 => pure [61, 61]
    | 2 => pure [61]
    | _ => .error .abort
  if size < padding.length then return false
  if !(← hasPrefix tail padding) then return false
  goodTermination (tail.drop padding.length) (size - padding.length) ignoreWsp

/-- base64.c:172-190 `get_bits`. -/
def getBits (c pos62 pos63 : UInt8) (ignoreWsp : Bool) : Int :=
  if c = pos62 then 62
  else if c = pos63 then 63
  else
    let new_bits := decodingOf c
    if new_bits = 62 ∨ new_bits = 63 then -1
    else if new_bits = -2 then (if !ignoreWsp then -1 else new_bits)
    else new_bits

/-- Return value of the decoder: a count, or -1 with `errno`. -/
inductive DecRes where
  | count (n : Nat)
  | eilseq
  | eoverflow
  deriving DecidableEq, Repr

/-- The locals of `base64_decode_buffer`: `&source[si]`, `source_size - si`, `dest`, `pi`, `bits`, `bit_count`. -/
structure DecSt where
  src : List UInt8
  left : Nat
  dest : List UInt8
  pi : Nat
  bits : UInt32
  bitCount : Nat

/-- base64.c:206-221: the first loop, which stores bytes. An inner `.error dest` is the `return -1` inside it. -/
def decLoop1 (p62 p63 : UInt8) (ign : Bool) :
    (src : List UInt8) → (left : Nat) → (dest : List UInt8) → (pi : Nat) → (bits : UInt32) → (bitCount : Nat) →
      C (Except (List UInt8) DecSt)
  | src, left, dest, pi, bits, bc =>
    if pi < dest.length ∧ 0 < left then
      match src with
      | [] => .error .ub
      | c :: r =>
        if c ≠ 0 ∧ c ≠ 61 then
          let nb := getBits c p62 p63 ign
          if nb < 0 then
            if nb = -2 then decLoop1 p62 p63 ign r (left - 1) dest pi bits bc
            else pure (.error dest)
          else
            let bits := bits <<< 6 ||| UInt32.ofNat nb.toNat
            let bc := bc + 6
            if 8 ≤ bc then
              let bc := bc - 8
              match wr dest pi (bits >>> UInt32.ofNat bc).toUInt8 with
              | .ok dest => decLoop1 p62 p63 ign r (left - 1) dest (pi + 1) bits bc
              | .error e => .error e
            else decLoop1 p62 p63 ign r (left - 1) dest pi bits bc
        else pure (.ok ⟨c :: r, left, dest, pi, bits, bc⟩)
    else pure (.ok ⟨src, left, dest, pi, bits, bc⟩)

/-- base64.c:222-236: the second loop, which only counts. -/
def decLoop2 (p62 p63 : UInt8) (ign : Bool) :
    (src : List UInt8) → (left : Nat) → (pi : Nat) → (bits : UInt32) → (bitCount : Nat) →
      C (Option (List UInt8 × Nat × Nat × UInt32 × Nat))
  | src, left, pi, bits, bc =>
    if 0 < left then
      match src with
      | [] => .error .ub
      | c :: r =>
        if c ≠ 0 ∧ c ≠ 61 then
          let nb := getBits c p62 p63 ign
          if nb < 0 then
            if nb = -2 then decLoop2 p62 p63 ign r (left - 1) pi bits bc
            else pure none
          else
            let bits := bits <<< 6 ||| UInt32.ofNat nb.toNat
            let bc := bc + 6
            if 8 ≤ bc then decLoop2 p62 p63 ign r (left - 1) (pi + 1) bits (bc - 8)
            else decLoop2 p62 p63 ign r (left - 1) pi bits bc
        else pure (some (c :: r, left, pi, bits, bc))
    else pure (some (src, left, pi, bits, bc))

/-- base64.c:192-247 `base64_decode_buffer`. Result: return value and the destination afterwards. -/
def decodeBuffer (src : List UInt8) (sourceSize : Nat) (dest : List UInt8) (pos62 pos63 : UInt8) (ign : Bool) :
    C (DecRes × List UInt8) := do
  let pos62 := dflt pos62 43
  let pos63 := dflt pos63 47
  match ← decLoop1 pos62 pos63 ign src sourceSize dest 0 0 0 with
  | .error dest => return (.eilseq, dest)
  | .ok s =>
    match ← decLoop2 pos62 pos63 ign s.src s.left s.pi s.bits s.bitCount with
    | none => return (.eilseq, s.dest)
    | some (src, left, pi, bits, bc) =>
      -- base64.c:237: `bits & ~(~0U << bit_count)`
      if bits &&& ~~~((~~~ (0 : UInt32)) <<< UInt32.ofNat bc) ≠ 0 then return (.eilseq, s.dest)
      if !(← goodTail src left bc ign) then return (.eilseq, s.dest)
      -- base64.c:242: `(ssize_t) pi < 0`
      if 2 ^ 63 ≤ pi % 2 ^ 64 then return (.eoverflow, s.dest)
      return (.count pi, s.dest)

/-- base64.c:249-259 `base64_decode_simple`; `encoding` is the string with its NUL, `fresh n` the new block of `n` bytes.
`none` is NULL; otherwise the block and `*binary_size`. -/
def decodeSimple (fresh : Nat → List UInt8) (encoding : List UInt8) : C (Option (List UInt8 × Nat)) := do
  match ← decodeBuffer encoding (2 ^ 64 - 1) [] 0xFF 0xFF true with
  | (.count count, _) =>
    let block := fresh (count + 1)
    let (_, part) ← decodeBuffer encoding (2 ^ 64 - 1) (block.take count) 0xFF 0xFF true
    let result := part ++ block.drop count
    let result ← wr result count 0
    return some (result, count)
  | _ => return none

end Verif.Base64
