import Verif.Model.Unicode
import Verif.Model.Charstr

/-!
Model of `/repo/src/charstr_puny.c` up to `charstr_idna_encode`.

The generated IDNA functions and `charstr_unicode_category` are parameters (`Idna`), as are the tables of the normalization (`Ucd`) and the
contents of memory that is not initialized (`fresh`). `int` variables are `Int` with a check of every result; arithmetic in `size_t` is
modulo 2^64. Releasing memory is not modelled.
-/

namespace Verif.Puny
open Verif.Utf8 Verif.Unicode Verif.Charstr

/-- The generated functions: `charstr_idna_status_is_valid`, `_deviation`, `_ignored`, `_mapped`, `charstr_idna_mapping` (the bytes before
the NUL; `none` is NULL) and whether `charstr_unicode_category` is `UNICODE_CATEGORY_Mc`. -/
structure Idna where
  valid : Nat → Bool
  deviation : Nat → Bool
  ignored : Nat → Bool
  mapped : Nat → Bool
  mapping : Nat → Option (List UInt8)
  mc : Nat → Bool

/-- The result of an operation of type `int`: overflow is undefined. -/
def int (x : Int) : C Int := if -2 ^ 31 ≤ x ∧ x < 2 ^ 31 then .ok x else .error .ub

/-- Conversion of an `int` to `size_t`. -/
def toSize (x : Int) : Nat := (x % 2 ^ 64).toNat

/-- Conversion of a `size_t` to `int`: defined by the implementation if it does not fit, here as GCC does. -/
def toInt (n : Nat) : Int := if n % 2 ^ 32 < 2 ^ 31 then (n % 2 ^ 32 : Nat) else (n % 2 ^ 32 : Nat) - 2 ^ 32

/-- charstr_puny.c:26-27: the loop of `adapt`; `delta` and `k` at its end. `delta` is positive where it is divided. -/
def adaptLoop (delta k : Int) : C (Int × Int) :=
  if _h : delta > 455 then
    match int (k + 36) with
    | .error e => .error e
    | .ok k => adaptLoop (delta / 35) k
  else .ok (delta, k)
termination_by delta.toNat
decreasing_by omega

/-- charstr_puny.c:19-29 `adapt` -/
def adapt (delta : Int) (numpoints : Nat) (firsttime : Bool) : C Int := do
  let delta := if firsttime then delta.tdiv 700 else delta.tdiv 2
  if numpoints = 0 then throw .ub
  let delta := toInt ((toSize delta + toSize delta / numpoints) % 2 ^ 64)
  let (delta, k) ← adaptLoop delta 0
  let m ← int (36 * delta)
  let d ← int (delta + 38)
  if d = 0 then throw .ub
  int (k + m.tdiv d)

/-- charstr_puny.c:36-38: the index at which to insert, `none` for the `return`. -/
def place (codepoint : Nat) : List Nat → Nat → Option Nat
  | [], i => some i
  | a :: as, i => if a ≤ codepoint then if a = codepoint then none else place codepoint as (i + 1) else some i

/-- charstr_puny.c:31-42 `record_nonascii`: the first `*nonascii_count` elements of an array with `cap` elements. -/
def recordNonascii (codepoint : Nat) (nonascii : List Nat) (cap : Nat) : C (List Nat) :=
  match place codepoint nonascii 0 with
  | none => .ok nonascii
  | some i => if nonascii.length < cap then .ok (nonascii.take i ++ codepoint :: nonascii.drop i) else .error .ub

/-- charstr.h:53-54 `CHARSTR_ALNUM` -/
def ALNUM : Nat := LOWER ||| UPPER ||| DIGIT

/-- charstr_puny.c:66-81: the loop of `punycode_encode_pass1`. The arrays `ascii` and `nonascii` have `cap` elements; `none` is NULL. The
number of code points (`pc_count`) is not used by the caller and left out. -/
def pass1Loop (id : Idna) (cap : Nat) (p : Pos) (first : Bool) (ascii : List UInt8) (nonascii : List Nat) :
    C (Option (Pos × List UInt8 × List Nat)) :=
  if p.2 = some 0 then .ok (some (p, ascii, nonascii))
  else match p.1 with
    | [] => .error .ub
    | c :: _ =>
      if c = 0x2E then .ok (some (p, ascii, nonascii))
      else match h : decode p with
        | .error e => .error e
        | .ok none => .ok none
        | .ok (some (codepoint, q)) =>
          if codepoint < 128 then
            if codepoint ≠ 0x2D ∧ hasClass (UInt8.ofNat codepoint) ALNUM = false then .ok none
            else if ascii.length < cap then pass1Loop id cap q false (ascii ++ [lcaseChar (UInt8.ofNat codepoint)]) nonascii
            else .error .ub
          else if first && id.mc codepoint then .ok none
          else match recordNonascii codepoint nonascii cap with
            | .error e => .error e
            | .ok nonascii => pass1Loop id cap q false ascii nonascii
termination_by p.1.length
decreasing_by all_goals exact decode_len h

/-- charstr_puny.c:51-85 `punycode_encode_pass1` -/
def pass1 (id : Idna) (cap : Nat) (p : Pos) : C (Option (Pos × List UInt8 × List Nat)) := do
  match p.2 with
  | none => throw .ub
  | some n =>
    if n = 0 then return none
    if (← rd p.1 0) = 0x2D then return none
    if (← rd p.1 (n - 1)) = 0x2D then return none
    pass1Loop id cap p true [] []

/-- charstr_puny.c:87 -/
def base36 : List UInt8 := "abcdefghijklmnopqrstuvwxyz0123456789".toList.map fun c => UInt8.ofNat c.toNat

/-- `BASE36_DIGIT[i]` -/
def digit (i : Int) : C UInt8 := if i < 0 then .error .ub else rd (base36 ++ [0]) i.toNat

/-- The output: the pointer `o` as an offset (`none` is NULL), the object it points to and `*output_size`. -/
structure Out where
  o : Option Nat
  buf : List UInt8
  size : Nat

/-- charstr_puny.c:89-96 `emit` -/
def emit (e : Nat) (s : Out) (c : UInt8) : C Out :=
  match s.o with
  | none => .ok { s with size := s.size + 1 }
  | some i => if i ≥ e then .ok { s with o := none, size := s.size + 1 } else
    match wr s.buf i c with
    | .error e => .error e
    | .ok buf => .ok { o := some (i + 1), buf := buf, size := s.size + 1 }

/-- Emit several characters. -/
def emits (e : Nat) : Out → List UInt8 → C Out
  | s, [] => .ok s
  | s, c :: cs => match emit e s c with
    | .error e => .error e
    | .ok s => emits e s cs

/-- charstr_puny.c:122-127: `t` -/
def threshold (bias k : Int) : C Int :=
  if k ≤ bias then .ok 1
  else match int (bias + 26) with
    | .error e => .error e
    | .ok b => if k ≥ b then .ok 26 else int (k - bias)

theorem threshold_bounds {bias k t : Int} (h : threshold bias k = .ok t) : 1 ≤ t ∧ t ≤ 26 := by
  simp only [threshold, int] at h
  split at h
  · cases h; omega
  · split at h
    · cases h
    · rename_i b hb
      split at hb
      · cases hb
        split at h
        · cases h; omega
        · split at h
          · cases h; omega
          · cases h
      · cases hb

/-- charstr_puny.c:120-134: the loop emitting the digits of `q`, and the last digit. The operands of the divisions are not negative. -/
def digitLoop (e : Nat) (bias q k : Int) (s : Out) : C Out :=
  match h : threshold bias k with
  | .error e => .error e
  | .ok t =>
    if _hq : q < t then do
      let d ← digit q
      emit e s d
    else match digit (t + (q - t) % (36 - t)) with
      | .error e => .error e
      | .ok d => match emit e s d with
        | .error e => .error e
        | .ok s => match int (k + 36) with
          | .error e => .error e
          | .ok k => digitLoop e bias ((q - t) / (36 - t)) k s
termination_by q.toNat
decreasing_by
  have := threshold_bounds h
  have h1 : (q - t) / (36 - t) ≤ q - t := Int.ediv_le_self _ (by omega)
  have h2 : 0 ≤ (q - t) / (36 - t) := Int.ediv_nonneg (by omega) (by omega)
  omega

/-- The variables of `punycode_encode_pass2`. -/
structure St where
  out : Out
  delta : Int
  bias : Int
  handled : Nat

/-- charstr_puny.c:111-138: the loop over the label. If decoding fails, `p` is NULL and is dereferenced. -/
def scanLoop (e basic n : Nat) (p : Pos) (s : St) : C St :=
  if p.2 = some 0 then .ok s
  else match p.1 with
    | [] => .error .ub
    | c :: _ =>
      if c = 0x2E then .ok s
      else match h : decode p with
        | .error e => .error e
        | .ok none => .error .ub
        | .ok (some (codepoint, q)) =>
          if codepoint ≠ n then
            if codepoint < n then
              match int (s.delta + 1) with
              | .error e => .error e
              | .ok delta => scanLoop e basic n q { s with delta := delta }
            else scanLoop e basic n q s
          else match digitLoop e s.bias s.delta 36 s.out with
            | .error e => .error e
            | .ok out => match adapt s.delta (s.handled + 1) (s.handled == basic) with
              | .error e => .error e
              | .ok bias => scanLoop e basic n q { out := out, delta := 0, bias := bias, handled := s.handled + 1 }
termination_by p.1.length
decreasing_by all_goals exact decode_len h

/-- charstr_puny.c:108-141: the loop over the code points. -/
def pass2Loop (e basic : Nat) (input : Pos) : List Nat → Int → St → C St
  | [], _, s => .ok s
  | m :: ms, n, s => do
    let d ← int (m - n)
    let delta := toInt ((toSize s.delta + toSize d * (s.handled + 1) % 2 ^ 64) % 2 ^ 64)
    let s ← scanLoop e basic m input { s with delta := delta }
    let delta ← int (s.delta + 1)
    let n ← int (m + 1)
    pass2Loop e basic input ms n { s with delta := delta }

/-- charstr_puny.c:98-143 `punycode_encode_pass2` -/
def pass2 (input : Pos) (e : Nat) (out : Out) (asciiCount : Nat) (nonascii : List Nat) : C Out := do
  let s ← pass2Loop e asciiCount input nonascii 128 { out := out, delta := 0, bias := 72, handled := asciiCount }
  pure s.out

/-- charstr_puny.c:146-179 `punycode_encode`: the position after the label (`none` is NULL), the buffer and `*output_size`. `output` is at
offset `q`. An array of length zero (lines 149, 151) is undefined. -/
def punycodeEncode (id : Idna) (input : Pos) (buf : List UInt8) (q outputSize : Nat) : C (Option Pos × List UInt8 × Nat) := do
  match input.2 with
  | none => throw .ub
  | some n =>
    if n = 0 then throw .ub
    match ← pass1 id n input with
    | none => return (none, buf, outputSize)
    | some (next, ascii, nonascii) =>
      let out : Out := { o := some q, buf := buf, size := 0 }
      let out ← if nonascii.length ≠ 0 then emits (q + outputSize) out [0x78, 0x6E, 0x2D, 0x2D] else pure out
      let out ← emits (q + outputSize) out ascii
      if nonascii.length = 0 then return (some next, out.buf, out.size)
      let out ← if ascii.length ≠ 0 then emit (q + outputSize) out 0x2D else pure out
      let out ← pass2 input (q + outputSize) out ascii.length nonascii
      if out.size > 63 then return (none, out.buf, out.size)
      return (some next, out.buf, out.size)

/-- charstr_puny.c:181-187 `is_all_ascii` -/
def isAllAscii : List UInt8 → C Bool
  | [] => .error .ub
  | c :: s => if c = 0 then .ok true else if c &&& 0x80 ≠ 0 then .ok false else isAllAscii s

/-- charstr_puny.c:197-211: the loop of `encode_filtered` and what follows. `q` is an offset into `encoding`. -/
def filteredLoop (id : Idna) (p : Pos) (encoding : List UInt8) (q outputSize : Nat) : D (Option (List UInt8)) := do
  let (r, encoding, labelSize) ← liftC (punycodeEncode id p encoding q (encoding.length - q))
  match r with
  | none => pure none
  | some p =>
    if labelSize > 63 then throw .abort
    if outputSize + labelSize + 1 > 253 then return none
    let encoding ← liftC (wr encoding (q + labelSize) 0x2E)
    match p.2 with
    | none => throw .ub
    | some n =>
      if n > 1 then filteredLoop id (p.1.drop 1, some (n - 1)) encoding (q + labelSize + 1) (outputSize + labelSize + 1)
      else
        let encoding ← liftC (wr encoding (q + labelSize + n) 0)
        let d ← liftC (dup encoding)
        pure (some d)
partial_fixpoint

/-- charstr_puny.c:189-212 `encode_filtered` -/
def encodeFiltered (id : Idna) (fresh : Nat → List UInt8) (p : Pos) : D (Option (List UInt8)) :=
  match p.2 with
  | none => throw .ub
  | some n => if n > 254 then pure none else filteredLoop id p (fresh 255) 0 0

/-- charstr_puny.c:214-222 `safecopy` -/
def safecopy (src : List UInt8) (buf : List UInt8) (q e : Nat) : C (Option Nat × List UInt8) :=
  if src.length > e - q then .ok (none, buf)
  else if q + src.length ≤ buf.length then .ok (some (q + src.length), splice buf q src) else .error .ub

/-- charstr_puny.c:230-247: the loop of `encode_nfc`; `none` is NULL, otherwise the offset `q` and the work area. -/
def nfcLoop (id : Idna) (p : Pos) (buf : List UInt8) (q : Nat) : C (Option (Nat × List UInt8)) :=
  if p.2 = some 0 then .ok (some (q, buf))
  else match h : decode p with
    | .error e => .error e
    | .ok none => .ok none
    | .ok (some (codepoint, p')) =>
      if id.valid codepoint || id.deviation codepoint then
        match encode codepoint buf q (some 254) with
        | .error e => .error e
        | .ok (none, _) => .ok none
        | .ok (some q, buf) => nfcLoop id p' buf q
      else if id.ignored codepoint then nfcLoop id p' buf q
      else if id.mapped codepoint then
        match id.mapping codepoint with
        | none => .error .ub
        | some src => match safecopy src buf q 254 with
          | .error e => .error e
          | .ok (none, _) => .ok none
          | .ok (some q, buf) => nfcLoop id p' buf q
      else .ok none
termination_by p.1.length
decreasing_by all_goals exact decode_len h

/-- charstr_puny.c:224-251 `encode_nfc` -/
def encodeNfc (id : Idna) (fresh : Nat → List UInt8) (p : Pos) : D (Option (List UInt8)) := do
  match ← liftC (nfcLoop id p (fresh 255) 0) with
  | none => pure none
  | some (q, work) => encodeFiltered id fresh (work, some q)

/-- charstr_puny.c:253-266 `encode_nfd` -/
def encodeNfd (u : Ucd) (id : Idna) (fresh : Nat → List UInt8) (p : Pos) : D (Option (List UInt8)) := do
  match p.2 with
  | none => throw .ub
  | some n =>
    match ← recompose u p (fresh (n + 1)) (some (n + 1)) with
    | (.null _, _) => pure none
    | (.ptr q, work) => encodeNfc id fresh (work, some q)

/-- charstr_puny.c:268-289 `charstr_idna_encode` -/
def idnaEncode (u : Ucd) (id : Idna) (fresh : Nat → List UInt8) (hostname : List UInt8) : D (Option (List UInt8)) := do
  if ← liftC (isAllAscii hostname) then
    let d ← liftC (dup hostname)
    let d ← liftC (lcaseStr d)
    return some d
  let length ← liftC (strlen hostname)
  if ← liftC (canonicallyComposed u (hostname, some length)) then return ← encodeNfc id fresh (hostname, some length)
  if ← liftC (canonicallyDecomposed u (hostname, some length)) then return ← encodeNfd u id fresh (hostname, some length)
  match ← decompose u (hostname, some length) (fresh (3 * length + 1)) (some (3 * length)) with
  | (.null _, _) => return none
  | (.ptr q, work) => return ← encodeNfd u id fresh (work, some q)

end Verif.Puny
