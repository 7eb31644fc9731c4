import Verif.Model.Utf8
import Verif.Base.Diverge
import Verif.Base.Splice

/-!
Model of `/repo/src/charstr_unicode.c`, `/repo/src/charstr_decompose.c` and `/repo/src/charstr_recompose.c`.

The functions generated from the Unicode data files are parameters (`Ucd`). Input strings are positions as in `Verif.Model.Utf8`; the
output is an object `buf`, pointers into it are offsets, `e` is the offset of `output_end`. The input and the output do not overlap.
-/

namespace Verif.Unicode
open Verif.Utf8

/-- The generated functions. `decomp` is `_charstr_unicode_decomposition` (decomposition.py), `none` for NULL and otherwise the array up
to its terminating zero; `ccc` is `charstr_unicode_canonical_combining_class`; `flags` is `charstr_allowed_unicode_normal_forms`;
`composite` is `_charstr_unicode_primary_composite` (recomposition.py), `none` for a negative result. -/
structure Ucd where
  decomp : Nat → Option (List Nat)
  ccc : Nat → Nat
  flags : Nat → Nat
  composite : Nat → Nat → Option Nat

/-- The values of `errno` used. -/
inductive Errno where
  | eilseq | eoverflow | eagain | enodata | enobufs
  deriving DecidableEq, Repr

/-- charstr_unicode.c:10-26: the loop of `charstr_detect_unicode_normal_form`. -/
def detectLoop (u : Ucd) (disallowed maybe : Nat) (p : Pos) (last result : Nat) : C Int :=
  if p.2 = some 0 then .ok result
  else match p.1 with
    | [] => .error .ub
    | c :: _ =>
      if c = 0 then .ok result
      else match h : decode p with
        | .error e => .error e
        | .ok none => .ok (-1)
        | .ok (some (cp, q)) =>
          let ccc := u.ccc cp
          if ccc ≠ 0 ∧ last > ccc then .ok disallowed
          else
            let check := u.flags cp
            if check &&& disallowed ≠ 0 then .ok disallowed
            else detectLoop u disallowed maybe q ccc (if check &&& maybe ≠ 0 then maybe else result)
termination_by p.1.length
decreasing_by exact decode_len h

/-- charstr_unicode.c:5-28 `charstr_detect_unicode_normal_form` -/
def detect (u : Ucd) (disallowed maybe : Nat) (p : Pos) : C Int := detectLoop u disallowed maybe p 0 0

/-- charstr.h:178 -/
def nfcDisallowed : Nat := 0x01
/-- charstr.h:179 -/
def nfcMaybe : Nat := 0x02
/-- charstr.h:180 -/
def nfdDisallowed : Nat := 0x04
/-- charstr.h:181 -/
def nfdMaybe : Nat := 0x08

/-- charstr_unicode.c:30-35 `charstr_unicode_canonically_composed` -/
def canonicallyComposed (u : Ucd) (p : Pos) : C Bool := do
  let r ← detect u nfcDisallowed nfcMaybe p
  pure (decide (r = 0))

/-- charstr_unicode.c:37-42 `charstr_unicode_canonically_decomposed` -/
def canonicallyDecomposed (u : Ucd) (p : Pos) : C Bool := do
  let r ← detect u nfdDisallowed nfdMaybe p
  pure (decide (r = 0))

/-! ### charstr_decompose.c -/

/-- `charstr_encode_utf8_codepoint` with a possibly NULL `s` (charstr.c:545). -/
def encodeN (cp : Int) (buf : List UInt8) (s : Option Nat) (e : Option Nat) : C (Option Nat × List UInt8) :=
  match s with
  | none => .ok (none, buf)
  | some i => encode cp buf i e

/-- charstr_decompose.c:6-27 `decompose_hangul` -/
def decomposeHangul (cp : Nat) (buf : List UInt8) (s : Option Nat) (e : Option Nat) : C (Option Nat × List UInt8) := do
  let i : Int := (cp : Int) - 0xAC00
  if i < 0 ∨ i ≥ 11172 then return (none, buf)
  let (s, buf) ← encodeN (0x1100 + i.tdiv 588) buf s e
  let (s, buf) ← encodeN (0x1161 + (i.tmod 588).tdiv 28) buf s e
  if i.tmod 28 ≠ 0 then encodeN (0x11A7 + i.tmod 28) buf s e
  else return (s, buf)

mutual

/-- charstr_decompose.c:29-42 `decompose_fully` -/
def decomposeFully (u : Ucd) (cp : Nat) (buf : List UInt8) (s : Nat) (e : Option Nat) : D (Option Nat × List UInt8) := do
  match u.decomp cp with
  | none =>
    let (h, buf) ← liftC (decomposeHangul cp buf (some s) e)
    match h with
    | some q => pure (some q, buf)
    | none => liftC (encode cp buf s e)
  | some dp => decomposeEach u dp buf (some s) e
partial_fixpoint

/-- charstr_decompose.c:39-40: the loop over the decomposition. -/
def decomposeEach (u : Ucd) (dp : List Nat) (buf : List UInt8) (s : Option Nat) (e : Option Nat) : D (Option Nat × List UInt8) := do
  match s, dp with
  | some i, d :: dp =>
    let (s, buf) ← decomposeFully u d buf i e
    decomposeEach u dp buf s e
  | s, _ => pure (s, buf)
partial_fixpoint

end

/-- Decode at offset `s` of `buf` with `end` at offset `e`: the code point and the offset behind it. The callers below go on to use the code
point and the pointer without a check, which is undefined after a failure. -/
def decodeAt (buf : List UInt8) (s e : Nat) : C (Nat × Nat) :=
  match decode (buf.drop s, some (e - s)) with
  | .error e => .error e
  | .ok none => .error .ub
  | .ok (some (cp, q)) => .ok (cp, buf.length - q.1.length)

/-- charstr_decompose.c:67-71: `snippet` saves the bytes from `s` to `after`; those from `t` to `s` move behind it. -/
def moveTo (buf : List UInt8) (t s after : Nat) : C (List UInt8) :=
  if t ≤ s ∧ s ≤ after ∧ after ≤ buf.length then
    let snippet := (buf.drop s).take (after - s)
    let buf := splice buf (t + (after - s)) ((buf.drop t).take (s - t))
    .ok (splice buf t snippet)
  else .error .ub

/-- charstr_decompose.c:60-75: the search for the place. -/
def insertLoop (u : Ucd) (buf : List UInt8) (t s after e ccc : Nat) : D (List UInt8) := do
  let (tcp, afterT) ← liftC (decodeAt buf t e)
  if u.ccc tcp > ccc then liftC (moveTo buf t s after)
  else insertLoop u buf afterT s after e ccc
partial_fixpoint

/-- charstr_decompose.c:44-79 `sort_combining_characters` -/
def sortLoop (u : Ucd) (buf : List UInt8) (begin s last e : Nat) : D (List UInt8) := do
  if s = e then pure buf
  else
    let (cp, after) ← liftC (decodeAt buf s e)
    let ccc := u.ccc cp
    if ccc = 0 then sortLoop u buf after after 0 e
    else if ccc ≥ last then sortLoop u buf begin after ccc e
    else
      let buf ← insertLoop u buf begin s after e ccc
      sortLoop u buf begin after last e
partial_fixpoint

/-- The result of a conversion: NULL with `errno`, or the offset of the terminating NUL. -/
inductive Res where
  | null (errno : Errno)
  | ptr (q : Nat)
  deriving DecidableEq, Repr

/-- charstr_decompose.c:85-97: the loop of `charstr_unicode_decompose`; `.ok q` at its end. -/
def decomposeLoop (u : Ucd) (p : Pos) (buf : List UInt8) (q : Nat) (e : Option Nat) : D (Except Errno Nat × List UInt8) := do
  if p.2 = some 0 then pure (.ok q, buf)
  else match p.1 with
    | [] => throw .ub
    | c :: _ =>
      if c = 0 then pure (.ok q, buf)
      else
        match ← liftC (decode p) with
        | none => pure (.error .eilseq, buf)
        | some (cp, p) =>
          let (q, buf) ← decomposeFully u cp buf q e
          match q with
          | none => pure (.error .eoverflow, buf)
          | some q => decomposeLoop u p buf q e
partial_fixpoint

/-- charstr_decompose.c:81-105 `charstr_unicode_decompose`; `output` is at offset 0. -/
def decompose (u : Ucd) (p : Pos) (buf : List UInt8) (e : Option Nat) : D (Res × List UInt8) := do
  let (r, buf) ← decomposeLoop u p buf 0 e
  match r with
  | .error errno => pure (.null errno, buf)
  | .ok q =>
    if e = some q then pure (.null .eoverflow, buf)
    else
      let buf ← liftC (wr buf q 0)
      let buf ← sortLoop u buf 0 0 0 q
      pure (.ptr q, buf)

/-! ### charstr_recompose.c -/

/-- charstr_recompose.c:10-16 -/
inductive RState where
  | init | started | delivering | deliveringTerminated | terminated
  deriving DecidableEq, Repr

/-- charstr_recompose.c:30-35. The first `wr` elements of the array `ccs` are the list. -/
structure Recomposer where
  state : RState
  starter : Nat
  ccs : List Nat
  rd : Nat
  deriving DecidableEq, Repr

/-- charstr_recompose.c:37-40 `init_recomposer`; the other fields are indeterminate and not used before they are set. -/
def Recomposer.new : Recomposer := { state := .init, starter := 0, ccs := [], rd := 0 }

/-- charstr_recompose.c:44-51 `recomposer_blocked` -/
def blocked (u : Ucd) : List Nat → Nat → Bool
  | [], _ => false
  | c :: seq, ccc => if u.ccc c ≥ ccc then true else blocked u seq ccc

/-- What a step returns: a code point, or a negative value with `errno`. -/
abbrev Out := Except Errno Nat

/-- charstr_recompose.c:53-95 `recomposer_feed` -/
def feed (u : Ucd) (r : Recomposer) (cp : Nat) : C (Recomposer × Out) :=
  match r.state with
  | .init =>
    if u.ccc cp ≠ 0 then .ok (r, .ok cp)
    else .ok ({ r with state := .started, starter := cp, ccs := [] }, .error .eagain)
  | .started =>
    let ccc := u.ccc cp
    match if blocked u r.ccs ccc then none else u.composite r.starter cp with
    | some p => .ok ({ r with starter := p }, .error .eagain)
    | none =>
      if ccc ≠ 0 then
        if r.ccs.length ≥ 100 then .ok (r, .error .enobufs)
        else .ok ({ r with ccs := r.ccs ++ [cp] }, .error .eagain)
      else .ok ({ r with starter := cp, state := .delivering, rd := 0 }, .ok r.starter)
  | _ => .error .abort

/-- charstr_recompose.c:97-111 `recomposer_terminate` -/
def terminate (r : Recomposer) : C (Recomposer × Out) :=
  match r.state with
  | .init => .ok ({ r with state := .terminated }, .error .enodata)
  | .started => .ok ({ r with state := .deliveringTerminated, rd := 0 }, .ok r.starter)
  | _ => .error .abort

/-- charstr_recompose.c:113-139 `recomposer_read` -/
def read (r : Recomposer) : Recomposer × Out :=
  match r.state with
  | .init | .started => (r, .error .eagain)
  | .delivering =>
    match r.ccs[r.rd]? with
    | none => ({ r with state := .started, ccs := [] }, .error .eagain)
    | some c => ({ r with rd := r.rd + 1 }, .ok c)
  | .deliveringTerminated =>
    match r.ccs[r.rd]? with
    | none => ({ r with state := .terminated }, .error .enodata)
    | some c => ({ r with rd := r.rd + 1 }, .ok c)
  | .terminated => (r, .error .enodata)

/-- charstr_recompose.c:141-162: `none` is `HANGUL_RECOMPOSER_INIT` (set by `init_hangul_recomposer`), `some next` is
`HANGUL_RECOMPOSER_STARTED`. The terminated state is entered only by the last call, `hangul_recomposer_terminate` (209-221). -/
abbrev Hangul := Option Nat

/-- charstr_recompose.c:164-207 `hangul_recomposer_feed`; `none` is a negative result. -/
def hangulFeed (h : Hangul) (cp : Nat) : Hangul × Option Nat :=
  match h with
  | none => (some cp, none)
  | some next =>
    let li : Int := (next : Int) - 0x1100
    let vi : Int := (cp : Int) - 0x1161
    if 0 ≤ li ∧ li < 19 ∧ 0 ≤ vi ∧ vi < 21 then (some (0xAC00 + (li * 21 + vi) * 28).toNat, none)
    else
      let si : Int := (next : Int) - 0xAC00
      let ti : Int := (cp : Int) - 0x11A7
      if 0 ≤ si ∧ si < 11172 ∧ si.tmod 28 = 0 ∧ ti > 0 ∧ ti < 28 then (some (next + ti).toNat, none)
      else (some cp, some next)

/-- charstr_recompose.c:239-249 and 254-264: hand over the code point and all that can be read after it. `none` in the place of the offset
is the overflow; otherwise `errno` as set by the last call is part of the result. -/
def deliver (r : Recomposer) (h : Hangul) (out : Out) (buf : List UInt8) (q : Nat) (e : Option Nat) :
    D (Recomposer × Hangul × Option (Errno × Nat) × List UInt8) := do
  match out with
  | .error errno => pure (r, h, some (errno, q), buf)
  | .ok cp =>
    match hangulFeed h cp with
    | (h, some cp) =>
      match ← liftC (encode cp buf q e) with
      | (none, buf) => pure (r, h, none, buf)
      | (some q, buf) =>
        let (r, out) := read r
        deliver r h out buf q e
    | (h, none) =>
      let (r, out) := read r
      deliver r h out buf q e
partial_fixpoint

/-- charstr_recompose.c:232-252: the loop of `charstr_unicode_recompose`. -/
def recomposeLoop (u : Ucd) (p : Pos) (r : Recomposer) (h : Hangul) (buf : List UInt8) (q : Nat) (e : Option Nat) :
    D (Except Errno (Recomposer × Hangul × Nat) × List UInt8) := do
  if p.2 = some 0 then pure (.ok (r, h, q), buf)
  else match p.1 with
    | [] => throw .ub
    | c :: _ =>
      if c = 0 then pure (.ok (r, h, q), buf)
      else
        match ← liftC (decode p) with
        | none => pure (.error .eilseq, buf)
        | some (cp, p) =>
          let (r, out) ← liftC (feed u r cp)
          match ← deliver r h out buf q e with
          | (_, _, none, buf) => pure (.error .eoverflow, buf)
          | (r, h, some (errno, q), buf) =>
            if errno ≠ .eagain then pure (.error errno, buf)
            else recomposeLoop u p r h buf q e
partial_fixpoint

/-- charstr_recompose.c:253-280: what follows the loop. -/
def recomposeEnd (r : Recomposer) (h : Hangul) (buf : List UInt8) (q : Nat) (e : Option Nat) : D (Res × List UInt8) := do
  let (r, out) ← liftC (terminate r)
  match ← deliver r h out buf q e with
  | (_, _, none, buf) => pure (.null .eoverflow, buf)
  | (_, h, some (errno, q), buf) =>
    if errno ≠ .enodata then pure (.null errno, buf)
    else
      let (q, buf) ← liftC (match h with
        | none => .ok (some q, buf)
        | some next => encode next buf q e)
      match q with
      | none => pure (.null .eoverflow, buf)
      | some q =>
        if e = some q then pure (.null .eoverflow, buf)
        else
          let buf ← liftC (wr buf q 0)
          pure (.ptr q, buf)

/-- charstr_recompose.c:223-281 `charstr_unicode_recompose`; `output` is at offset 0. -/
def recompose (u : Ucd) (p : Pos) (buf : List UInt8) (e : Option Nat) : D (Res × List UInt8) := do
  let (x, buf) ← recomposeLoop u p Recomposer.new none buf 0 e
  match x with
  | .error errno => pure (.null errno, buf)
  | .ok (r, h, q) => recomposeEnd r h buf q e

end Verif.Unicode
