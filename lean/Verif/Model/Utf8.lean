import Verif.Base.Outcome

/-!
Model of the UTF-8 part of `/repo/src/charstr.c` (lines 451-567).

An input pointer `s` is the list of bytes from `s` to the end of its object. The `end` pointer is `lim : Option Nat`, the
distance `end - s`; `none` is a NULL `end`. A NULL `s` (which makes the decoder and encoder return NULL at once) is not
represented. Code points are `Nat` on the decoding side (the code never makes them negative) and `Int` on the encoding side.
-/

namespace Verif.Utf8

/-- charstr.c:451-455 `valid_unicode`. -/
def validUnicode (cp : Nat) : Bool := (cp ≤ 0xd7ff) || (0xe000 ≤ cp && cp ≤ 0x10ffff)

/-- `end` seen from `s + 1`. -/
def adv (lim : Option Nat) : Option Nat := lim.map (· - 1)

/-- A position in the input: remaining bytes of the object and distance to `end`. -/
abbrev Pos := List UInt8 × Option Nat

/-- charstr.c:475-477, 479-481, 483-485: one continuation byte,
`if (s == end || (*s & 0xc0) != 0x80) return NULL; cp = cp << 6 | *s++ & 0x3f;`. `none` is the `return NULL`. -/
def cont (cp : Nat) : Pos → C (Option (Nat × Pos))
  | (s, lim) =>
    if lim = some 0 then .ok none
    else match s with
      | [] => .error .ub
      | c :: s => if c &&& 0xc0 ≠ 0x80 then .ok none else .ok (some (cp <<< 6 ||| (c &&& 0x3f).toNat, (s, adv lim)))

/-- charstr.c:483-487: the last continuation byte and the validity check. -/
def last (cp : Nat) (p : Pos) : C (Option (Nat × Pos)) :=
  match cont cp p with
  | .error e => .error e
  | .ok none => .ok none
  | .ok (some (cp, p)) => if validUnicode cp then .ok (some (cp, p)) else .ok none

/-- charstr.c:479-487: the last but one continuation byte, then the last. -/
def last2 (cp : Nat) (p : Pos) : C (Option (Nat × Pos)) :=
  match cont cp p with
  | .error e => .error e
  | .ok none => .ok none
  | .ok (some (cp, p)) => last cp p

/-- charstr.c:475-487: three continuation bytes. -/
def last3 (cp : Nat) (p : Pos) : C (Option (Nat × Pos)) :=
  match cont cp p with
  | .error e => .error e
  | .ok none => .ok none
  | .ok (some (cp, p)) => last2 cp p

/-- charstr.c:457-494 `charstr_decode_utf8_codepoint` with a non-NULL `codepoint`: `none` is NULL, otherwise the code point
and the new position. -/
def decode : Pos → C (Option (Nat × Pos))
  | (s, lim) =>
    if lim = some 0 then .ok none
    else match s with
      | [] => .error .ub
      | c :: s =>
        let p := (s, adv lim)
        if c &&& 0x80 = 0 then .ok (some ((c &&& 0x7f).toNat, p))
        else if c &&& 0x40 = 0 then .ok none
        else if c &&& 0x20 = 0 then last (c &&& 0x1f).toNat p
        else if c &&& 0x10 = 0 then last2 (c &&& 0x0f).toNat p
        else if c &&& 0x08 ≠ 0 then .ok none
        else last3 (c &&& 0x07).toNat p

theorem cont_len {cp : Nat} {p q : Pos} {cp' : Nat} (h : cont cp p = .ok (some (cp', q))) : q.1.length < p.1.length := by
  obtain ⟨s, lim⟩ := p
  simp only [cont] at h
  split at h; · simp at h
  split at h; · simp at h
  split at h; · simp at h
  simp only [Except.ok.injEq, Option.some.injEq, Prod.mk.injEq] at h
  obtain ⟨_, rfl⟩ := h
  simp

theorem last_len {cp : Nat} {p q : Pos} {cp' : Nat} (h : last cp p = .ok (some (cp', q))) : q.1.length < p.1.length := by
  simp only [last] at h
  split at h
  · simp at h
  · simp at h
  · rename_i h'
    split at h
    · simp only [Except.ok.injEq, Option.some.injEq, Prod.mk.injEq] at h
      obtain ⟨_, rfl⟩ := h
      exact cont_len h'
    · simp at h

theorem last2_len {cp : Nat} {p q : Pos} {cp' : Nat} (h : last2 cp p = .ok (some (cp', q))) : q.1.length < p.1.length := by
  simp only [last2] at h
  split at h <;> try simp at h
  rename_i h'
  exact Nat.lt_trans (last_len h) (cont_len h')

theorem last3_len {cp : Nat} {p q : Pos} {cp' : Nat} (h : last3 cp p = .ok (some (cp', q))) : q.1.length < p.1.length := by
  simp only [last3] at h
  split at h <;> try simp at h
  rename_i h'
  exact Nat.lt_trans (last2_len h) (cont_len h')

/-- The decoder advances; used for the termination of the loops below. -/
theorem decode_len {p q : Pos} {cp : Nat} (h : decode p = .ok (some (cp, q))) : q.1.length < p.1.length := by
  obtain ⟨s, lim⟩ := p
  simp only [decode] at h
  split at h; · simp at h
  split at h; · simp at h
  rename_i c s
  simp only [List.length_cons]
  split at h
  · simp only [Except.ok.injEq, Option.some.injEq, Prod.mk.injEq] at h
    obtain ⟨_, rfl⟩ := h; simp
  · split at h; · simp at h
    split at h; · exact Nat.lt_succ_of_lt (last_len h)
    split at h; · exact Nat.lt_succ_of_lt (last2_len h)
    split at h; · simp at h
    exact Nat.lt_succ_of_lt (last3_len h)

/-- charstr.c:496-501 `charstr_valid_utf8_bounded` (non-NULL `s`). -/
def validBounded (p : Pos) : C Bool :=
  if p.2 = some 0 then .ok true
  else match h : decode p with
    | .error e => .error e
    | .ok none => .ok false
    | .ok (some (_, q)) => validBounded q
termination_by p.1.length
decreasing_by exact decode_len h

/-- charstr.c:503-508 `charstr_valid_utf8` (non-NULL `s`). -/
def valid (s : List UInt8) : C Bool :=
  match s with
  | [] => .error .ub
  | c :: r =>
    if c = 0 then .ok true
    else match h : decode (c :: r, none) with
      | .error e => .error e
      | .ok none => .ok false
      | .ok (some (_, q)) => valid q.1
termination_by s.length
decreasing_by exact decode_len h

/-- charstr.c:513-523: the first pass of `charstr_sanitize_utf8`; returns `t - s` and `bad_bytes`. -/
def sanPass1 (t : List UInt8) (len bad : Nat) : C (Nat × Nat) :=
  match t with
  | [] => .error .ub
  | c :: r =>
    if c = 0 then .ok (len, bad)
    else match h : decode (c :: r, none) with
      | .error e => .error e
      | .ok (some (_, u)) => sanPass1 u.1 (len + ((c :: r).length - u.1.length)) bad
      | .ok none => sanPass1 r (len + 1) (bad + 1)
termination_by t.length
decreasing_by
  · exact decode_len h
  · simp

/-- `*q++ = b` for each byte of a list; also `memcpy` of a fixed array (charstr.c:531-536). -/
def putAll (out : List UInt8) (q : Nat) : List UInt8 → C (List UInt8 × Nat)
  | [] => .ok (out, q)
  | b :: bs => match wr out q b with
    | .error e => .error e
    | .ok out => putAll out (q + 1) bs

/-- charstr.c:528-538: the second pass of `charstr_sanitize_utf8`. -/
def sanPass2 (s : List UInt8) (out : List UInt8) (q : Nat) : C (List UInt8 × Nat) :=
  match s with
  | [] => .error .ub
  | c :: r =>
    if c = 0 then .ok (out, q)
    else match h : decode (c :: r, none) with
      | .error e => .error e
      | .ok (some (_, u)) =>
        match putAll out q ((c :: r).take ((c :: r).length - u.1.length)) with
        | .error e => .error e
        | .ok (out, q) => sanPass2 u.1 out q
      | .ok none =>
        match putAll out q [0xef, 0xbf, 0xbd] with
        | .error e => .error e
        | .ok (out, q) => sanPass2 r out q
termination_by s.length
decreasing_by
  · exact decode_len h
  · simp

/-- charstr.c:510-541 `charstr_sanitize_utf8`; `fresh n` is a new block of `n` bytes. Returns the block. -/
def sanitize (fresh : Nat → List UInt8) (s : List UInt8) : C (List UInt8) := do
  let (len, bad) ← sanPass1 s 0 0
  let (out, q) ← sanPass2 s (fresh (len + bad * 2 + 1)) 0
  wr out q 0

/-- Low 8 bits of an `int`, as stored in a `char`. -/
def low8 (n : Int) : UInt8 := UInt8.ofNat (n % 256).toNat

/-- One `*s++ = b` at offset `i`, preceded by the test `if (s == end) return NULL`. -/
def putChecked (buf : List UInt8) (i : Nat) (e : Option Nat) (b : UInt8) : C (Option Nat × List UInt8) :=
  if e = some i then .ok (none, buf)
  else match wr buf i b with
    | .error e => .error e
    | .ok buf => .ok (some (i + 1), buf)

/-- A sequence of checked stores; stops at the first failing test. -/
def putSeq (buf : List UInt8) (i : Nat) (e : Option Nat) : List UInt8 → C (Option Nat × List UInt8)
  | [] => .ok (some i, buf)
  | b :: bs => match putChecked buf i e b with
    | .error e => .error e
    | .ok (none, buf) => .ok (none, buf)
    | .ok (some i, buf) => putSeq buf i e bs

/-- charstr.c:543-564 `charstr_encode_utf8_codepoint`. `buf` is the output object, `i` the offset of `s`, `e` the offset of
`end`. Returns the new offset (`none` is NULL) and the object. The nested `if`s are flattened into the sequence of stores they
perform; every store is preceded by the test against `end` (line 545 for the first one). `>>` and `|` on a positive `int`
agree with `Nat` operations. -/
def encode (cp : Int) (buf : List UInt8) (i : Nat) (e : Option Nat) : C (Option Nat × List UInt8) :=
  let n := cp.toNat
  if cp ≥ 0x80 then
    if cp ≥ 0x800 then
      if cp ≥ 0x10000 then
        putSeq buf i e [low8 (0xf0 ||| n >>> 18 : Nat), low8 (0x80 ||| (n >>> 12 &&& 0x3f) : Nat),
          low8 (0x80 ||| (n >>> 6 &&& 0x3f) : Nat), low8 (0x80 ||| (n &&& 0x3f) : Nat)]
      else
        putSeq buf i e [low8 (0xe0 ||| n >>> 12 : Nat), low8 (0x80 ||| (n >>> 6 &&& 0x3f) : Nat),
          low8 (0x80 ||| (n &&& 0x3f) : Nat)]
    else putSeq buf i e [low8 (0xc0 ||| n >>> 6 : Nat), low8 (0x80 ||| (n &&& 0x3f) : Nat)]
  else putSeq buf i e [low8 cp]

end Verif.Utf8
