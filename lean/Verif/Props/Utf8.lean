import Verif.Proofs.Utf8

/-! Properties C46 to C51: UTF-8 in `charstr.c`. -/

namespace Verif.Utf8
open Verif.Spec.Utf8

/-! ### C50: the encoder -/

/-- C50 (bounded). For every scalar value, buffer and `end` inside the buffer: no undefined behaviour; success exactly when the
encoding fits before `end`; then the UTF-8 encoding is written at `s`, the returned pointer is just after it, and nothing else
changes. Otherwise NULL is returned and only bytes between `s` and `end` may have changed. -/
theorem utf8_encode_bounded (cp : Nat) (hcp : IsScalar cp) (buf : List UInt8) (i e : Nat) (hi : i ≤ e) (he : e ≤ buf.length) :
    (i + (enc cp).length ≤ e → encode cp buf i (some e) =
      .ok (some (i + (enc cp).length), buf.take i ++ enc cp ++ buf.drop (i + (enc cp).length))) ∧
    (e < i + (enc cp).length → ∃ buf', encode cp buf i (some e) = .ok (none, buf') ∧ buf'.length = buf.length ∧
      buf'.take i = buf.take i ∧ buf'.drop e = buf.drop e) := by
  have hlt : cp < 0x200000 := by simp only [IsScalar] at hcp; omega
  rw [encBytes_form hlt, putSeq_some _ _ _ _ hi he]
  constructor
  · intro h
    rw [if_pos h, List.take_of_length_le (by omega)]
    rfl
  · intro h
    rw [if_neg (by omega)]
    have hl : ((enc cp).take (e - i)).length = e - i := by simp; omega
    have hq : i + ((enc cp).take (e - i)).length ≤ buf.length := by omega
    refine ⟨_, rfl, splice_length hq, ?_, ?_⟩
    · simp only [splice]
      rw [List.append_assoc, List.take_left' (by simp; omega)]
    · simp only [splice]
      rw [List.drop_left' (by simp only [List.length_append, List.length_take] at hl ⊢; omega), hl]
      congr 1; omega

example : encode (0x20AC : Nat) [1, 2, 3, 4, 5] 1 (some 4) = .ok (some 4, [1, 0xE2, 0x82, 0xAC, 5]) := by decide +kernel
example : encode (0x20AC : Nat) [1, 2, 3, 4, 5] 1 (some 3) = .ok (none, [1, 0xE2, 0x82, 4, 5]) := by decide +kernel

/-- C50 (unbounded). With a NULL `end` and enough room the encoding is written. -/
theorem utf8_encode_unbounded (cp : Nat) (hcp : IsScalar cp) (buf : List UInt8) (i : Nat) (h : i + (enc cp).length ≤ buf.length) :
    encode cp buf i none = .ok (some (i + (enc cp).length), buf.take i ++ enc cp ++ buf.drop (i + (enc cp).length)) := by
  have hlt : cp < 0x200000 := by simp only [IsScalar] at hcp; omega
  rw [encBytes_form hlt, putSeq_none _ _ _ h]
  rfl

example : encode (0x1F600 : Nat) [0, 0, 0, 0] 0 none = .ok (some 4, [0xF0, 0x9F, 0x98, 0x80]) := by decide +kernel

/-- C50 (any `int`). Whatever the code point argument, valid or not, the encoder never writes before `s` or at or past
`end`, and a non-NULL result is one to four bytes further. -/
theorem utf8_encode_any_safe (cp : Int) (buf : List UInt8) (i e : Nat) (hi : i ≤ e) (he : e ≤ buf.length) :
    ∃ r buf', encode cp buf i (some e) = .ok (r, buf') ∧ buf'.length = buf.length ∧ buf'.take i = buf.take i ∧
      buf'.drop e = buf.drop e ∧ ∀ j, r = some j → i < j ∧ j ≤ i + 4 ∧ j ≤ e := by
  obtain ⟨bs, h1, h4, h⟩ := encode_putSeq cp
  rw [h, putSeq_some _ _ _ _ hi he]
  have hl : (bs.take (e - i)).length = min (e - i) bs.length := by simp
  have hq : i + (bs.take (e - i)).length ≤ buf.length := by omega
  refine ⟨_, _, rfl, splice_length hq, ?_, ?_, ?_⟩
  · simp only [splice]
    rw [List.append_assoc, List.take_left' (by simp; omega)]
  · simp only [splice]
    rw [List.drop_append, List.drop_eq_nil_of_le (by simp only [List.length_append, List.length_take] at hl ⊢; omega),
      List.nil_append, List.drop_drop]
    congr 1
    simp only [List.length_append, List.length_take] at hl ⊢
    omega
  · intro j hj
    split at hj
    · simp only [Option.some.injEq] at hj; omega
    · simp at hj

example : encode (-1) [0, 0] 0 (some 2) = .ok (some 1, [0xFF, 0]) := by decide +kernel

/-! ### C46: round trip -/

/-- C46. Decoding what the encoder wrote returns the code point and stops exactly after it, whatever follows in the buffer. -/
theorem utf8_round_trip (cp : Nat) (hcp : IsScalar cp) (buf buf' : List UInt8) (i j : Nat) (e : Option Nat)
    (he : ∀ n, e = some n → i ≤ n ∧ n ≤ buf.length) (hroom : e = none → i + (enc cp).length ≤ buf.length)
    (henc : encode cp buf i e = .ok (some j, buf')) (lim : Option Nat) (hlim : ∀ n, lim = some n → j - i ≤ n) :
    decode (buf'.drop i, lim) = .ok (some (cp, (buf'.drop j, lim.map (· - (j - i))))) := by
  obtain ⟨hj, hb, hle⟩ : j = i + (enc cp).length ∧ buf' = buf.take i ++ enc cp ++ buf.drop (i + (enc cp).length) ∧
      i + (enc cp).length ≤ buf.length := by
    cases e with
    | none =>
      rw [utf8_encode_unbounded cp hcp buf i (hroom rfl)] at henc
      simp only [Except.ok.injEq, Prod.mk.injEq, Option.some.injEq] at henc
      exact ⟨henc.1.symm, henc.2.symm, hroom rfl⟩
    | some n =>
      have hn := he n rfl
      have hb := utf8_encode_bounded cp hcp buf i n hn.1 hn.2
      by_cases hfit : i + (enc cp).length ≤ n
      · rw [hb.1 hfit] at henc
        simp only [Except.ok.injEq, Prod.mk.injEq, Option.some.injEq] at henc
        exact ⟨henc.1.symm, henc.2.symm, by omega⟩
      · obtain ⟨b2, h2, _⟩ := hb.2 (by omega)
        rw [h2] at henc; simp at henc
  subst hj hb
  rw [decode_some]
  refine ⟨enc cp, legal_loose ⟨hcp, rfl⟩, ?_, ?_, ?_⟩
  · rw [List.append_assoc, List.drop_left' (by simp; omega), ← List.append_assoc]
    rw [List.drop_left' (by simp; omega)]
  · intro n hn; have := hlim n hn; omega
  · simp [advN]

example : IsScalar 0x20AC := by decide

/-! ### C47, C51: the decoder -/

/-- C47 (completeness). Every legal encoding that ends before `end` is accepted, with its code point and length. -/
theorem utf8_decode_accepts_legal (p r : List UInt8) (cp : Nat) (lim : Option Nat) (hp : Legal p cp)
    (hlim : ∀ n, lim = some n → p.length ≤ n) :
    decode (p ++ r, lim) = .ok (some (cp, (r, lim.map (· - p.length)))) :=
  decode_some.mpr ⟨p, legal_loose hp, rfl, hlim, rfl⟩

example : Legal [0xE2, 0x82, 0xAC] 0x20AC := by unfold Legal; decide

/-- C47 (soundness, weaker than claimed). Whatever the decoder accepts is an encoding of a scalar value in one of the four
forms, and the bytes consumed end before `end`. Missing from C47: the form need not be the shortest one; see
`utf8_decode_accepts_overlong`. -/
theorem utf8_decode_exact_partial (s s' : List UInt8) (lim lim' : Option Nat) (cp : Nat) :
    decode (s, lim) = .ok (some (cp, (s', lim'))) ↔
      ∃ p, Loose p cp ∧ s = p ++ s' ∧ (∀ n, lim = some n → p.length ≤ n) ∧ lim' = lim.map (· - p.length) :=
  decode_some

/-- C47 (what exactly is missing). An accepted encoding is legal iff it is not longer than necessary. -/
theorem utf8_decode_legal_iff_shortest_partial (p r : List UInt8) (lim lim' : Option Nat) (cp : Nat)
    (h : decode (p ++ r, lim) = .ok (some (cp, (r, lim')))) : Legal p cp ↔ p.length = width cp := by
  obtain ⟨q, hq, heq, _, _⟩ := decode_some.mp h
  have : p = q := List.append_cancel_right heq
  subst this
  exact loose_legal_iff hq

/-- C47 fails: the decoder accepts the overlong encoding `C0 AF` of `/`, which no UTF-8 text contains. -/
theorem utf8_decode_accepts_overlong :
    decode ([0xC0, 0xAF, 0], none) = .ok (some (0x2F, ([0], none))) ∧ ∀ cp, ¬ Legal [0xC0, 0xAF] cp := by
  refine ⟨by decide +kernel, ?_⟩
  intro cp h
  have h1 := legal_loose h
  have h2 := (decode_some (s := [0xC0, 0xAF]) (s' := []) (lim := none) (lim' := none)).mpr
    ⟨_, h1, by simp, by simp [Room], rfl⟩
  have h3 : decode ([0xC0, 0xAF], none) = .ok (some (0x2F, ([], none))) := by decide +kernel
  rw [h3] at h2
  simp only [Except.ok.injEq, Option.some.injEq, Prod.mk.injEq, and_true] at h2
  subst h2
  obtain ⟨_, h⟩ := h
  revert h; decide

/-- Surrogates and values above U+10FFFF are never produced. -/
theorem utf8_decode_scalar (s s' : List UInt8) (lim lim' : Option Nat) (cp : Nat)
    (h : decode (s, lim) = .ok (some (cp, (s', lim')))) : IsScalar cp := by
  obtain ⟨p, hp, _⟩ := decode_some.mp h
  exact hp.1

example : decode ([0xED, 0xA0, 0x80, 0], none) = .ok none := by decide +kernel
example : decode ([0xF4, 0x90, 0x80, 0x80, 0], none) = .ok none := by decide +kernel

/-- C51 (bounded). With an `end` inside the object, or at its very end, no byte at or past `end` is read. -/
theorem utf8_decode_no_overread_bounded (s : List UInt8) (n : Nat) (h : n ≤ s.length) :
    ∃ r, decode (s, some n) = .ok r :=
  decode_safe h

/-- C51 (unbounded). On a NUL-terminated string whose object ends with the NUL nothing past the NUL is read. -/
theorem utf8_decode_no_overread_nul (s : List UInt8) : ∃ r, decode (s ++ [0], none) = .ok r :=
  decode_safe (by simp [Readable])

/-- C51. The result depends only on the bytes before `end`. -/
theorem utf8_decode_local (s t : List UInt8) :
    (decode (s ++ t, some s.length) = .ok none ↔ decode (s, some s.length) = .ok none) ∧
    ∀ cp r lim, decode (s, some s.length) = .ok (some (cp, (r, lim))) →
      decode (s ++ t, some s.length) = .ok (some (cp, (r ++ t, lim))) := by
  have key : ∀ cp r lim, decode (s, some s.length) = .ok (some (cp, (r, lim))) →
      decode (s ++ t, some s.length) = .ok (some (cp, (r ++ t, lim))) := by
    intro cp r lim h
    obtain ⟨p, hp, rfl, hr, rfl⟩ := decode_some.mp h
    exact decode_some.mpr ⟨p, hp, by simp, hr, rfl⟩
  refine ⟨⟨fun h => ?_, fun h => ?_⟩, key⟩
  · obtain ⟨x, hx⟩ := decode_safe (s := s) (lim := some s.length) (by simp [Readable])
    cases x with
    | none => exact hx
    | some x => obtain ⟨cp, r, lim⟩ := x; rw [key _ _ _ hx] at h; simp at h
  · obtain ⟨x, hx⟩ := decode_safe (s := s ++ t) (lim := some s.length) (by simp [Readable])
    cases x with
    | none => exact hx
    | some x =>
      obtain ⟨cp, r, lim⟩ := x
      obtain ⟨p, hp, heq, hr, rfl⟩ := decode_some.mp hx
      have hpl : p.length ≤ s.length := hr _ rfl
      have hsp : s = p ++ s.drop p.length := by
        have := congrArg (List.take p.length) heq
        rw [List.take_append_of_le_length hpl, List.take_left] at this
        conv_lhs => rw [← List.take_append_drop p.length s, this]
      have := (decode_some (s := s) (lim := some s.length)).mpr ⟨p, hp, hsp, hr, rfl⟩
      rw [h] at this; simp at this

/-! ### C48: validation -/

/-- C48 (bounded, weaker than claimed). The bounded validator decides exactly whether the bytes before `end` are a
concatenation of encodings of scalar values; it never reads further. Missing: overlong forms count as encodings. -/
theorem utf8_valid_bounded_exact_partial (s t : List UInt8) :
    ∃ b, validBounded (s ++ t, some s.length) = .ok b ∧ (b = true ↔ ∃ cps, Seq Loose s cps) :=
  validBounded_iff s t

/-- C48 (NUL-terminated, weaker than claimed). Same for `charstr_valid_utf8`. -/
theorem utf8_valid_exact_partial (s t : List UInt8) (hs : (0 : UInt8) ∉ s) :
    ∃ b, valid (s ++ 0 :: t) = .ok b ∧ (b = true ↔ ∃ cps, Seq Loose s cps) :=
  valid_iff s t hs

/-- C48 (completeness). Every legal UTF-8 text is accepted by both validators. -/
theorem utf8_valid_complete (s t : List UInt8) (cps : List Nat) (h : Seq Legal s cps) :
    validBounded (s ++ t, some s.length) = .ok true ∧ ((0 : UInt8) ∉ s → valid (s ++ 0 :: t) = .ok true) := by
  have hl : Seq Loose s cps := by
    induction h with
    | nil => exact .nil
    | cons h1 _ ih => exact .cons (legal_loose h1) ih
  constructor
  · obtain ⟨b, hb, hiff⟩ := validBounded_iff s t
    rw [hb, hiff.mpr ⟨cps, hl⟩]
  · intro h0
    obtain ⟨b, hb, hiff⟩ := valid_iff s t h0
    rw [hb, hiff.mpr ⟨cps, hl⟩]

example : Seq Legal [0xC3, 0xA5, 0x61] [0xE5, 0x61] :=
  .cons (p := [0xC3, 0xA5]) (by unfold Legal; decide) (.cons (p := [0x61]) (by unfold Legal; decide) .nil)

theorem seq_legal_uncons {s : List UInt8} {cps : List Nat} (h : Seq Legal s cps) :
    s = [] ∨ ∃ p cp r, Legal p cp ∧ s = p ++ r := by
  cases h with
  | nil => exact .inl rfl
  | cons h1 h2 => exact .inr ⟨_, _, _, h1, rfl⟩

/-- C48 fails: the validators accept `C0 AF`, which is not a concatenation of legal encodings. -/
theorem utf8_valid_accepts_overlong :
    valid [0xC0, 0xAF, 0] = .ok true ∧ ∀ cps, ¬ Seq Legal [0xC0, 0xAF] cps := by
  constructor
  · obtain ⟨b, hb, hiff⟩ := valid_iff [0xC0, 0xAF] [] (by decide)
    have : b = true := hiff.mpr ⟨[0x2F], .cons (p := [0xC0, 0xAF]) ⟨by decide, 2, by omega, by omega, by decide, by decide⟩ .nil⟩
    subst this
    exact hb
  · intro cps h
    rcases seq_legal_uncons h with h | ⟨p, cp, r, hp, h⟩
    · simp at h
    · have hl : Loose [0xC0, 0xAF] 0x2F := ⟨by decide, 2, by omega, by omega, by decide, by decide⟩
      obtain ⟨rfl, rfl, rfl⟩ := loose_unique (r := []) (t := r) hl (legal_loose hp) (by simpa using h)
      exact utf8_decode_accepts_overlong.2 _ hp

/-! ### C49: sanitizing -/

/-- C49. For every NUL-terminated string the sanitizer stays inside its allocation (a write outside the block of exactly the
requested size would be undefined behaviour) and returns the unique string obtained by replacing every byte at which no
accepted encoding starts by EF BF BD. -/
theorem utf8_sanitize_replaces (fresh : Nat → List UInt8) (hf : ∀ n, (fresh n).length = n) (s t : List UInt8)
    (hs : (0 : UInt8) ∉ s) :
    ∃ o, sanitize fresh (s ++ 0 :: t) = .ok (o ++ [0]) ∧ (0 : UInt8) ∉ o ∧ Sanitized Loose s o ∧
      ∀ o', Sanitized Loose s o' → o' = o := by
  obtain ⟨o, ho, h⟩ := sanitize_spec fresh hf s t hs
  exact ⟨o, h, sanitized_nonul ho hs, ho, sanitized_unique ho⟩

/-- C49. The sanitized string is accepted by `charstr_valid_utf8`. -/
theorem utf8_sanitize_valid (fresh : Nat → List UInt8) (hf : ∀ n, (fresh n).length = n) (s t : List UInt8)
    (hs : (0 : UInt8) ∉ s) : ∃ out, sanitize fresh (s ++ 0 :: t) = .ok out ∧ valid out = .ok true := by
  obtain ⟨o, ho, h⟩ := sanitize_spec fresh hf s t hs
  obtain ⟨b, hb, hiff⟩ := valid_iff o [] (sanitized_nonul ho hs)
  exact ⟨_, h, by rw [hb, hiff.mpr (sanitized_seq ho)]⟩

/-- C49. A string that was already accepted is returned unchanged. -/
theorem utf8_sanitize_identity (fresh : Nat → List UInt8) (hf : ∀ n, (fresh n).length = n) (s t : List UInt8)
    (hs : (0 : UInt8) ∉ s) (hv : valid (s ++ 0 :: t) = .ok true) : sanitize fresh (s ++ 0 :: t) = .ok (s ++ [0]) := by
  obtain ⟨b, hb, hiff⟩ := valid_iff s t hs
  rw [hv] at hb
  simp only [Except.ok.injEq] at hb
  obtain ⟨cps, hc⟩ := hiff.mp hb.symm
  obtain ⟨o, ho, h⟩ := sanitize_spec fresh hf s t hs
  rw [h, ← sanitized_unique ho _ (sanitized_self hc)]

example : ∃ o, sanitize (fun n => List.replicate n 7) [0x61, 0x80, 0xC3, 0xA5, 0xC3, 0] = .ok o ∧
    o = [0x61, 0xEF, 0xBF, 0xBD, 0xC3, 0xA5, 0xEF, 0xBF, 0xBD, 0] := by
  obtain ⟨o, h, _, _, hu⟩ := utf8_sanitize_replaces (fun n => List.replicate n 7) (by simp) [0x61, 0x80, 0xC3, 0xA5, 0xC3] []
    (by decide)
  refine ⟨_, h, ?_⟩
  have hno : ∀ b r, decode (b :: r, none) = .ok none → ∀ p cp t, Loose p cp → b :: r ≠ p ++ t := by
    intro b r h p cp t hp heq
    have := (decode_some (s := b :: r) (s' := t) (lim := none)).mpr ⟨p, hp, heq, by simp [Room], rfl⟩
    rw [h] at this; simp at this
  have hl : decode ([0xC3, 0], none) = .ok none := by decide +kernel
  rw [← hu [0x61, 0xEF, 0xBF, 0xBD, 0xC3, 0xA5, 0xEF, 0xBF, 0xBD]]
  · rfl
  · refine .good (p := [0x61]) (cp := 0x61) (legal_loose (by unfold Legal; decide)) (.bad (hno _ _ (by decide +kernel))
      (.good (p := [0xC3, 0xA5]) (cp := 0xE5) (legal_loose (by unfold Legal; decide)) (.bad ?_ .nil)))
    intro p cp t hp heq
    have := (decode_some (s := [0xC3, 0]) (s' := t ++ [0]) (lim := none)).mpr
      ⟨p, hp, by rw [← List.append_assoc, ← heq]; rfl, by simp [Room], rfl⟩
    rw [hl] at this; simp at this

end Verif.Utf8
