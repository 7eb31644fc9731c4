import Verif.Proofs.SourceEncode
import Verif.Props.Utf8

/-!
Property C146: the text of `src/charstr.c:451-508` and `src/charstr.c:543-564`, read as C, decodes, validates and encodes UTF-8 as C46, C47, C48, C50 and C51 say. The bytes
are anywhere in memory: in an object of any name and size, at any index, with anything before and behind. What the decoder accepts are the encodings of C47, which may be
longer than necessary.
-/

set_option autoImplicit false

namespace Verif.Source

open Verif.Spec.CSource Verif.Spec.Utf8 Verif.Utf8

variable {m : Mem} {o : Str} {i : Nat} {e : Option Nat} {a b t s : List UInt8}

/-- At index `i` of the object `o` are the bytes `b` that may be read: those in front of `end`, or if `end` is NULL a string and its NUL. -/
def Input (m : Mem) (o : Str) (i : Nat) (e : Option Nat) (b : List UInt8) : Prop :=
  o ≠ c!"*codepoint" ∧ ∃ s t, find o m = some (bytes s) ∧ s.drop i = b ++ t ∧ (e = some (i + b.length) ∨ e = none ∧ ∃ a, b = a ++ [0] ∧ 0 ∉ a)

/-- C146. `charstr_decode_utf8_codepoint`, as the text says: if an encoding of a scalar value is a prefix of the bytes, the result is a pointer to what follows it and
`*codepoint`, unless `codepoint` is NULL, becomes the scalar value; else the result is NULL and nothing changes. No other byte is read. -/
theorem source_decode (h : Input m o i e b) (x : Option V) :
    (∀ p cp r, Loose p cp → b = p ++ r →
      Returns (run utf8Headers utf8 c!"charstr_decode_utf8_codepoint" [(strT, .ptr o i), (strT, endAt o e), (.ptr intT, outArg x)] (outMem x m))
        ((strT, .ptr o ((i + p.length : Nat) : Int)), outMem (x.map fun _ => .num cp) m)) ∧
    ((∀ p cp r, Loose p cp → b ≠ p ++ r) →
      Returns (run utf8Headers utf8 c!"charstr_decode_utf8_codepoint" [(strT, .ptr o i), (strT, endAt o e), (.ptr intT, outArg x)] (outMem x m))
        ((strT, .null), outMem x m)) := by
  obtain ⟨hne, s, t, hs, hd, he⟩ := h
  have hb : Before i e := by
    intro n hn
    rcases he with rfl | ⟨rfl, _⟩
    · cases hn; omega
    · cases hn
  have hlim : limit e i = some b.length ∨ limit e i = none ∧ ∃ a, b = a ++ [0] ∧ 0 ∉ a := by
    rcases he with rfl | ⟨rfl, h⟩
    · exact .inl (by simp [limit])
    · exact .inr ⟨rfl, h⟩
  rw [run_decode hne hs hb, hd]
  have hlen := congrArg List.length hd
  simp only [List.length_drop, List.length_append] at hlen
  constructor
  · rintro p cp r hp rfl
    have h1 : decode (p ++ r ++ t, limit e i) = .ok (some (cp, (r ++ t, (limit e i).map (· - p.length)))) := by
      refine decode_some.mpr ⟨p, hp, by simp, ?_, rfl⟩
      rcases hlim with h | ⟨h, _⟩ <;> rw [h] <;> simp [Room]
    rw [h1]
    have h2 : s.length - (r ++ t).length = i + p.length := by
      have := (loose_len hp).1
      simp only [List.length_append] at hlen ⊢
      omega
    simp only [decoded, h2]
    exact (returns_pure _ _).mpr rfl
  · intro hno
    have hr : Readable (b ++ t) (limit e i) := by
      rcases hlim with h | ⟨h, a, rfl, _⟩ <;> rw [h] <;> simp [Readable]
    obtain ⟨r, hr⟩ := decode_safe hr
    rcases r with _ | ⟨cp, s', l'⟩
    · rw [hr]
      exact (returns_pure _ _).mpr rfl
    · exfalso
      obtain ⟨p, hp, heq, hroom, _⟩ := decode_some.mp hr
      have hle : p.length ≤ b.length := by
        rcases hlim with h | ⟨h, a, rfl, ha⟩
        · rw [h] at hroom; simpa [Room] using hroom
        · by_contra hlt
          have hpre : (a ++ [0]) <+: p := by
            refine List.prefix_of_prefix_length_le (l₃ := a ++ [0] ++ t) ⟨t, rfl⟩ ?_ (by omega)
            exact ⟨s', heq.symm⟩
          have h0 : (0 : UInt8) ∈ p := hpre.subset (by simp)
          have := loose_zero hp h0
          subst this
          simp at hlt
      obtain ⟨r, hr⟩ : p <+: b := List.prefix_of_prefix_length_le (l₃ := b ++ t) ⟨s', heq.symm⟩ ⟨t, rfl⟩ hle
      exact hno p cp r hp hr.symm

/-- C146. `charstr_valid_utf8_bounded`: true exactly for concatenations of encodings of scalar values; nothing at or behind `end` is read. -/
theorem source_valid_bounded (hne : o ≠ c!"*codepoint") (hs : find o m = some (bytes s)) (hd : s.drop i = b ++ t) :
    ∃ v : Bool, Returns (run utf8Headers utf8 c!"charstr_valid_utf8_bounded" [(strT, .ptr o i), (strT, .ptr o ((i + b.length : Nat) : Int))] m)
      ((.bool, .num (if v then 1 else 0)), m) ∧ (v = true ↔ ∃ cps, Seq Loose b cps) := by
  obtain ⟨v, hv, h⟩ := utf8_valid_bounded_exact_partial b t
  have hr := run_bounded (e := some (i + b.length)) hne hs (i := i) (by intro n hn; cases hn; omega)
  rw [hd, show limit (some (i + b.length)) i = some b.length by simp [limit], hv] at hr
  exact ⟨v, by rw [show V.ptr o ((i + b.length : Nat) : Int) = endAt o (some (i + b.length)) from rfl, hr]; exact (returns_pure _ _).mpr rfl, h⟩

/-- C146. `charstr_valid_utf8`: the same for a string, of which nothing behind the NUL is read. -/
theorem source_valid (hne : o ≠ c!"*codepoint") (hs : find o m = some (bytes s)) (hd : s.drop i = a ++ 0 :: t) (h0 : 0 ∉ a) :
    ∃ v : Bool, Returns (run utf8Headers utf8 c!"charstr_valid_utf8" [(strT, .ptr o i)] m) ((.bool, .num (if v then 1 else 0)), m) ∧
      (v = true ↔ ∃ cps, Seq Loose a cps) := by
  obtain ⟨v, hv, h⟩ := utf8_valid_exact_partial a t h0
  rw [run_valid hne hs, hd, hv]
  exact ⟨v, (returns_pure _ _).mpr rfl, h⟩

/-- C146. `charstr_encode_utf8_codepoint` with an `end`: the encoding of any scalar value is written at `s` exactly if it fits in front of `end`, and the result points behind
it; else the result is NULL and no byte in front of `s` or from `end` on has changed. No other object changes. -/
theorem source_encode {cp n : Nat} (hcp : IsScalar cp) (hs : find o m = some (bytes b)) (hi : i ≤ n) (hn : n ≤ b.length) :
    (i + (enc cp).length ≤ n →
      Returns (run utf8Headers utf8 c!"charstr_encode_utf8_codepoint" [(intT, .num cp), (strT, .ptr o i), (strT, .ptr o n)] m)
        ((strT, .ptr o ((i + (enc cp).length : Nat) : Int)), withObj o (bytes (b.take i ++ enc cp ++ b.drop (i + (enc cp).length))) m)) ∧
    (n < i + (enc cp).length → ∃ b', b'.length = b.length ∧ b'.take i = b.take i ∧ b'.drop n = b.drop n ∧
      Returns (run utf8Headers utf8 c!"charstr_encode_utf8_codepoint" [(intT, .num cp), (strT, .ptr o i), (strT, .ptr o n)] m)
        ((strT, .null), withObj o (bytes b') m)) := by
  have hr := run_encode (n := (cp : Int)) (i := i) (e := some n) hs (by simp only [IsScalar] at hcp; omega)
  have hx := utf8_encode_bounded cp hcp b i n hi hn
  rw [show V.ptr o (n : Int) = endAt o (some n) from rfl, hr]
  constructor
  · intro h
    rw [hx.1 h]
    exact (returns_pure _ _).mpr rfl
  · intro h
    obtain ⟨b', h1, h2, h3, h4⟩ := hx.2 h
    refine ⟨b', h2, h3, h4, ?_⟩
    rw [h1]
    exact (returns_pure _ _).mpr rfl

/-- C146. `charstr_encode_utf8_codepoint` without an `end`, for room enough. -/
theorem source_encode_unbounded {cp : Nat} (hcp : IsScalar cp) (hs : find o m = some (bytes b)) (hi : i + (enc cp).length ≤ b.length) :
    Returns (run utf8Headers utf8 c!"charstr_encode_utf8_codepoint" [(intT, .num cp), (strT, .ptr o i), (strT, .null)] m)
      ((strT, .ptr o ((i + (enc cp).length : Nat) : Int)), withObj o (bytes (b.take i ++ enc cp ++ b.drop (i + (enc cp).length))) m) := by
  have hr := run_encode (n := (cp : Int)) (i := i) (e := none) hs (by simp only [IsScalar] at hcp; omega)
  rw [show V.null = endAt o none from rfl, hr, utf8_encode_unbounded cp hcp b i hi]
  exact (returns_pure _ _).mpr rfl

/-- C146. For an `int` that is no scalar value too, negative or not, the encoder writes only between `s` and `end`. -/
theorem source_encode_any {n : Int} {k : Nat} (hs : find o m = some (bytes b)) (hi : i ≤ k) (hk : k ≤ b.length) (h1 : -2 ^ 31 ≤ n) (h2 : n < 2 ^ 31) :
    ∃ v b', Returns (run utf8Headers utf8 c!"charstr_encode_utf8_codepoint" [(intT, .num n), (strT, .ptr o i), (strT, .ptr o k)] m) ((strT, v), withObj o (bytes b') m) ∧
      b'.length = b.length ∧ b'.take i = b.take i ∧ b'.drop k = b.drop k ∧ (v = .null ∨ ∃ j : Nat, v = .ptr o j ∧ i < j ∧ j ≤ i + 4 ∧ j ≤ k) := by
  have hr := run_encode (n := n) (i := i) (e := some k) hs ⟨by omega, by omega⟩
  obtain ⟨r, b', hx, l1, l2, l3, l4⟩ := utf8_encode_any_safe n b i k hi hk
  rw [show V.ptr o (k : Int) = endAt o (some k) from rfl, hr, hx]
  rcases r with _ | j
  · exact ⟨_, b', (returns_pure _ _).mpr rfl, l1, l2, l3, .inl rfl⟩
  · exact ⟨_, b', (returns_pure _ _).mpr rfl, l1, l2, l3, .inr ⟨j, rfl, l4 j rfl⟩⟩

/-- C146. The changed memory: `withObj` changes the object `o` and nothing else. -/
theorem source_encode_memory {rows rows' : List Row} (hs : find o m = some rows) :
    find o (withObj o rows' m) = some rows' ∧ ∀ o', o' ≠ o → find o' (withObj o rows' m) = find o' m := by
  refine ⟨find_withObj hs, fun o' ho => ?_⟩
  induction m with
  | nil => cases hs
  | cons p m ih =>
    obtain ⟨x, v⟩ := p
    by_cases hx : o = x
    · subst hx
      simp [withObj, replace, find, ho]
    · simp only [find, hx, if_false] at hs
      have ih := ih hs
      obtain ⟨M', h1, _, _⟩ := replace_found (b := rows') hs
      simp only [withObj, h1, Option.getD_some] at ih
      simp only [withObj, replace, hx, if_false, h1, Option.map_some, Option.getD_some, find, ih]

/-- C146. A NULL `s` is passed on: the decoder and the encoder return NULL and the validators false. -/
theorem source_utf8_null (o : Str) (e : Option Nat) (x : Option V) (n : Int) (m : Mem) :
    Returns (run utf8Headers utf8 c!"charstr_decode_utf8_codepoint" [(strT, .null), (strT, endAt o e), (.ptr intT, outArg x)] m) ((strT, .null), m) ∧
    Returns (run utf8Headers utf8 c!"charstr_encode_utf8_codepoint" [(intT, .num n), (strT, .null), (strT, endAt o e)] m) ((strT, .null), m) ∧
    Returns (run utf8Headers utf8 c!"charstr_valid_utf8_bounded" [(strT, .null), (strT, endAt o e)] m) ((.bool, .num 0), m) ∧
    Returns (run utf8Headers utf8 c!"charstr_valid_utf8" [(strT, .null)] m) ((.bool, .num 0), m) := by
  obtain ⟨h1, h2, h3, h4⟩ := run_null o e x n m
  rw [h1, h2, h3, h4]
  exact ⟨(returns_pure _ _).mpr rfl, (returns_pure _ _).mpr rfl, (returns_pure _ _).mpr rfl, (returns_pure _ _).mpr rfl⟩

/-- "x", U+20AC and NUL. -/
def example146 : Mem := [(c!"u", bytes [120, 0xE2, 0x82, 0xAC, 0, 9])]

theorem example146_u : Input example146 c!"u" 1 none [0xE2, 0x82, 0xAC, 0] :=
  ⟨by decide, [120, 0xE2, 0x82, 0xAC, 0, 9], [9], by simp [example146, find], rfl, .inr ⟨rfl, [0xE2, 0x82, 0xAC], rfl, by decide⟩⟩

example : Returns (run utf8Headers utf8 c!"charstr_decode_utf8_codepoint" [(strT, .ptr c!"u" (1 : Nat)), (strT, .null), (.ptr intT, .ptr c!"*codepoint" 0)]
      ((c!"*codepoint", [[([], .undef)]]) :: example146))
    ((strT, .ptr c!"u" (4 : Nat)), (c!"*codepoint", [[([], .num (0x20AC : Nat))]]) :: example146) :=
  (source_decode example146_u (some .undef)).1 [0xE2, 0x82, 0xAC] 0x20AC [0] ⟨by decide, 3, by decide, by decide, by decide, by decide⟩ rfl

/-- The same bytes with an `end` inside the encoding. -/
example : Returns (run utf8Headers utf8 c!"charstr_decode_utf8_codepoint" [(strT, .ptr c!"u" (1 : Nat)), (strT, .ptr c!"u" (3 : Nat)), (.ptr intT, .null)] example146)
    ((strT, .null), example146) := by
  have h : Input example146 c!"u" 1 (some 3) [0xE2, 0x82] :=
    ⟨by decide, [120, 0xE2, 0x82, 0xAC, 0, 9], [0xAC, 0, 9], by simp [example146, find], rfl, .inl rfl⟩
  refine (source_decode h none).2 fun p cp r hp heq => ?_
  have := (decode_some (s := [0xE2, 0x82]) (s' := r) (lim := some 2) (lim' := some (2 - p.length)) (cp := cp)).mpr
    ⟨p, hp, heq, by have := congrArg List.length heq; simp [Room] at this ⊢; omega, rfl⟩
  have h' : decode ([0xE2, 0x82], some 2) = .ok none := by decide +kernel
  rw [h'] at this
  cases this

example : Returns (run utf8Headers utf8 c!"charstr_encode_utf8_codepoint" [(intT, .num (0xE9 : Nat)), (strT, .ptr c!"u" (1 : Nat)), (strT, .ptr c!"u" (3 : Nat))] example146)
    ((strT, .ptr c!"u" (3 : Nat)), [(c!"u", bytes [120, 0xC3, 0xA9, 0xAC, 0, 9])]) :=
  (source_encode (cp := 0xE9) (n := 3) (by decide) (b := [120, 0xE2, 0x82, 0xAC, 0, 9]) (by simp [example146, find]) (by decide) (by decide)).1 (by decide)

/-- U+20AC is valid; cut off by the `end` it is not. -/
example : Returns (run utf8Headers utf8 c!"charstr_valid_utf8" [(strT, .ptr c!"u" (1 : Nat))] example146) ((.bool, .num 1), example146) ∧
    Returns (run utf8Headers utf8 c!"charstr_valid_utf8_bounded" [(strT, .ptr c!"u" (1 : Nat)), (strT, .ptr c!"u" (3 : Nat))] example146) ((.bool, .num 0), example146) := by
  have hu : find c!"u" example146 = some (bytes [120, 0xE2, 0x82, 0xAC, 0, 9]) := by simp [example146, find]
  obtain ⟨v, h, hv⟩ := source_valid (a := [0xE2, 0x82, 0xAC]) (t := [9]) (i := 1) (by decide) hu rfl (by decide)
  obtain ⟨w, h', hw⟩ := source_valid_bounded (b := [0xE2, 0x82]) (t := [0xAC, 0, 9]) (i := 1) (by decide) hu rfl
  have h1 : v = true := hv.mpr ⟨[0x20AC], .cons (p := [0xE2, 0x82, 0xAC]) ⟨by decide, 3, by decide, by decide, by decide, by decide⟩ .nil⟩
  have h2 : w = false := by
    rw [Bool.eq_false_iff, ne_eq, hw]
    rintro ⟨cps, hc⟩
    generalize hb : ([0xE2, 0x82] : List UInt8) = b at hc
    cases hc with
    | nil => cases hb
    | @cons p cp r cps hp _ =>
      have := (decode_some (s := [0xE2, 0x82]) (s' := r) (lim := some 2) (lim' := some (2 - p.length)) (cp := cp)).mpr
        ⟨p, hp, hb, by have := congrArg List.length hb; simp [Room] at this ⊢; omega, rfl⟩
      have h' : decode ([0xE2, 0x82], some 2) = .ok none := by decide +kernel
      rw [h'] at this
      cases this
  subst h1 h2
  exact ⟨h, h'⟩

/-- An `end` behind the object: the byte that is missing is read. -/
example : run utf8Headers utf8 c!"charstr_decode_utf8_codepoint" [(strT, .ptr c!"w" (0 : Nat)), (strT, .ptr c!"w" (2 : Nat)), (.ptr intT, .null)] [(c!"w", bytes [0xC3])] =
    liftC (.error .ub) := by
  exact (run_decode (x := none) (o := c!"w") (i := 0) (e := some 2) (s := [0xC3]) (m := [(c!"w", bytes [0xC3])]) (by decide) (by simp [find]) (by intro n hn; cases hn; omega)).trans rfl

end Verif.Source
