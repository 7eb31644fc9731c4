import Verif.Proofs.Base64Final

/-! Properties C34 to C40: `base64.c`. -/

namespace Verif.Base64
open Verif.Spec.Base64

/-- The standard alphabet, and the one used for `-1, -1`. -/
theorem alphabet_std : Alphabet 43 47 := by
  refine ⟨by decide, ?_⟩
  rintro c (rfl | rfl) <;> decide

/-- The URL-safe alphabet of RFC 4648 section 5. -/
theorem alphabet_url : Alphabet 45 95 := by
  refine ⟨by decide, ?_⟩
  rintro c (rfl | rfl) <;> decide

/-! ### C35, C34: the encoder -/

/-- C35. For every source, destination and alphabet the encoder stays inside the destination, returns the length of the full
encoding, and leaves the longest prefix that fits followed by a NUL. -/
theorem base64_encode_truncates (src dest : List UInt8) (pos62 pos63 : UInt8) :
    ∃ out, encodeBuffer src dest pos62 pos63 = .ok ((encode (dflt pos62 43) (dflt pos63 47) src).length, out) ∧
      out.length = dest.length ∧
      (dest ≠ [] → ∃ k, k = min (encode (dflt pos62 43) (dflt pos63 47) src).length (dest.length - 1) ∧
        out.take k = (encode (dflt pos62 43) (dflt pos63 47) src).take k ∧ out[k]? = some 0 ∧
        out.drop (k + 1) = dest.drop (k + 1)) := by
  refine ⟨_, encodeBuffer_spec src dest pos62 pos63, ?_, ?_⟩
  · simp only
    split
    · simp; omega
    · split
      · simp; omega
      · simp; omega
  · intro hne
    have hpos : dest.length ≠ 0 := by simpa using hne
    refine ⟨_, rfl, ?_⟩
    simp only
    split
    · rename_i h
      rw [Nat.min_eq_left (by omega)]
      refine ⟨by simp, by simp, ?_⟩
      rw [List.drop_append]
      simp
    · rename_i h
      rw [Nat.min_eq_right (by omega)]
      refine ⟨?_, ?_, ?_⟩
      · rw [List.take_append_of_le_length (by simp; omega), List.take_take]; simp
      · rw [List.getElem?_append_right (by simp)]
        have : dest.length - 1 - ((encode (dflt pos62 43) (dflt pos63 47) src).take (dest.length - 1)).length = 0 := by
          simp; omega
        rw [this]; rfl
      · rw [List.drop_eq_nil_of_le (by simp), List.drop_eq_nil_of_le (by omega)]

example : encodeBuffer [1, 2, 3, 4] (List.replicate 6 9) 0xFF 0xFF = .ok (8, [65, 81, 73, 68, 66, 0]) := by decide +kernel

/-- C34. With room for the text and its NUL the encoder writes exactly the RFC 4648 encoding. -/
theorem base64_encode_rfc4648 (src dest : List UInt8) (pos62 pos63 : UInt8)
    (hroom : (encode (dflt pos62 43) (dflt pos63 47) src).length < dest.length) :
    encodeBuffer src dest pos62 pos63 = .ok ((encode (dflt pos62 43) (dflt pos63 47) src).length,
      encode (dflt pos62 43) (dflt pos63 47) src ++ 0 :: dest.drop ((encode (dflt pos62 43) (dflt pos63 47) src).length + 1)) := by
  rw [encodeBuffer_spec]; simp [hroom]

example : (encode (dflt 0xFF 43) (dflt 0xFF 47) [77, 97]).length < (List.replicate 5 (0 : UInt8)).length := by decide

/-- The length of an encoding. -/
theorem encode_length (p62 p63 : UInt8) (bs : List UInt8) : (encode p62 p63 bs).length = (bs.length + 2) / 3 * 4 := by
  simp only [encode, List.length_append, List.length_map]
  induction bs using digits.induct with
  | case1 => simp [digits, pad]
  | case2 a => simp [digits, pad]
  | case3 a b => simp [digits, pad]
  | case4 a b c rest ih =>
    have hp : pad (a :: b :: c :: rest).length = pad rest.length := by
      simp only [pad, List.length_cons, Nat.add_assoc, Nat.reduceAdd, Nat.add_mod_right]
    rw [hp]
    simp only [digits, List.length_cons] at ih ⊢
    omega

/-! ### C40 -/

/-- C40. `base64_encoding_size` is `4 * ceil(n / 3)`, or `-1` exactly when that does not fit in 64 bits. -/
theorem base64_encoding_size_exact (n : UInt64) :
    (encodingSize n).toNat = if (n.toNat + 2) / 3 * 4 < 2 ^ 64 then (n.toNat + 2) / 3 * 4 else 2 ^ 64 - 1 := by
  have hn := n.toNat_lt
  simp only [encodingSize]
  have e : ((n + 2) / 3 * 4).toNat = (n.toNat + 2) % 2 ^ 64 / 3 * 4 % 2 ^ 64 := by
    simp [UInt64.toNat_mul, UInt64.toNat_div, UInt64.toNat_add]
  have em : (-1 : UInt64).toNat = 2 ^ 64 - 1 := by decide
  by_cases hw : n.toNat + 2 < 2 ^ 64
  · rw [Nat.mod_eq_of_lt hw] at e
    split
    · rename_i h
      rw [UInt64.lt_iff_toNat_lt, e] at h
      rw [em, if_neg (by omega)]
    · rename_i h
      rw [UInt64.lt_iff_toNat_lt, e] at h
      have : (n.toNat + 2) / 3 * 4 < 2 ^ 64 := by
        by_contra hc
        have : (n.toNat + 2) / 3 * 4 % 2 ^ 64 = (n.toNat + 2) / 3 * 4 - 2 ^ 64 := by omega
        omega
      rw [e, if_pos this]; omega
  · have e0 : (n.toNat + 2) % 2 ^ 64 / 3 * 4 % 2 ^ 64 = 0 := by omega
    rw [e0] at e
    rw [if_pos (by rw [UInt64.lt_iff_toNat_lt, e]; omega), em, if_neg (by omega)]

example : encodingSize 10 = 16 ∧ encodingSize 13835058055282163713 = -1 := by decide +kernel

/-- C34, second part. `base64_encode_simple` returns the NUL-terminated encoding in a block of exactly that size. -/
theorem base64_encode_simple_correct (fresh : Nat → List UInt8) (hf : ∀ n, (fresh n).length = n) (buffer : List UInt8)
    (hobj : buffer.length < 2 ^ 63) :
    encodeSimple fresh buffer = .ok (some (encode 43 47 buffer ++ [0])) := by
  have e := base64_encoding_size_exact (UInt64.ofNat buffer.length)
  have hb : (UInt64.ofNat buffer.length).toNat = buffer.length := by
    rw [UInt64.toNat_ofNat']; omega
  rw [hb, if_pos (by omega)] at e
  have hne : encodingSize (UInt64.ofNat buffer.length) ≠ -1 := by
    intro h
    rw [h] at e
    have em : (-1 : UInt64).toNat = 2 ^ 64 - 1 := by decide
    omega
  have e1 : (encodingSize (UInt64.ofNat buffer.length) + 1).toNat = (buffer.length + 2) / 3 * 4 + 1 := by
    rw [UInt64.toNat_add, e]
    have : (1 : UInt64).toNat = 1 := by decide
    omega
  simp only [encodeSimple, hne, if_false, e1, bind, Except.bind]
  have d1 : dflt 0xFF 43 = 43 := by decide
  have d2 : dflt 0xFF 47 = 47 := by decide
  rw [base64_encode_rfc4648 _ _ _ _ (by rw [encode_length, hf]; omega), d1, d2]
  simp only [pure, Except.pure]
  rw [List.drop_eq_nil_of_le (by rw [encode_length, hf])]

example : encodeSimple (fun n => List.replicate n 170) [255, 254] = .ok (some [47, 47, 52, 61, 0]) := by decide +kernel

/-! ### C37, C38: the decoder -/

/-- C37, restricted to texts without the codes 127 and 255, for which the decoding table is wrong: a valid encoding is
accepted with the decoded length as result and the decoded bytes stored as far as they fit; everything else is EILSEQ. -/
theorem base64_decode_accepts_exactly_partial (src : List UInt8) (n : Nat) (dest : List UInt8) (pos62 pos63 : UInt8)
    (ign : Bool) (hr : Readable src n) (hobj : src.length < 2 ^ 63) (ha : Alphabet (dflt pos62 43) (dflt pos63 47))
    (h127 : (127 : UInt8) ∉ text src n) (h255 : (255 : UInt8) ∉ text src n) :
    (∀ bs, Valid (dflt pos62 43) (dflt pos63 47) ign (text src n) bs →
      decodeBuffer src n dest pos62 pos63 ign = .ok (.count bs.length, over dest bs)) ∧
    ((¬ ∃ bs, Valid (dflt pos62 43) (dflt pos63 47) ign (text src n) bs) →
      ∃ d : List UInt8, d.length = dest.length ∧ decodeBuffer src n dest pos62 pos63 ign = .ok (.eilseq, d)) := by
  refine ⟨fun bs hv => decode_valid src n dest pos62 pos63 ign hr hobj ha bs hv, fun hno => ?_⟩
  rcases decode_total src n dest pos62 pos63 ign hr hobj ha h127 h255 with h | h
  · exact h
  · exact absurd h hno

example : Readable [84, 87, 69, 61, 0] (2 ^ 64 - 1) ∧ Valid 43 47 true (text [84, 87, 32, 69, 61, 10, 0] 9) [77, 97] := by
  refine ⟨Or.inr (by simp), [84, 87, 32, 69], [10], by decide, by decide, by decide⟩

/-- C37 without restriction: every valid encoding is accepted, whatever the alphabet. -/
theorem base64_decode_complete (src : List UInt8) (n : Nat) (dest : List UInt8) (pos62 pos63 : UInt8)
    (ign : Bool) (hr : Readable src n) (hobj : src.length < 2 ^ 63) (ha : Alphabet (dflt pos62 43) (dflt pos63 47))
    (bs : List UInt8) (hv : Valid (dflt pos62 43) (dflt pos63 47) ign (text src n) bs) :
    decodeBuffer src n dest pos62 pos63 ign = .ok (.count bs.length, over dest bs) :=
  decode_valid src n dest pos62 pos63 ign hr hobj ha bs hv

/-- A valid text contains neither 127 nor 255. -/
theorem valid_no_bad {p62 p63 : UInt8} (ha : Alphabet p62 p63) (ign : Bool) (t bs : List UInt8)
    (hv : Valid p62 p63 ign t bs) : (127 : UInt8) ∉ t ∧ (255 : UInt8) ∉ t := by
  obtain ⟨d, w, ht, hd, hw⟩ := hv
  have hd' := List.append_cancel_right hd
  have key : ∀ c ∈ t, c ≠ 127 ∧ c ≠ 255 := by
    intro c hc
    rw [ht] at hc
    simp only [List.mem_append] at hc
    rcases hc with (hc | hc) | hc
    · by_cases hk : (!(ign && isWs c)) = true
      · have : c ∈ d.filter (fun c => !(ign && isWs c)) := List.mem_filter.mpr ⟨hc, hk⟩
        rw [hd', List.mem_map] at this
        obtain ⟨v, _, rfl⟩ := this
        by_cases h : v < 62
        · obtain ⟨_, hr⟩ := decoding_digit ⟨v, h⟩ p62 p63
          simp only at hr
          constructor <;> (intro e; rw [e] at hr; revert hr; decide)
        · simp only [digit]
          rw [if_neg (by omega), if_neg (by omega), if_neg (by omega)]
          split
          · exact (ha.2 p62 (Or.inl rfl)).2.2.2.2.2.2
          · exact (ha.2 p63 (Or.inr rfl)).2.2.2.2.2.2
      · simp only [Bool.not_eq_true, Bool.not_eq_false', Bool.and_eq_true] at hk
        constructor <;> (rintro rfl; have := hk.2; revert this; decide)
    · simp only [pad] at hc
      rw [List.eq_of_mem_replicate hc]; decide
    · have := (hw c hc).2
      constructor <;> (rintro rfl; revert this; decide)
  exact ⟨fun h => (key _ h).1 rfl, fun h => (key _ h).2 rfl⟩

/-- What the decoding table makes of the two codes for which it is wrong: 127 counts as a space and 255 as `A`. -/
def amend (c : UInt8) : UInt8 := if c = 127 then 32 else if c = 255 then 65 else c

theorem amend_zero (c : UInt8) : (amend c = 0 ↔ c = 0) ∧ (amend c = 61 ↔ c = 61) := by
  simp only [amend]; split
  · subst_vars; decide
  · split
    · subst_vars; decide
    · simp

theorem decodingOf_amend (c : UInt8) : decodingOf (amend c) = decodingOf c := by
  simp only [amend]; split
  · subst_vars; decide
  · split
    · subst_vars; decide
    · rfl

theorem getBits_amend {p62 p63 : UInt8} (ha : Alphabet p62 p63) (ign : Bool) (c : UInt8) : getBits (amend c) p62 p63 ign = getBits c p62 p63 ign := by
  have key : ∀ {d : UInt8}, (d = p62 ∨ d = p63) → d ≠ 32 ∧ d ≠ 65 ∧ d ≠ 127 ∧ d ≠ 255 := by
    intro d hd
    obtain ⟨h1, _, _, _, _, h2, h3, h4⟩ := ha.2 d hd
    refine ⟨?_, ?_, h3, h4⟩
    · rintro rfl; revert h2; decide
    · rintro rfl; revert h1; decide
  have e : ∀ {d : UInt8}, (d = p62 ∨ d = p63) → (amend c = d ↔ c = d) := by
    intro d hd
    obtain ⟨h1, h2, h3, h4⟩ := key hd
    simp only [amend]
    split
    · subst_vars; exact ⟨fun h => absurd h.symm h1, fun h => absurd h.symm h3⟩
    · split
      · subst_vars; exact ⟨fun h => absurd h.symm h2, fun h => absurd h.symm h4⟩
      · rfl
  simp only [getBits, e (Or.inl rfl), e (Or.inr rfl), decodingOf_amend]

theorem decLoop1_amend {p62 p63 : UInt8} (ha : Alphabet p62 p63) (ign : Bool) (src : List UInt8) : ∀ (left : Nat) (dest : List UInt8) (pi : Nat)
    (bits : UInt32) (bc : Nat), decLoop1 p62 p63 ign (src.map amend) left dest pi bits bc =
      (decLoop1 p62 p63 ign src left dest pi bits bc).map fun x => x.map fun s => { s with src := s.src.map amend } := by
  induction src with
  | nil =>
    intro left dest pi bits bc
    rw [List.map_nil, decLoop1]
    split <;> rfl
  | cons c r ih =>
    intro left dest pi bits bc
    rw [List.map_cons, decLoop1]
    conv_rhs => rw [decLoop1]
    simp only [getBits_amend ha, ne_eq, amend_zero]
    split
    · split
      · split
        · split
          · exact ih _ _ _ _ _
          · rfl
        · split
          · cases wr dest pi _ with
            | error e => rfl
            | ok d => exact ih _ _ _ _ _
          · exact ih _ _ _ _ _
      · rfl
    · rfl

theorem decLoop2_amend {p62 p63 : UInt8} (ha : Alphabet p62 p63) (ign : Bool) (src : List UInt8) : ∀ (left pi : Nat) (bits : UInt32) (bc : Nat),
    decLoop2 p62 p63 ign (src.map amend) left pi bits bc =
      (decLoop2 p62 p63 ign src left pi bits bc).map fun x => x.map fun s => (s.1.map amend, s.2) := by
  induction src with
  | nil =>
    intro left pi bits bc
    rw [List.map_nil, decLoop2]
    split <;> rfl
  | cons c r ih =>
    intro left pi bits bc
    rw [List.map_cons, decLoop2]
    conv_rhs => rw [decLoop2]
    simp only [getBits_amend ha, ne_eq, amend_zero]
    split
    · split
      · split
        · split
          · exact ih _ _ _ _
          · rfl
        · split
          · exact ih _ _ _ _
          · exact ih _ _ _ _
      · rfl
    · rfl

theorem hasPrefix_amend (t : List UInt8) : ∀ p : List UInt8, (∀ c ∈ p, c = 61) → hasPrefix (t.map amend) p = hasPrefix t p := by
  induction t with
  | nil => intro p _; rfl
  | cons c t ih =>
    intro p hp
    cases p with
    | nil => rfl
    | cons d p =>
      obtain rfl := hp d (by simp)
      simp only [List.map_cons, hasPrefix, amend_zero]
      rw [ih p fun c hc => hp c (by simp [hc])]

theorem goodTermination_amend (t : List UInt8) (n : Nat) (ign : Bool) : goodTermination (t.map amend) n ign = goodTermination t n ign := by
  simp only [goodTermination]
  split
  · split
    · rfl
    · cases t with
      | nil => rfl
      | cons c t => simp only [List.map_cons, amend_zero]
  · induction t generalizing n with
    | nil => rfl
    | cons c t ih =>
      cases n with
      | zero => simp [goodTermination.loop]
      | succ n => simp only [List.map_cons, goodTermination.loop, amend_zero, decodingOf_amend, ih]

theorem goodTail_amend (t : List UInt8) (n bc : Nat) (ign : Bool) : goodTail (t.map amend) n bc ign = goodTail t n bc ign := by
  simp only [goodTail]
  split
  · rfl
  · split <;> simp only [← List.map_drop, goodTermination_amend, pure_bind] <;> first | rw [hasPrefix_amend _ _ (by simp)] | rfl

theorem text_amend (src : List UInt8) (n : Nat) : text (src.map amend) n = (text src n).map amend := by
  simp only [text, ← List.map_take]
  rw [List.takeWhile_map]
  congr 2
  funext c
  simp [amend_zero]

theorem decodeBuffer_amend (src : List UInt8) (n : Nat) (dest : List UInt8) (pos62 pos63 : UInt8) (ign : Bool)
    (ha : Alphabet (dflt pos62 43) (dflt pos63 47)) : decodeBuffer (src.map amend) n dest pos62 pos63 ign = decodeBuffer src n dest pos62 pos63 ign := by
  simp only [decodeBuffer, decLoop1_amend ha]
  cases decLoop1 (dflt pos62 43) (dflt pos63 47) ign src n dest 0 0 0 with
  | error e => rfl
  | ok x =>
    cases x with
    | error d => rfl
    | ok s =>
      simp only [Except.map, bind, Except.bind, decLoop2_amend ha]
      cases decLoop2 (dflt pos62 43) (dflt pos63 47) ign s.src s.left s.pi s.bits s.bitCount with
      | error e => rfl
      | ok y =>
        cases y with
        | none => rfl
        | some y =>
          obtain ⟨src', left, pi, bits, bc⟩ := y
          simp only [Option.map_some, goodTail_amend]

/-- C37 as the code has it, for all texts: those are accepted that are valid encodings once 127 is read as a space and 255 as `A`. -/
theorem base64_decode_actual (src : List UInt8) (n : Nat) (dest : List UInt8) (pos62 pos63 : UInt8) (ign : Bool) (hr : Readable src n)
    (hobj : src.length < 2 ^ 63) (ha : Alphabet (dflt pos62 43) (dflt pos63 47)) :
    (∀ bs, Valid (dflt pos62 43) (dflt pos63 47) ign ((text src n).map amend) bs →
      decodeBuffer src n dest pos62 pos63 ign = .ok (.count bs.length, over dest bs)) ∧
    ((¬ ∃ bs, Valid (dflt pos62 43) (dflt pos63 47) ign ((text src n).map amend) bs) →
      ∃ d : List UInt8, d.length = dest.length ∧ decodeBuffer src n dest pos62 pos63 ign = .ok (.eilseq, d)) := by
  have bad : ∀ b : UInt8, b = 127 ∨ b = 255 → b ∉ (text src n).map amend := by
    intro b hb hm
    obtain ⟨c, _, hc⟩ := List.mem_map.1 hm
    simp only [amend] at hc
    split at hc
    · subst hc; revert hb; decide
    · split at hc
      · subst hc; revert hb; decide
      · subst hc; tauto
  have hr' : Readable (src.map amend) n := by
    rcases hr with h | h
    · exact Or.inl (by simpa using h)
    · exact Or.inr (List.mem_map.2 ⟨0, h, by decide⟩)
  have := base64_decode_accepts_exactly_partial (src.map amend) n dest pos62 pos63 ign hr' (by simpa using hobj) ha
    (by rw [text_amend]; exact bad _ (Or.inl rfl)) (by rw [text_amend]; exact bad _ (Or.inr rfl))
  rwa [text_amend, decodeBuffer_amend _ _ _ _ _ _ ha] at this

/-- `"Q\xff=="` is read as `"QA=="`. -/
example : Valid 43 47 true ((text [81, 255, 127, 61, 61, 0] 9).map amend) [64] := by
  refine ⟨[81, 65, 32], [], by decide, by decide, by decide⟩

/-- C37 fails without the restriction: `"QQ==\x7f"` is accepted although DEL is not whitespace. -/
theorem base64_decode_accepts_del :
    decodeBuffer [81, 81, 61, 61, 127, 0] (2 ^ 64 - 1) [] 0xFF 0xFF true = .ok (.count 1, []) ∧
      ¬ ∃ bs, Valid 43 47 true (text [81, 81, 61, 61, 127, 0] (2 ^ 64 - 1)) bs := by
  refine ⟨by decide +kernel, ?_⟩
  rintro ⟨bs, hv⟩
  exact (valid_no_bad alphabet_std _ _ _ hv).1 (by decide +kernel)

/-- C37 fails without the restriction: the byte 255 is accepted in place of `A`. -/
theorem base64_decode_accepts_ff :
    decodeBuffer [255, 81, 61, 61, 0] (2 ^ 64 - 1) [7] 0xFF 0xFF false = .ok (.count 1, [1]) ∧
      ¬ ∃ bs, Valid 43 47 false (text [255, 81, 61, 61, 0] (2 ^ 64 - 1)) bs := by
  refine ⟨by decide +kernel, ?_⟩
  rintro ⟨bs, hv⟩
  exact (valid_no_bad alphabet_std _ _ _ hv).2 (by decide +kernel)

/-- C36. Round trip at the level of the two C functions: encoding into a large enough buffer and decoding that buffer
returns the source bytes, for every source, alphabet and whitespace mode. -/
theorem base64_round_trip (src dest dst2 : List UInt8) (pos62 pos63 : UInt8) (ign : Bool)
    (ha : Alphabet (dflt pos62 43) (dflt pos63 47)) (hroom : (src.length + 2) / 3 * 4 < dest.length)
    (hobj : dest.length < 2 ^ 63) :
    ∃ out, encodeBuffer src dest pos62 pos63 = .ok ((src.length + 2) / 3 * 4, out) ∧
      decodeBuffer out (2 ^ 64 - 1) dst2 pos62 pos63 ign = .ok (.count src.length, over dst2 src) := by
  have hl := encode_length (dflt pos62 43) (dflt pos63 47) src
  refine ⟨_, by rw [base64_encode_rfc4648 _ _ _ _ (by omega), hl], ?_⟩
  apply decode_valid
  · right; simp
  · simp; omega
  · exact ha
  · have hmem : ∀ c ∈ encode (dflt pos62 43) (dflt pos63 47) src, c ≠ 0 ∧ isWs c = false := by
      intro c hc
      simp only [encode, List.mem_append, List.mem_map] at hc
      rcases hc with ⟨v, _, rfl⟩ | hc
      · by_cases h : v < 62
        · obtain ⟨_, hr⟩ := decoding_digit ⟨v, h⟩ (dflt pos62 43) (dflt pos63 47)
          simp only at hr
          revert hr
          generalize digit (dflt pos62 43) (dflt pos63 47) v = c
          exact u8_forall (P := fun c => (65 ≤ c ∧ c ≤ 90 ∨ 97 ≤ c ∧ c ≤ 122 ∨ 48 ≤ c ∧ c ≤ 57) → c ≠ 0 ∧ isWs c = false)
            (by decide +kernel) c
        · simp only [digit]
          rw [if_neg (by omega), if_neg (by omega), if_neg (by omega)]
          split
          · exact ⟨(ha.2 _ (Or.inl rfl)).2.2.2.2.1, (ha.2 _ (Or.inl rfl)).2.2.2.2.2.1⟩
          · exact ⟨(ha.2 _ (Or.inr rfl)).2.2.2.2.1, (ha.2 _ (Or.inr rfl)).2.2.2.2.2.1⟩
      · simp only [pad] at hc
        rw [List.eq_of_mem_replicate hc]; decide
    have ht : text (encode (dflt pos62 43) (dflt pos63 47) src ++ 0 :: dest.drop ((encode (dflt pos62 43) (dflt pos63 47) src).length + 1))
        (2 ^ 64 - 1) = encode (dflt pos62 43) (dflt pos63 47) src := by
      rw [text, List.take_append, List.take_of_length_le (by omega), takeWhile_append_of_all]
      · obtain ⟨k, hk⟩ : ∃ k, 2 ^ 64 - 1 - (encode (dflt pos62 43) (dflt pos63 47) src).length = k + 1 :=
          ⟨2 ^ 64 - 2 - (encode (dflt pos62 43) (dflt pos63 47) src).length, by omega⟩
        rw [hk]; simp
      · intro c hc; simpa using (hmem c hc).1
    rw [hl] at ht
    rw [ht]
    refine ⟨(digits src).map (digit (dflt pos62 43) (dflt pos63 47)), [], by simp [encode], ?_, by simp⟩
    rw [encode]
    congr 1
    rw [List.filter_eq_self]
    intro c hc
    have := (hmem c (by rw [encode]; simp only [List.mem_append]; exact Or.inl hc)).2
    simp [this]

example : ([1, 2, 3, 4].length + 2) / 3 * 4 < (List.replicate 20 (0 : UInt8)).length ∧ Alphabet (dflt 45 43) (dflt 95 47) :=
  ⟨by decide, alphabet_url⟩

theorem getBits_lt (c p62 p63 : UInt8) (ign : Bool) : (getBits c p62 p63 ign).toNat < 64 := by
  have h : ∀ c : UInt8, (decodingOf c).toNat < 64 := by
    refine fun c => u8_forall (P := fun c => (decodingOf c).toNat < 64) ?_ c
    decide +kernel
  have := h c
  unfold getBits
  split; · decide
  split; · decide
  simp only
  split; · decide
  split
  · split
    · decide
    · omega
  · omega

theorem vals_lt (p62 p63 : UInt8) (ign : Bool) (d : List UInt8) (vs : List Nat)
    (h : vals (getBits · p62 p63 ign) d = some vs) : ∀ v ∈ vs, v < 64 := by
  induction d generalizing vs with
  | nil => simp [vals] at h; subst h; simp
  | cons c r ih =>
    simp only [vals] at h
    split at h
    · split at h
      · exact ih vs h
      · simp at h
    · simp only [Option.map_eq_some_iff] at h
      obtain ⟨vs', e, rfl⟩ := h
      intro v hv
      simp only [List.mem_cons] at hv
      rcases hv with rfl | hv
      · exact getBits_lt _ _ _ _
      · exact ih vs' e v hv

/-- C38. The decoder never reads past the NUL or the given size, never writes outside the destination and never fails its
assertion, for every source, alphabet, size and mode; the result is a count or EILSEQ. -/
theorem base64_decode_safe (src : List UInt8) (n : Nat) (dest : List UInt8) (pos62 pos63 : UInt8) (ign : Bool)
    (hr : Readable src n) (hobj : src.length < 2 ^ 63) :
    ∃ r d, decodeBuffer src n dest pos62 pos63 ign = .ok (r, d) ∧ d.length = dest.length ∧ r ≠ .eoverflow := by
  rcases decode_char src n dest pos62 pos63 ign hr hobj (fun vs h => vals_lt _ _ _ _ vs h) with
    ⟨d, hd, e, _⟩ | ⟨vs, _, e, _⟩
  · exact ⟨_, d, e, hd, by simp⟩
  · exact ⟨_, _, e, by simp, by simp⟩

/-- The source read by the decoder is exactly the text: bytes beyond the size limit or the NUL do not matter. -/
theorem base64_decode_reads_text_only (src src' : List UInt8) (n n' : Nat) (dest : List UInt8) (pos62 pos63 : UInt8)
    (ign : Bool) (hr : Readable src n) (hr' : Readable src' n') (hobj : src.length < 2 ^ 63) (hobj' : src'.length < 2 ^ 63)
    (ht : text src n = text src' n') :
    ∃ r d d', decodeBuffer src n dest pos62 pos63 ign = .ok (r, d) ∧ decodeBuffer src' n' dest pos62 pos63 ign = .ok (r, d') := by
  rcases decode_char src n dest pos62 pos63 ign hr hobj (fun vs h => vals_lt _ _ _ _ vs h) with
    ⟨d, hd, e, hno⟩ | ⟨vs, hvs, e, hyes⟩ <;>
  rcases decode_char src' n' dest pos62 pos63 ign hr' hobj' (fun vs h => vals_lt _ _ _ _ vs h) with
    ⟨d', hd', e', hno'⟩ | ⟨vs', hvs', e', hyes'⟩
  · exact ⟨_, _, _, e, e'⟩
  · rw [ht] at hno; exact absurd hyes' (hno vs' hvs')
  · rw [← ht] at hno'; exact absurd hyes (hno' vs hvs)
  · rw [ht, hvs'] at hvs; cases hvs; exact ⟨_, _, _, e, e'⟩

/-- C37/C38 for `base64_decode_simple`: a valid string gives a block with the decoded bytes and a NUL, and the count. -/
theorem base64_decode_simple_correct (fresh : Nat → List UInt8) (hf : ∀ n, (fresh n).length = n) (s bs : List UInt8)
    (h0 : (0 : UInt8) ∉ s) (hobj : s.length + 1 < 2 ^ 63) (hv : Valid 43 47 true s bs) :
    decodeSimple fresh (s ++ [0]) = .ok (some (bs ++ [0], bs.length)) := by
  have ht : text (s ++ [0]) (2 ^ 64 - 1) = s := by
    rw [text, List.take_of_length_le (by simp; omega), takeWhile_append_of_all]
    · simp
    · intro c hc; simp only [ne_eq, decide_not, Bool.not_eq_eq_eq_not, Bool.not_true, decide_eq_false_iff_not]; rintro rfl; exact h0 hc
  have d1 : dflt 0xFF 43 = 43 := by decide
  have d2 : dflt 0xFF 47 = 47 := by decide
  have key : ∀ dest, decodeBuffer (s ++ [0]) (2 ^ 64 - 1) dest 0xFF 0xFF true = .ok (.count bs.length, over dest bs) := by
    intro dest
    apply decode_valid
    · right; simp
    · simp; omega
    · rw [d1, d2]; exact alphabet_std
    · rw [d1, d2, ht]; exact hv
  simp only [decodeSimple, key, bind, Except.bind]
  have hl : ((fresh (bs.length + 1)).take bs.length).length = bs.length := by simp [hf]
  have ho : over ((fresh (bs.length + 1)).take bs.length) bs = bs := by
    rw [over_full (by omega), hl, List.take_length]
  rw [ho, wr_ok (by simp [hf])]
  simp only [pure, Except.pure]
  congr 3
  have : (fresh (bs.length + 1)).drop bs.length = [(fresh (bs.length + 1))[bs.length]'(by rw [hf]; omega)] := by
    rw [List.drop_eq_getElem_cons (by rw [hf]; omega), List.drop_eq_nil_of_le (by rw [hf])]
  rw [this]; simp

example : Valid 43 47 true [84, 87, 69, 61] [77, 97] := ⟨[84, 87, 69], [], by decide, by decide, by decide⟩

/-- C38 for `base64_decode_simple`: it is safe on every C string. -/
theorem base64_decode_simple_safe (fresh : Nat → List UInt8) (hf : ∀ n, (fresh n).length = n) (s : List UInt8)
    (hobj : s.length + 1 < 2 ^ 63) : ∃ r, decodeSimple fresh (s ++ [0]) = .ok r := by
  have hr : Readable (s ++ [0]) (2 ^ 64 - 1) := Or.inr (by simp)
  have ho : (s ++ [0]).length < 2 ^ 63 := by simp; omega
  simp only [decodeSimple, bind, Except.bind]
  obtain ⟨r, d, e, hd, _⟩ := base64_decode_safe (s ++ [0]) (2 ^ 64 - 1) [] 0xFF 0xFF true hr ho
  rw [e]
  cases r with
  | count n =>
    obtain ⟨r, d', e', hd', _⟩ := base64_decode_safe (s ++ [0]) (2 ^ 64 - 1) ((fresh (n + 1)).take n) 0xFF 0xFF true hr ho
    simp only [e']
    rw [wr_ok (by simp [hd', hf])]
    exact ⟨_, rfl⟩
  | eilseq => exact ⟨_, rfl⟩
  | eoverflow => exact ⟨_, rfl⟩

/-! ### C39 -/

/-- The documentation of `base64_bitfield_decoding` (base64.h:57-71). -/
def docDecoding (c : UInt8) : Int :=
  if 65 ≤ c ∧ c ≤ 90 then (c.toNat : Int) - 65
  else if 97 ≤ c ∧ c ≤ 122 then (c.toNat : Int) - 97 + 26
  else if 48 ≤ c ∧ c ≤ 57 then (c.toNat : Int) - 48 + 52
  else if c = 43 then 62
  else if c = 47 then 63
  else if isWs c then -2
  else if c = 61 then -3
  else if c = 0 then -4
  else -1

/-- C39 is false for codes 127 and 255. -/
theorem base64_decoding_table_wrong :
    decodingOf 127 = -2 ∧ docDecoding 127 = -1 ∧ decodingOf 255 = 0 ∧ docDecoding 255 = -1 := by decide +kernel

/-- C39 for all other codes: the table is as documented. -/
theorem base64_decoding_table_partial (c : UInt8) (h1 : c ≠ 127) (h2 : c ≠ 255) : decodingOf c = docDecoding c := by
  revert h1 h2
  refine u8_forall (P := fun c => c ≠ 127 → c ≠ 255 → decodingOf c = docDecoding c) ?_ c
  decide +kernel

end Verif.Base64
