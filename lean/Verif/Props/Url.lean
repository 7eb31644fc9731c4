import Verif.Proofs.Url

/-! Properties C62-C65: URL encoding and decoding. -/

namespace Verif.Url
open Verif.Charstr Verif.Spec.Url Verif.Spec.Charstr
open Verif.BA (Junk malloc)

/-- The round trip for any encoder whose texts denote their bytes. -/
theorem round_trip {enc : Encoder} {f : UInt8 → List UInt8} (g : Good enc f) (plus : Bool) (s t : List UInt8) (h : 0 ∉ s)
    (hf : ∀ c ∈ s, ∀ cs, denote plus (f c ++ cs) = (denote plus cs).map (c :: ·)) (junk junk' : Junk) :
    ∃ e, customEncode junk enc (s ++ 0 :: t) = .ok e ∧ urlDecode junk' e plus = .ok (some (s ++ [0], s.length)) := by
  obtain ⟨rest, e⟩ := customEncode_spec g junk s t h
  refine ⟨_, e, ?_⟩
  have hc : 0 ∉ s.flatMap f := by
    rw [List.mem_flatMap]; rintro ⟨c, -, hx⟩; exact g.clean c hx
  rw [urlDecode_spec junk' plus _ rest hc]
  have : denote plus (s.flatMap f) = some s := by
    clear e hc h
    induction s with
    | nil => simp [denote]
    | cons c s ih =>
      rw [List.flatMap_cons, hf c (by simp), ih (fun d hd => hf d (by simp [hd]))]
      rfl
  rw [this]; rfl

theorem actual_denotes (c : UInt8) (cs : List UInt8) : denote true (actual c ++ cs) = (denote true cs).map (c :: ·) := by
  by_cases h : c = 32
  · subst h; exact denote_space cs
  · simp only [actual, if_neg h]
    split
    · rename_i hx
      have key : ∀ c : UInt8, (alnum c || ([45, 46, 47, 60, 62, 92, 94, 95, 96, 123, 124, 126, 34, 125] : List UInt8).contains c) = true →
          c ≠ 37 ∧ c ≠ 43 := by
        apply u8_all; decide +kernel
      exact denote_self true c cs (key c hx).1 (fun _ => (key c hx).2)
    · exact denote_pct true c cs

/-- C62: decoding the encoding of a string, with plus as space, gives the string back. -/
theorem url_round_trip (s t : List UInt8) (h : 0 ∉ s) (junk junk' : Junk) :
    ∃ e, urlEncode junk (s ++ 0 :: t) = .ok e ∧ urlDecode junk' e true = .ok (some (s ++ [0], s.length)) :=
  round_trip actual_good true s t h (fun c _ cs => actual_denotes c cs) junk junk'

example : urlEncode (fun _ => 0xaa) [97, 32, 43, 255, 0] = .ok [97, 43, 37, 50, 66, 37, 70, 70, 0] ∧
    urlDecode (fun _ => 0xaa) [97, 43, 37, 50, 66, 37, 70, 70, 0] true = .ok (some ([97, 32, 43, 255, 0], 4)) := by decide +kernel

/-- C63, partial: the entry of every byte other than `"`, `]` and `}` is as documented. Missing: those three bytes, whose entries
contradict the documentation (`url_byte_wrong`). -/
theorem url_encode_byte_partial (c : UInt8) (h : c ∉ ([34, 93, 125] : List UInt8)) :
    ∃ rest, encodeByte c = documented c ++ 0 :: rest ∧ 0 ∉ documented c := by
  have key : ∀ c : UInt8, c ∉ ([34, 93, 125] : List UInt8) →
      encodeByte c = documented c ++ 0 :: List.replicate (3 - (documented c).length) 0 ∧ 0 ∉ documented c := by
    apply u8_all; decide +kernel
  exact ⟨_, (key c h).1, (key c h).2⟩

example : (32 : UInt8) ∉ ([34, 93, 125] : List UInt8) ∧ encodeByte 32 = [43, 0, 0, 0] ∧ encodeByte 200 = [37, 67, 56, 0] := by
  decide +kernel

/-- C63, violated: `"` and `}` are encoded as themselves, though not documented so, and `]` is percent-encoded, though documented
as itself. -/
theorem url_byte_wrong : (encodeByte 34 = [34, 0, 0, 0] ∧ documented 34 = [37, 50, 50]) ∧
    (encodeByte 125 = [125, 0, 0, 0] ∧ documented 125 = [37, 55, 68]) ∧
    (encodeByte 93 = [37, 53, 68, 0] ∧ documented 93 = [93]) := by decide +kernel

/-- C63: the whole string is encoded by concatenating the texts of `charstr_url_encode_byte`. -/
theorem url_encode_bytes (s t : List UInt8) (h : 0 ∉ s) (junk : Junk) :
    ∃ rest, urlEncode junk (s ++ 0 :: t) = .ok (s.flatMap (fun c => (encodeByte c).takeWhile (· ≠ 0)) ++ 0 :: rest) := by
  obtain ⟨rest, e⟩ := customEncode_spec actual_good junk s t h
  refine ⟨rest, ?_⟩
  rw [urlEncode, e]
  have : (fun c => (encodeByte c).takeWhile (· ≠ 0)) = actual := by
    funext c; revert c; apply u8_all; decide +kernel
  rw [this]

example : 0 ∉ ([34, 32, 200] : List UInt8) ∧ urlEncode (fun _ => 7) [34, 32, 200, 0] = .ok [34, 43, 37, 67, 56, 0] := by decide +kernel

/-- C64: a custom encoder gives an unreserved character itself, a reserved one that is not also unreserved its percent encoding and
any other its default encoding. -/
theorem custom_encoder_table (r u t t' : List UInt8) (hr : 0 ∉ r) (hu : 0 ∉ u) :
    ∃ enc, createUrlEncoder (r ++ 0 :: t) (u ++ 0 :: t') = .ok enc ∧ ∀ c,
      (c ∈ u → ∃ rest, customEncodeByte enc c = c :: 0 :: rest) ∧
      (c ∈ r → c ∉ u → ∃ rest, customEncodeByte enc c = pct c ++ 0 :: rest) ∧
      (c ∉ r → c ∉ u → (customEncodeByte enc c).takeWhile (· ≠ 0) = (encodeByte c).takeWhile (· ≠ 0) ∧ 0 ∈ customEncodeByte enc c) := by
  obtain ⟨enc, e, -, g⟩ := create_spec r u t t' hr hu
  refine ⟨enc, e, fun c => ⟨fun h => ?_, fun h h' => ?_, fun h h' => ?_⟩⟩ <;> obtain ⟨rest, hc⟩ := g.entry c
  · exact ⟨rest, by rw [hc]; simp [custom, h]⟩
  · exact ⟨rest, by rw [hc]; simp [custom, h, h']⟩
  · have hx : custom r u c = actual c := by simp [custom, h, h']
    have hn := actual_good.clean c
    have tw : ∀ l : List UInt8, ∀ r : List UInt8, 0 ∉ l → (l ++ 0 :: r).takeWhile (· ≠ 0) = l := by
      intro l r hl
      rw [List.takeWhile_append_of_pos]
      · simp
      · intro a ha; simp; intro h0; subst h0; exact hl ha
    rw [hc, hx]
    refine ⟨?_, by simp⟩
    rw [encodeByte, default_table, tw _ _ hn, tw _ _ hn]

/-- C64: the encoding of a string by a custom encoder is the concatenation of the texts of its bytes. -/
theorem custom_encode_bytes (r u t t' : List UInt8) (hr : 0 ∉ r) (hu : 0 ∉ u) (s q : List UInt8) (hs : 0 ∉ s) (junk : Junk) :
    ∃ enc rest, createUrlEncoder (r ++ 0 :: t) (u ++ 0 :: t') = .ok enc ∧
      customEncode junk enc (s ++ 0 :: q) = .ok (s.flatMap (fun c => if c ∈ u then [c] else if c ∈ r then pct c else
        (encodeByte c).takeWhile (· ≠ 0)) ++ 0 :: rest) := by
  obtain ⟨enc, e, -, g⟩ := create_spec r u t t' hr hu
  obtain ⟨rest, e2⟩ := customEncode_spec g junk s q hs
  refine ⟨enc, rest, e, ?_⟩
  have : ∀ c, actual c = (encodeByte c).takeWhile (· ≠ 0) := by
    apply u8_all; decide +kernel
  rw [e2]
  have hc : custom r u = fun c => if c ∈ u then [c] else if c ∈ r then pct c else (encodeByte c).takeWhile (· ≠ 0) := by
    funext c; rw [custom, this c]
  rw [hc]

/-- C64: the round trip through a custom encoder, if `%` is not unreserved and, decoding plus as space, neither is `+`; decoding
plus as itself, the space must be reserved or unreserved, since its default encoding is `+`. -/
theorem custom_round_trip (r u t t' : List UInt8) (hr : 0 ∉ r) (hu : 0 ∉ u) (s q : List UInt8) (hs : 0 ∉ s) (plus : Bool)
    (h37 : 37 ∉ u) (h43 : plus = true → 43 ∉ u) (h32 : plus = false → 32 ∈ r ∨ 32 ∈ u) (junk junk' : Junk) :
    ∃ enc e, createUrlEncoder (r ++ 0 :: t) (u ++ 0 :: t') = .ok enc ∧ customEncode junk enc (s ++ 0 :: q) = .ok e ∧
      urlDecode junk' e plus = .ok (some (s ++ [0], s.length)) := by
  obtain ⟨enc, e, -, g⟩ := create_spec r u t t' hr hu
  obtain ⟨x, h1, h2⟩ := round_trip g plus s q hs (by
    intro c _ cs
    simp only [custom]
    split
    · rename_i hc
      exact denote_self plus c cs (by rintro rfl; exact h37 hc) (by rintro hp rfl; exact h43 hp hc)
    · rename_i hcu
      split
      · exact denote_pct plus c cs
      · rename_i hcr
        cases plus with
        | true => exact actual_denotes c cs
        | false =>
          have hc : c ≠ 32 := by rintro rfl; rcases h32 rfl with h | h <;> contradiction
          simp only [actual, if_neg hc]
          split
          · rename_i hx
            have key : ∀ c : UInt8, (alnum c ||
                ([45, 46, 47, 60, 62, 92, 94, 95, 96, 123, 124, 126, 34, 125] : List UInt8).contains c) = true → c ≠ 37 := by
              apply u8_all; decide +kernel
            exact denote_self false c cs (key c hx) (by simp)
          · exact denote_pct false c cs) junk junk'
  exact ⟨enc, x, e, h1, h2⟩

/-- The hypotheses are met by reserving `/` and space and unreserving `=`, and both are needed. -/
example : ((createUrlEncoder [47, 32, 0] [61, 0]).toOption.bind fun enc =>
    (customEncode (fun _ => 1) enc [47, 61, 32, 0]).toOption) = some [37, 50, 70, 61, 37, 50, 48, 0] := by decide +kernel

/-- C64: with `%` unreserved the round trip fails: `%41` is encoded as itself and decodes to `A`. -/
theorem custom_percent_no_round_trip : ((createUrlEncoder [0] [37, 0]).toOption.bind fun enc =>
    (customEncode (fun _ => 0) enc [37, 52, 49, 0]).toOption.bind fun e =>
      (urlDecode (fun _ => 0) e true).toOption) = some (some ([65, 0], 1)) := by decide +kernel

/-- C64: a character both reserved and unreserved is not percent-encoded. -/
theorem custom_unreserve_wins : ((createUrlEncoder [61, 0] [61, 0]).toOption.map fun enc => customEncodeByte enc 61)
    = some [61, 0, 68, 0] := by decide +kernel

/-- C65: the decoder returns the denoted bytes, NUL-terminated in a block of exactly that size, and their number; it fails exactly if the
string denotes nothing; nothing after the NUL of the input is read (the result does not depend on `t`, and `t` may be empty). -/
theorem url_decode_correct (s t : List UInt8) (h : 0 ∉ s) (plus : Bool) (junk : Junk) :
    urlDecode junk (s ++ 0 :: t) plus = .ok ((denote plus s).map fun r => (r ++ [0], r.length)) :=
  urlDecode_spec junk plus s t h

/-- C65: a string denotes nothing exactly if some `%`, read left to right, is not followed by two hexadecimal digits; a hexadecimal digit
is never `%`, so "left to right" adds nothing. -/
theorem denote_none_iff (plus : Bool) (s : List UInt8) :
    denote plus s = none ↔ ∃ a b, s = a ++ 37 :: b ∧ ¬ ∃ x y c, b = x :: y :: c ∧ (hexValue x).isSome ∧ (hexValue y).isSome := by
  have nh : ∀ x : UInt8, (hexValue x).isSome → x ≠ 37 := by apply u8_all; decide +kernel
  suffices H : ∀ n, ∀ s : List UInt8, s.length ≤ n → (denote plus s = none ↔
      ∃ a b, s = a ++ 37 :: b ∧ ¬ ∃ x y c, b = x :: y :: c ∧ (hexValue x).isSome ∧ (hexValue y).isSome) from H _ s (Nat.le_refl _)
  intro n
  induction n with
  | zero =>
    intro s hn
    have : s = [] := List.eq_nil_of_length_eq_zero (by omega)
    subst this; simp [denote]
  | succ n ih =>
    intro s hn
    cases s with
    | nil => simp [denote]
    | cons c cs =>
      simp only [List.length_cons] at hn
      by_cases hc : c = 37
      · subst hc
        by_cases hg : ∃ x y d, cs = x :: y :: d ∧ (hexValue x).isSome ∧ (hexValue y).isSome
        · obtain ⟨x, y, d, rfl, hx, hy⟩ := hg
          simp only [List.length_cons] at hn
          obtain ⟨vx, ex⟩ := Option.isSome_iff_exists.1 hx
          obtain ⟨vy, ey⟩ := Option.isSome_iff_exists.1 hy
          have hd : denote plus (37 :: x :: y :: d) = none ↔ denote plus d = none := by
            rw [denote.eq_def]; simp [ex, ey]
          rw [hd, ih d (by omega)]
          constructor
          · rintro ⟨a, b, rfl, h⟩
            exact ⟨37 :: x :: y :: a, b, by simp, h⟩
          · rintro ⟨a, b, e, h⟩
            match a, e with
            | [], e =>
              simp only [List.nil_append, List.cons.injEq, true_and] at e
              exact absurd ⟨x, y, d, e.symm, hx, hy⟩ h
            | [_], e =>
              simp only [List.cons_append, List.nil_append, List.cons.injEq] at e
              exact absurd e.2.1 (nh x hx)
            | [_, _], e =>
              simp only [List.cons_append, List.nil_append, List.cons.injEq] at e
              exact absurd e.2.2.1 (nh y hy)
            | _ :: _ :: _ :: a, e =>
              simp only [List.cons_append, List.cons.injEq] at e
              exact ⟨a, b, e.2.2.2, h⟩
        · refine iff_of_true ?_ ⟨[], cs, rfl, hg⟩
          rw [denote.eq_def]
          match cs, hg with
          | [], _ => simp
          | [_], _ => simp
          | x :: y :: d, hg =>
            simp only [if_true]
            cases ex : hexValue x with
            | none => rfl
            | some vx =>
              cases ey : hexValue y with
              | none => rfl
              | some vy => exact absurd ⟨x, y, d, rfl, by simp [ex], by simp [ey]⟩ hg
      · have hd : denote plus (c :: cs) = none ↔ denote plus cs = none := by
          rw [denote.eq_def]; simp [hc]
        rw [hd, ih cs (by omega)]
        constructor
        · rintro ⟨a, b, rfl, h⟩
          exact ⟨c :: a, b, rfl, h⟩
        · rintro ⟨a, b, e, h⟩
          match a, e with
          | [], e =>
            simp only [List.nil_append, List.cons.injEq] at e
            exact absurd e.1 hc
          | _ :: a, e =>
            simp only [List.cons_append, List.cons.injEq] at e
            exact ⟨a, b, e.2, h⟩

example : urlDecode (fun _ => 9) [37, 52, 49, 43, 0] false = .ok (some ([65, 43, 0], 2)) ∧ urlDecode (fun _ => 9) [37, 52, 0] true = .ok none := by
  decide +kernel

end Verif.Url
