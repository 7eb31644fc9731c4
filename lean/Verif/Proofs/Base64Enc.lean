import Verif.Model.Base64
import Verif.Spec.Base64

namespace Verif.Base64
open Verif.Spec.Base64

theorem toNat_bits24 (a b c : UInt8) :
    (bits24 a b c).toNat = a.toNat * 65536 + b.toNat * 256 + c.toNat := by
  have ha := a.toNat_lt; have hb := b.toNat_lt; have hc := c.toNat_lt
  simp only [bits24, UInt32.toNat_or, UInt32.toNat_shiftLeft, UInt8.toNat_toUInt32]
  have e1 : UInt32.toNat 16 % 32 = 16 := by decide
  have e2 : UInt32.toNat 8 % 32 = 8 := by decide
  rw [e1, e2, Nat.mod_eq_of_lt (by rw [Nat.shiftLeft_eq]; omega), Nat.mod_eq_of_lt (by rw [Nat.shiftLeft_eq]; omega),
    Nat.or_assoc, ← Nat.shiftLeft_add_eq_or_of_lt (b := c.toNat) (i := 8) (by omega),
    ← Nat.shiftLeft_add_eq_or_of_lt (i := 16) (by rw [Nat.shiftLeft_eq]; omega)]
  simp only [Nat.shiftLeft_eq]; omega

theorem base64Char_eq (f p62 p63 : UInt8) : base64Char f p62 p63 = digit p62 p63 (f.toNat % 64) := by
  have key : ∀ n : Fin 64, bitfieldEncoding.getD n 0 = digit 43 47 n := by decide +kernel
  have hn : (f &&& 0x3f).toNat = f.toNat % 64 := by
    rw [UInt8.toNat_and]; exact Nat.and_two_pow_sub_one_eq_mod f.toNat 6
  have hlt : f.toNat % 64 < 64 := Nat.mod_lt _ (by decide)
  simp only [base64Char]
  split
  · rename_i h
    rw [h] at hn
    have : f.toNat % 64 = 62 := by simpa using hn.symm
    simp [digit, this]
  · rename_i h
    have n62 : f.toNat % 64 ≠ 62 := fun e => h (by rw [← UInt8.toNat_inj, hn, e]; rfl)
    split
    · rename_i h2
      rw [h2] at hn
      have : f.toNat % 64 = 63 := by simpa using hn.symm
      simp [digit, this]
    · rename_i h2
      have n63 : f.toNat % 64 ≠ 63 := fun e => h2 (by rw [← UInt8.toNat_inj, hn, e]; rfl)
      rw [hn, key ⟨_, hlt⟩]
      simp only [digit]
      split; · rfl
      split; · rfl
      split; · rfl
      omega

theorem char18 (b : UInt32) (h : b.toNat < 2 ^ 24) (p62 p63 : UInt8) :
    base64Char (b >>> 18).toUInt8 p62 p63 = digit p62 p63 (b.toNat / 262144) := by
  rw [base64Char_eq]
  simp only [UInt32.toNat_toUInt8, UInt32.toNat_shiftRight]
  have e1 : UInt32.toNat 18 % 32 = 18 := by decide
  rw [e1, Nat.shiftRight_eq_div_pow]; congr 1; omega

theorem char12 (b : UInt32) (p62 p63 : UInt8) :
    base64Char (b >>> 12).toUInt8 p62 p63 = digit p62 p63 (b.toNat / 4096 % 64) := by
  rw [base64Char_eq]
  simp only [UInt32.toNat_toUInt8, UInt32.toNat_shiftRight]
  have e1 : UInt32.toNat 12 % 32 = 12 := by decide
  rw [e1, Nat.shiftRight_eq_div_pow]; congr 1; omega

theorem char6 (b : UInt32) (p62 p63 : UInt8) :
    base64Char (b >>> 6).toUInt8 p62 p63 = digit p62 p63 (b.toNat / 64 % 64) := by
  rw [base64Char_eq]
  simp only [UInt32.toNat_toUInt8, UInt32.toNat_shiftRight]
  have e1 : UInt32.toNat 6 % 32 = 6 := by decide
  rw [e1, Nat.shiftRight_eq_div_pow]; congr 1; omega

theorem char0 (b : UInt32) (p62 p63 : UInt8) :
    base64Char b.toUInt8 p62 p63 = digit p62 p63 (b.toNat % 64) := by
  rw [base64Char_eq]
  simp only [UInt32.toNat_toUInt8]; congr 1; omega

theorem bits24_lt (a b c : UInt8) : (bits24 a b c).toNat < 2 ^ 24 := by
  rw [toNat_bits24]
  have ha := a.toNat_lt; have hb := b.toNat_lt; have hc := c.toNat_lt
  omega

/-- Writing one character at position `s.length` if it is inside the buffer. -/
theorem putIf_over (d s : List UInt8) (c : UInt8) : putIf (over d s) s.length c = .ok (over d (s ++ [c])) := by
  rw [over_snoc, putIf]
  simp only [over_length]
  split
  · rename_i h; rw [wr_ok (by simpa using h)]
  · rfl

theorem wr_over (d s : List UInt8) (c : UInt8) (h : s.length < d.length) :
    wr (over d s) s.length c = .ok (over d (s ++ [c])) := by
  rw [over_snoc, if_pos h, wr_ok (by simpa using h)]

theorem put4_over (d s : List UInt8) (c0 c1 c2 c3 : UInt8) :
    put4 (over d s) s.length c0 c1 c2 c3 = .ok (over d (s ++ [c0, c1, c2, c3]), s.length + 4) := by
  have h0 := putIf_over d s c0
  have h1 := putIf_over d (s ++ [c0]) c1
  have h2 := putIf_over d (s ++ [c0, c1]) c2
  have h3 := putIf_over d (s ++ [c0, c1, c2]) c3
  simp only [List.length_append, List.length_cons, List.length_nil, List.append_assoc, List.cons_append,
    List.nil_append, Nat.zero_add, Nat.reduceAdd] at h0 h1 h2 h3
  simp only [put4, h0, h1, h2, h3, bind, Except.bind, pure, Except.pure]

theorem wr4_over (d s : List UInt8) (c0 c1 c2 c3 : UInt8) (h : s.length + 4 ≤ d.length) :
    (do let x ← wr (over d s) s.length c0
        let x ← wr x (s.length + 1) c1
        let x ← wr x (s.length + 2) c2
        wr x (s.length + 3) c3) = (Except.ok (over d (s ++ [c0, c1, c2, c3])) : C (List UInt8)) := by
  have h0 := wr_over d s c0 (by omega)
  have h1 := wr_over d (s ++ [c0]) c1 (by simp; omega)
  have h2 := wr_over d (s ++ [c0, c1]) c2 (by simp; omega)
  have h3 := wr_over d (s ++ [c0, c1, c2]) c3 (by simp; omega)
  simp only [List.length_append, List.length_cons, List.length_nil, List.append_assoc, List.cons_append,
    List.nil_append, Nat.zero_add, Nat.reduceAdd] at h0 h1 h2 h3
  simp only [h0, h1, h2, h3, bind, Except.bind]

theorem digits_append3 (s : List UInt8) (hs : s.length % 3 = 0) (t : List UInt8) :
    digits (s ++ t) = digits s ++ digits t := by
  induction s using digits.induct with
  | case1 => simp [digits]
  | case2 a => simp at hs
  | case3 a b => simp at hs
  | case4 a b c rest ih =>
    simp only [List.cons_append, digits]
    rw [ih (by simp at hs; omega)]

theorem digits_length (s : List UInt8) (hs : s.length % 3 = 0) : (digits s).length = s.length / 3 * 4 := by
  induction s using digits.induct with
  | case1 => simp [digits]
  | case2 a => simp at hs
  | case3 a b => simp at hs
  | case4 a b c rest ih =>
    simp only [digits, List.length_cons]
    rw [ih (by simp at hs; omega)]; omega

/-- The encoded text of the first `q` source bytes. -/
def pre (p62 p63 : UInt8) (src : List UInt8) (q : Nat) : List UInt8 := (digits (src.take q)).map (digit p62 p63)

theorem pre_length (p62 p63 : UInt8) (src : List UInt8) (q : Nat) (hq : q ≤ src.length) (h3 : q % 3 = 0) :
    (pre p62 p63 src q).length = q / 3 * 4 := by
  simp only [pre, List.length_map]
  rw [digits_length] <;> simp [Nat.min_eq_left hq, h3]

theorem take3 (src : List UInt8) (q : Nat) (h : q + 3 ≤ src.length) :
    src.take (q + 3) = src.take q ++ [src[q], src[q + 1], src[q + 2]] := by
  apply List.ext_getElem?
  intro i
  simp only [List.getElem?_take, List.getElem?_append, List.length_take]
  grind

theorem pre_step (p62 p63 : UInt8) (src : List UInt8) (q : Nat) (h : q + 3 ≤ src.length) (h3 : q % 3 = 0) :
    pre p62 p63 src (q + 3) = pre p62 p63 src q ++
      [base64Char (bits24 src[q] src[q + 1] src[q + 2] >>> 18).toUInt8 p62 p63,
       base64Char (bits24 src[q] src[q + 1] src[q + 2] >>> 12).toUInt8 p62 p63,
       base64Char (bits24 src[q] src[q + 1] src[q + 2] >>> 6).toUInt8 p62 p63,
       base64Char (bits24 src[q] src[q + 1] src[q + 2]).toUInt8 p62 p63] := by
  rw [char18 _ (bits24_lt _ _ _), char12, char6, char0]
  simp only [pre, take3 src q h]
  rw [digits_append3 _ (by simp; omega)]
  simp [digits, toNat_bits24]

theorem encBody_spec (src : List UInt8) (p62 p63 : UInt8) (d : List UInt8) (counter q : Nat)
    (h3 : q % 3 = 0) (hq : q ≤ src.length - src.length % 3) (hc : q / 3 * 4 + counter * 4 ≤ d.length) :
    ∃ q', encBody src (src.length - src.length % 3) p62 p63 counter q (q / 3 * 4) (over d (pre p62 p63 src q)) =
        .ok (q', q' / 3 * 4, over d (pre p62 p63 src q')) ∧ q' % 3 = 0 ∧ q' ≤ src.length - src.length % 3 ∧
        (q' = src.length - src.length % 3 ∨ q' = q + 3 * counter) := by
  induction counter generalizing q with
  | zero => exact ⟨q, by simp [encBody, pure, Except.pure], h3, hq, by omega⟩
  | succ n ih =>
    unfold encBody
    split
    · rename_i hlt
      have hlen : q + 3 ≤ src.length := by omega
      rw [rd_ok (show q < src.length by omega), rd_ok (show q + 1 < src.length by omega),
        rd_ok (show q + 2 < src.length by omega)]
      have hpl := pre_length p62 p63 src q (by omega) h3
      have hw := wr4_over d (pre p62 p63 src q)
       (base64Char (bits24 src[q] src[q + 1] src[q + 2] >>> 18).toUInt8 p62 p63)
       (base64Char (bits24 src[q] src[q + 1] src[q + 2] >>> 12).toUInt8 p62 p63)
       (base64Char (bits24 src[q] src[q + 1] src[q + 2] >>> 6).toUInt8 p62 p63)
       (base64Char (bits24 src[q] src[q + 1] src[q + 2]).toUInt8 p62 p63) (by omega)
      rw [← pre_step p62 p63 src q hlen h3, hpl] at hw
      obtain ⟨q', e, r1, r2, r3⟩ := ih (q + 3) (by omega) (by omega) (by omega)
      refine ⟨q', ?_, r1, r2, by omega⟩
      rw [← e]
      have e4 : (q + 3) / 3 * 4 = q / 3 * 4 + 4 := by omega
      rw [e4]
      simp only [bind, Except.bind] at hw ⊢
      revert hw
      cases wr (over d (pre p62 p63 src q)) (q / 3 * 4) _ with
      | error => simp
      | ok x =>
        simp only
        cases wr x (q / 3 * 4 + 1) _ with
        | error => simp
        | ok x =>
          simp only
          cases wr x (q / 3 * 4 + 2) _ with
          | error => simp
          | ok x =>
            simp only
            intro hw; rw [hw]
    · exact ⟨q, by simp [pure, Except.pure], h3, hq, by omega⟩

theorem encCut_spec (src : List UInt8) (p62 p63 : UInt8) (d : List UInt8) (q : Nat)
    (h3 : q % 3 = 0) (hq : q ≤ src.length - src.length % 3)
    (hc : q = src.length - src.length % 3 ∨ q = 3 * (d.length / 4)) :
    ∃ q' i, encCut src (src.length - src.length % 3) p62 p63 q (q / 3 * 4) (over d (pre p62 p63 src q)) =
        .ok (q', i, over d (pre p62 p63 src (src.length - src.length % 3))) ∧
        i + (src.length - src.length % 3 - q') / 3 * 4 = (src.length - src.length % 3) / 3 * 4 := by
  unfold encCut
  split
  · rename_i hlt
    have hlen : q + 3 ≤ src.length := by omega
    rw [rd_ok (show q < src.length by omega), rd_ok (show q + 1 < src.length by omega),
      rd_ok (show q + 2 < src.length by omega)]
    have hpl := pre_length p62 p63 src q (by omega) h3
    have hw := put4_over d (pre p62 p63 src q)
       (base64Char (bits24 src[q] src[q + 1] src[q + 2] >>> 18).toUInt8 p62 p63)
       (base64Char (bits24 src[q] src[q + 1] src[q + 2] >>> 12).toUInt8 p62 p63)
       (base64Char (bits24 src[q] src[q + 1] src[q + 2] >>> 6).toUInt8 p62 p63)
       (base64Char (bits24 src[q] src[q + 1] src[q + 2]).toUInt8 p62 p63)
    rw [← pre_step p62 p63 src q hlen h3, hpl] at hw
    refine ⟨q + 3, q / 3 * 4 + 4, ?_, by omega⟩
    simp only [bind, Except.bind, hw, pure, Except.pure]
    -- past this group the buffer is full
    have hl1 := pre_length p62 p63 src (q + 3) (by omega) (by omega)
    have hl2 := pre_length p62 p63 src (src.length - src.length % 3) (by omega) (by omega)
    rw [over_full (s := pre p62 p63 src (q + 3)) (by omega),
      over_full (s := pre p62 p63 src (src.length - src.length % 3)) (by omega)]
    have hsplit : src.take (src.length - src.length % 3) =
        src.take (q + 3) ++ (src.take (src.length - src.length % 3)).drop (q + 3) := by
      have := List.take_append_drop (q + 3) (src.take (src.length - src.length % 3))
      rw [List.take_take, Nat.min_eq_left (by omega)] at this
      exact this.symm
    have : pre p62 p63 src (src.length - src.length % 3) = pre p62 p63 src (q + 3) ++
        (digits ((src.take (src.length - src.length % 3)).drop (q + 3))).map (digit p62 p63) := by
      rw [pre, hsplit, digits_append3 _ (by simp; omega), List.map_append, ← hsplit]; rfl
    rw [this, List.take_append_of_le_length (by omega)]
  · refine ⟨q, q / 3 * 4, ?_, by omega⟩
    have : q = src.length - src.length % 3 := by omega
    rw [← this]; rfl

theorem encTail_spec (src : List UInt8) (p62 p63 : UInt8) (d : List UInt8) :
    encTail src p62 p63 (src.length - src.length % 3) ((src.length - src.length % 3) / 3 * 4)
      (over d (pre p62 p63 src (src.length - src.length % 3))) =
      .ok (over d (encode p62 p63 src), (encode p62 p63 src).length) := by
  have hpl := pre_length p62 p63 src (src.length - src.length % 3) (by omega) (by omega)
  rw [← hpl]
  have hsplit : src = src.take (src.length - src.length % 3) ++ src.drop (src.length - src.length % 3) :=
    (List.take_append_drop _ _).symm
  have he : encode p62 p63 src = pre p62 p63 src (src.length - src.length % 3) ++
      ((digits (src.drop (src.length - src.length % 3))).map (digit p62 p63) ++ pad src.length) := by
    rw [encode, ← List.append_assoc]
    congr 1
    rw [pre, ← List.map_append, ← digits_append3 (src.take (src.length - src.length % 3)) (by simp; omega), ← hsplit]
  unfold encTail
  split
  · rename_i h0
    have : src.drop (src.length - src.length % 3) = [] := by simp [h0]
    rw [he, this]; simp [digits, pad, h0, pure, Except.pure]
  · rename_i h1
    have hlt : src.length - src.length % 3 < src.length := by omega
    have : src.drop (src.length - src.length % 3) = [src[src.length - src.length % 3]] := by
      rw [List.drop_eq_getElem_cons hlt, List.drop_eq_nil_of_le (by omega)]
    rw [rd_ok hlt]
    simp only [bind, Except.bind]
    rw [put4_over, he, this, char18 _ (bits24_lt _ _ _), char12]
    simp [digits, pad, h1, toNat_bits24]
  · rename_i h0 h1
    have h2 : src.length % 3 = 2 := by
      have a0 : src.length % 3 ≠ 0 := h0
      have a1 : src.length % 3 ≠ 1 := h1
      omega
    have hlt : src.length - src.length % 3 < src.length := by omega
    have hlt1 : src.length - src.length % 3 + 1 < src.length := by omega
    have : src.drop (src.length - src.length % 3) =
        [src[src.length - src.length % 3], src[src.length - src.length % 3 + 1]] := by
      rw [List.drop_eq_getElem_cons hlt, List.drop_eq_getElem_cons hlt1, List.drop_eq_nil_of_le (by omega)]
    rw [rd_ok hlt, rd_ok hlt1]
    simp only [bind, Except.bind]
    rw [put4_over, he, this, char18 _ (bits24_lt _ _ _), char12, char6]
    simp [digits, pad, h2, toNat_bits24]

theorem encNul_spec (d s : List UInt8) :
    encNul s.length (over d s) = .ok (if s.length < d.length then s ++ 0 :: d.drop (s.length + 1)
      else if d.length = 0 then [] else s.take (d.length - 1) ++ [0]) := by
  unfold encNul
  simp only [over_length]
  split
  · rename_i h
    rw [wr_over d s 0 h]
    simp only [over, List.length_append, List.length_cons, List.length_nil]
    rw [List.take_of_length_le (by simp; omega)]; simp
  · rename_i h
    by_cases h0 : d.length = 0
    · have : d = [] := List.eq_nil_of_length_eq_zero h0
      subst this; simp [over]
    · rw [if_pos h0, if_neg h0, over_full (by omega), wr_ok (by simp; omega)]
      congr 1
      apply List.ext_getElem?
      intro i
      simp only [List.getElem?_set, List.getElem?_append, List.getElem?_take, List.length_take]
      grind

/-- The encoder, for every source and every destination size. -/
theorem encodeBuffer_spec (src dest : List UInt8) (pos62 pos63 : UInt8) :
    encodeBuffer src dest pos62 pos63 =
      .ok ((encode (dflt pos62 43) (dflt pos63 47) src).length,
        let s := encode (dflt pos62 43) (dflt pos63 47) src
        if s.length < dest.length then s ++ 0 :: dest.drop (s.length + 1)
        else if dest.length = 0 then [] else s.take (dest.length - 1) ++ [0]) := by
  obtain ⟨q, e1, h3, hq, hc⟩ := encBody_spec src (dflt pos62 43) (dflt pos63 47) dest (dest.length / 4) 0 rfl (by omega)
    (by omega)
  obtain ⟨q', i, e2, hi⟩ := encCut_spec src (dflt pos62 43) (dflt pos63 47) dest q h3 hq (by omega)
  have e3 := encTail_spec src (dflt pos62 43) (dflt pos63 47) dest
  have e4 := encNul_spec dest (encode (dflt pos62 43) (dflt pos63 47) src)
  simp only [pre, List.take_zero, digits, List.map_nil, over_nil, Nat.zero_div, Nat.zero_mul] at e1
  simp only [encodeBuffer, bind, Except.bind, e1]
  simp only [pre] at e2
  rw [e2]
  simp only [pre] at e3
  simp only [hi, e3, e4, pure, Except.pure]

end Verif.Base64
