import Verif.Model.Url
import Verif.Spec.Url
import Verif.Proofs.Charstr

/-! Helper lemmas for the URL coding of `charstr.c`. -/

namespace Verif.Url
open Verif.Charstr Verif.Spec.Url Verif.Spec.Charstr
open Verif.BA (Junk malloc)

theorem hex_class (c : UInt8) : hasClass c HEX = (hexValue c).isSome := by
  revert c; apply u8_all; decide +kernel

theorem hex_digit (c : UInt8) : hexValue c = none ∨ (hexValue c = some (digitValue c) ∧ digitValue c < 16 ∧ c ≠ 0) := by
  revert c; apply u8_all; decide +kernel

/-- The two passes of the decoder against the denotation. -/
theorem check_spec (plus : Bool) (n : Nat) : ∀ (s t : List UInt8) (k : Nat), s.length ≤ n → 0 ∉ s →
    checkLoop (s ++ 0 :: t) k = .ok ((denote plus s).map fun r => k + r.length) := by
  induction n with
  | zero =>
    intro s t k hn _
    have : s = [] := List.eq_nil_of_length_eq_zero (by omega)
    subst this; rw [List.nil_append, checkLoop.eq_def]; simp [denote]
  | succ n ih =>
    intro s t k hn h
    cases s with
    | nil => rw [List.nil_append, checkLoop.eq_def]; simp [denote]
    | cons c cs =>
      have hc : c ≠ 0 := by intro hx; subst hx; simp at h
      have h' : 0 ∉ cs := by simp at h; tauto
      simp only [List.length_cons] at hn
      simp only [List.cons_append]
      rw [checkLoop.eq_def, denote.eq_def]
      simp only [if_neg hc]
      by_cases hp : c = 37
      · rw [if_pos hp, if_pos hp]
        cases cs with
        | nil => simp [hex_class, show hexValue 0 = none by decide]
        | cons a cs =>
          simp only [List.cons_append]
          rw [hex_class]
          cases cs with
          | nil =>
            simp only [List.nil_append, hex_class, show hexValue 0 = none by decide]
            cases hexValue a <;> simp
          | cons b cs =>
            simp only [List.cons_append, hex_class]
            cases ha : hexValue a with
            | none => simp
            | some x =>
              cases hb : hexValue b with
              | none => simp
              | some y =>
                have h0 : 0 ∉ cs := by simp at h'; tauto
                simp only [List.length_cons] at hn
                simp only [Option.isSome_some, Bool.not_true, Bool.false_eq_true, if_false,
                  ih cs t (k + 1) (by omega) h0, Option.map_map]
                congr 2
                funext r
                simp; omega
      · rw [if_neg hp, if_neg hp, ih cs t (k + 1) (by omega) h', Option.map_map]
        congr 2
        funext r
        simp; omega

theorem decode_spec (plus : Bool) (n : Nat) : ∀ (s t r buf : List UInt8) (dp : Nat), s.length ≤ n → 0 ∉ s → denote plus s = some r →
    dp + r.length < buf.length → decodeLoop plus (s ++ 0 :: t) buf dp = .ok (splice buf dp (r ++ [0])) := by
  have base : ∀ (t buf : List UInt8) (dp : Nat), dp < buf.length → decodeLoop plus (0 :: t) buf dp = .ok (splice buf dp [0]) := by
    intro t buf dp h
    rw [decodeLoop.eq_def]
    simp only [if_true]
    rw [wr_ok h, splice_one h]
  induction n with
  | zero =>
    intro s t r buf dp hn _ hd hl
    have : s = [] := List.eq_nil_of_length_eq_zero (by omega)
    subst this
    simp only [denote, Option.some.injEq] at hd
    subst hd
    exact base t buf dp (by simpa using hl)
  | succ n ih =>
    intro s t r buf dp hn h hd hl
    cases s with
    | nil =>
      simp only [denote, Option.some.injEq] at hd
      subst hd
      exact base t buf dp (by simpa using hl)
    | cons c cs =>
      have hc : c ≠ 0 := by intro hx; subst hx; simp at h
      have h' : 0 ∉ cs := by simp at h; tauto
      simp only [List.length_cons] at hn
      simp only [List.cons_append]
      rw [denote.eq_def] at hd
      rw [decodeLoop.eq_def]
      simp only [if_neg hc]
      simp only at hd
      by_cases hp : c = 37
      · rw [if_pos hp] at hd
        subst hp
        rw [if_neg (by decide), if_pos rfl]
        cases cs with
        | nil => simp at hd
        | cons a cs =>
          cases cs with
          | nil => simp at hd
          | cons b cs =>
            simp only at hd
            rcases hex_digit a with ha | ⟨ha, ha2, -⟩
            · simp [ha] at hd
            rcases hex_digit b with hb | ⟨hb, hb2, -⟩
            · rw [ha, hb] at hd; simp at hd
            rw [ha, hb] at hd
            simp only [Option.map_eq_some_iff] at hd
            obtain ⟨q, hq, rfl⟩ := hd
            simp only [List.length_cons] at hl hn
            have hdp : dp < buf.length := by omega
            have h0 : 0 ∉ cs := by simp at h'; tauto
            simp only [List.cons_append, wr_ok hdp]
            rw [rd_ok (by simpa using hdp)]
            simp only
            rw [wr_ok (by simpa using hdp)]
            simp only [List.getElem_set_self, List.set_set]
            rw [ih cs t q _ (dp + 1) (by omega) h0 hq (by simp; omega)]
            rw [splice_set hdp]
            congr 3
            rw [UInt8.toNat_ofNat', Nat.mod_eq_of_lt (by omega), Nat.mul_comm 16]
      · rw [if_neg hp, Option.map_eq_some_iff] at hd
        obtain ⟨q, hq, rfl⟩ := hd
        simp only [List.length_cons] at hl
        have hdp : dp < buf.length := by omega
        by_cases h43 : c = 43
        · rw [if_pos h43, wr_ok hdp]
          simp only
          rw [ih cs t q _ (dp + 1) (by omega) h' hq (by simp; omega), splice_set hdp]
          congr 3
          subst h43
          cases plus <;> simp
        · rw [if_neg h43, if_neg hp, wr_ok hdp]
          simp only
          rw [ih cs t q _ (dp + 1) (by omega) h' hq (by simp; omega), splice_set hdp]
          congr 3
          simp [h43]

theorem malloc_length (j : Junk) (n : Nat) : (malloc j n).length = n := by simp [malloc]

theorem urlDecode_spec (junk : Junk) (plus : Bool) (s t : List UInt8) (h : 0 ∉ s) :
    urlDecode junk (s ++ 0 :: t) plus = .ok ((denote plus s).map fun r => (r ++ [0], r.length)) := by
  simp only [urlDecode, check_spec plus s.length s t 0 (Nat.le_refl _) h]
  cases hd : denote plus s with
  | none => rfl
  | some r =>
    simp only [Option.map_some, Nat.zero_add]
    rw [decode_spec plus s.length s t r _ 0 (Nat.le_refl _) h hd (by rw [malloc_length]; omega)]
    simp only
    rw [splice_full (by rw [malloc_length]; simp)]

/-- A table entry: `text` and a NUL inside four bytes, where `text` is one character or a percent encoding. -/
def Entry (text : List UInt8) (e : List UInt8) : Prop := ∃ rest, e = text ++ 0 :: rest ∧ 0 ∉ text ∧ e.length = 4

theorem copyEntry_spec (text rest : List UInt8) (h : 0 ∉ text) : ∀ (buf : List UInt8) (ep : Nat), ep + text.length ≤ buf.length →
    copyEntry (text ++ 0 :: rest) buf ep = .ok (splice buf ep text, ep + text.length) := by
  induction text with
  | nil => intro buf ep _; simp [copyEntry]
  | cons c text ih =>
    intro buf ep hl
    simp only [List.mem_cons, not_or] at h
    simp only [List.length_cons] at hl
    simp only [List.cons_append, copyEntry, Ne.symm h.1, if_false]
    rw [wr_ok (by omega)]
    simp only
    rw [ih h.2 _ _ (by simp; omega), splice_set (by omega)]
    simp only [List.length_cons]
    congr 2; omega

/-- An encoder whose entry for every byte is the text `f` of that byte, never longer than the width the code computes. -/
structure Good (enc : Encoder) (f : UInt8 → List UInt8) : Prop where
  entry : ∀ c, ∃ rest, customEncodeByte enc c = f c ++ 0 :: rest
  clean : ∀ c, 0 ∉ f c
  width : ∀ c, f c ≠ [] ∧ (f c).length ≤ if (f c).head? = some 37 then 3 else 1

theorem encodedLength_spec {enc : Encoder} {f : UInt8 → List UInt8} (g : Good enc f) (s t : List UInt8) (h : 0 ∉ s) : ∀ k,
    ∃ n, encodedLength enc (s ++ 0 :: t) k = .ok (k + n) ∧ (s.flatMap f).length ≤ n := by
  induction s with
  | nil => intro k; exact ⟨0, by simp [encodedLength], by simp⟩
  | cons c s ih =>
    intro k
    simp only [List.mem_cons, not_or] at h
    obtain ⟨rest, he⟩ := g.entry c
    obtain ⟨h1, h2⟩ := g.width c
    have hw : ∃ w, encodingWidth enc c = .ok w ∧ (f c).length ≤ w := by
      simp only [encodingWidth, he]
      obtain ⟨x, r, hx⟩ := List.exists_cons_of_ne_nil h1
      rw [hx] at h2 ⊢
      simp only [List.cons_append, peek, List.head?_cons, Option.some.injEq] at h2 ⊢
      by_cases h37 : x = 37
      · exact ⟨3, by simp [h37], by simpa [h37] using h2⟩
      · exact ⟨1, by simp [h37], by simpa [h37] using h2⟩
    obtain ⟨w, e1, e2⟩ := hw
    obtain ⟨n, e3, e4⟩ := ih h.2 (k + w)
    refine ⟨w + n, ?_, ?_⟩
    · simp only [List.cons_append, encodedLength, Ne.symm h.1, if_false, e1, e3]
      congr 1; omega
    · simp only [List.flatMap_cons, List.length_append]; omega

theorem encodeLoop_spec {enc : Encoder} {f : UInt8 → List UInt8} (g : Good enc f) (s t : List UInt8) (h : 0 ∉ s) :
    ∀ (buf : List UInt8) (ep : Nat), ep + (s.flatMap f).length < buf.length →
    encodeLoop enc (s ++ 0 :: t) buf ep = .ok (splice buf ep (s.flatMap f ++ [0])) := by
  induction s with
  | nil =>
    intro buf ep hl
    simp only [List.flatMap_nil, List.length_nil, Nat.add_zero] at hl
    simp only [List.nil_append, encodeLoop, if_true, List.flatMap_nil, wr_ok hl, splice_one hl]
  | cons c s ih =>
    intro buf ep hl
    simp only [List.mem_cons, not_or] at h
    obtain ⟨rest, he⟩ := g.entry c
    simp only [List.flatMap_cons, List.length_append] at hl
    simp only [List.cons_append, encodeLoop, Ne.symm h.1, if_false, he]
    rw [copyEntry_spec _ _ (g.clean c) _ _ (by omega)]
    simp only
    rw [ih h.2 _ _ (by rw [splice_length (by omega)]; omega), splice_splice (by omega)]
    simp

theorem customEncode_spec {enc : Encoder} {f : UInt8 → List UInt8} (g : Good enc f) (junk : Junk) (s t : List UInt8) (h : 0 ∉ s) :
    ∃ rest, customEncode junk enc (s ++ 0 :: t) = .ok (s.flatMap f ++ 0 :: rest) := by
  obtain ⟨n, e, hn⟩ := encodedLength_spec g s t h 0
  simp only [customEncode, e, Nat.zero_add]
  rw [encodeLoop_spec g s t h _ _ (by rw [malloc_length]; omega), splice_zero]
  exact ⟨_, by rw [List.append_assoc]; rfl⟩

/-- The text a byte is given by the default table in fact: the documented list with `"` and `}` added and `]` removed. -/
def actual (c : UInt8) : List UInt8 :=
  if c = 32 then [43] else if alnum c || ([45, 46, 47, 60, 62, 92, 94, 95, 96, 123, 124, 126, 34, 125] : List UInt8).contains c then [c]
  else pct c

theorem table_length : urlEncoder.length = 256 := by decide +kernel

theorem default_table (c : UInt8) : customEncodeByte urlEncoder c = actual c ++ 0 :: List.replicate (3 - (actual c).length) 0 := by
  revert c; apply u8_all; decide +kernel

theorem actual_good : Good urlEncoder actual := by
  refine ⟨fun c => ⟨_, default_table c⟩, ?_, ?_⟩
  · apply u8_all; decide +kernel
  · apply u8_all; decide +kernel

theorem pct_ok : ∀ c : UInt8, c ≠ 0 → pct c = [37, hexDigit (c.toNat / 16), hexDigit (c.toNat % 16)] ∧ 0 ∉ pct c := by
  apply u8_all; decide +kernel

/-- The text a byte is given by a custom encoder. -/
def custom (reserve unreserve : List UInt8) (c : UInt8) : List UInt8 :=
  if c ∈ unreserve then [c] else if c ∈ reserve then pct c else actual c

theorem reserve_spec (s t : List UInt8) (h : 0 ∉ s) : ∀ (enc : Encoder) (f : UInt8 → List UInt8), enc.length = 256 →
    (∀ c, ∃ rest, customEncodeByte enc c = f c ++ 0 :: rest) →
    ∃ enc', reserveLoop enc (s ++ 0 :: t) = .ok enc' ∧ enc'.length = 256 ∧
      ∀ c, ∃ rest, customEncodeByte enc' c = (if c ∈ s then pct c else f c) ++ 0 :: rest := by
  induction s with
  | nil => intro enc f hl hf; exact ⟨enc, by simp [reserveLoop], hl, by simpa using hf⟩
  | cons x s ih =>
    intro enc f hl hf
    simp only [List.mem_cons, not_or] at h
    simp only [List.cons_append, reserveLoop, Ne.symm h.1, if_false]
    obtain ⟨enc', e1, e2, e3⟩ := ih h.2 (enc.set x.toNat [37, hexDigit (x.toNat / 16), hexDigit (x.toNat % 16), 0])
      (fun c => if c = x then pct c else f c) (by simpa using hl) (by
        intro c
        by_cases hc : c = x
        · subst hc
          refine ⟨[], ?_⟩
          simp only [customEncodeByte, List.getD_eq_getElem?_getD, if_true, (pct_ok c (Ne.symm h.1)).1]
          rw [List.getElem?_set_self (by rw [hl]; exact c.toNat_lt)]
          rfl
        · obtain ⟨rest, hr⟩ := hf c
          refine ⟨rest, ?_⟩
          simp only [if_neg hc]
          rw [← hr]
          simp only [customEncodeByte, List.getD_eq_getElem?_getD]
          rw [List.getElem?_set_ne (fun hx => hc (u8_toNat_inj hx.symm))])
    refine ⟨enc', e1, e2, fun c => ?_⟩
    obtain ⟨rest, hr⟩ := e3 c
    refine ⟨rest, ?_⟩
    rw [hr]
    by_cases h1 : c ∈ s <;> by_cases h2 : c = x <;> simp [h1, h2]

theorem unreserve_spec (s t : List UInt8) (h : 0 ∉ s) : ∀ (enc : Encoder) (f : UInt8 → List UInt8), enc.length = 256 →
    (∀ c, ∃ rest, customEncodeByte enc c = f c ++ 0 :: rest) →
    ∃ enc', unreserveLoop enc (s ++ 0 :: t) = .ok enc' ∧ enc'.length = 256 ∧
      ∀ c, ∃ rest, customEncodeByte enc' c = (if c ∈ s then [c] else f c) ++ 0 :: rest := by
  induction s with
  | nil => intro enc f hl hf; exact ⟨enc, by simp [unreserveLoop], hl, by simpa using hf⟩
  | cons x s ih =>
    intro enc f hl hf
    simp only [List.mem_cons, not_or] at h
    simp only [List.cons_append, unreserveLoop, Ne.symm h.1, if_false]
    obtain ⟨enc', e1, e2, e3⟩ := ih h.2 (enc.set x.toNat ([x, 0] ++ (enc.getD x.toNat []).drop 2))
      (fun c => if c = x then [c] else f c) (by simpa using hl) (by
        intro c
        by_cases hc : c = x
        · subst hc
          refine ⟨(enc.getD c.toNat []).drop 2, ?_⟩
          simp only [customEncodeByte, if_true]
          rw [List.getD_eq_getElem?_getD, List.getElem?_set_self (by rw [hl]; exact c.toNat_lt)]
          rfl
        · obtain ⟨rest, hr⟩ := hf c
          refine ⟨rest, ?_⟩
          simp only [if_neg hc]
          rw [← hr]
          simp only [customEncodeByte, List.getD_eq_getElem?_getD]
          rw [List.getElem?_set_ne (fun hx => hc (u8_toNat_inj hx.symm))])
    refine ⟨enc', e1, e2, fun c => ?_⟩
    obtain ⟨rest, hr⟩ := e3 c
    refine ⟨rest, ?_⟩
    rw [hr]
    by_cases h1 : c ∈ s <;> by_cases h2 : c = x <;> simp [h1, h2]

theorem create_spec (r u t t' : List UInt8) (hr : 0 ∉ r) (hu : 0 ∉ u) :
    ∃ enc, createUrlEncoder (r ++ 0 :: t) (u ++ 0 :: t') = .ok enc ∧ enc.length = 256 ∧ Good enc (custom r u) := by
  obtain ⟨e1, h1, l1, g1⟩ := reserve_spec r t hr urlEncoder actual table_length (actual_good.entry)
  obtain ⟨e2, h2, l2, g2⟩ := unreserve_spec u t' hu e1 _ l1 g1
  refine ⟨e2, by simp only [createUrlEncoder, h1, h2], l2, g2, ?_, ?_⟩
  · intro c
    simp only [custom]
    split
    · rename_i hc
      intro hx; simp at hx; subst hx; exact hu hc
    · split
      · rename_i hc
        exact (pct_ok c (by intro hx; subst hx; exact hr hc)).2
      · exact actual_good.clean c
  · intro c
    simp only [custom]
    split
    · refine ⟨by simp, ?_⟩
      by_cases h37 : c = 37 <;> simp [h37]
    · split
      · simp [pct]
      · exact actual_good.width c

/-- Denotation of one encoded byte in front of an encoded string. -/
theorem denote_pct (plus : Bool) (c : UInt8) (cs : List UInt8) :
    denote plus (pct c ++ cs) = (denote plus cs).map (c :: ·) := by
  have key : ∀ c : UInt8, hexValue (digits.getD (c.toNat / 16) 0) = some (c.toNat / 16) ∧
      hexValue (digits.getD (c.toNat % 16) 0) = some (c.toNat % 16) ∧ UInt8.ofNat (16 * (c.toNat / 16) + c.toNat % 16) = c := by
    apply u8_all; decide +kernel
  obtain ⟨h1, h2, h3⟩ := key c
  rw [pct, List.cons_append, List.cons_append, List.cons_append, List.nil_append, denote.eq_def]
  simp only [if_true, h1, h2, h3]

theorem denote_self (plus : Bool) (c : UInt8) (cs : List UInt8) (h37 : c ≠ 37) (h43 : plus = true → c ≠ 43) :
    denote plus ([c] ++ cs) = (denote plus cs).map (c :: ·) := by
  rw [List.cons_append, List.nil_append, denote.eq_def]
  simp only [if_neg h37]
  have : ¬ (c = 43 ∧ plus = true) := by rintro ⟨h1, h2⟩; exact h43 h2 h1
  simp only [if_neg this]

theorem denote_space (cs : List UInt8) : denote true ([43] ++ cs) = (denote true cs).map (32 :: ·) := by
  rw [List.cons_append, List.nil_append, denote.eq_def]
  simp

end Verif.Url
