import Verif.Proofs.ShippedProps
import Verif.Props.Unicode

/-!
UTF-8 is a decoder as ShippedProps.lean wants it.
-/

set_option autoImplicit false

namespace Verif.Shipped
open Verif.Spec.Utf8 (IsScalar enc width form)
open Verif.Spec.Unicode (encs)
open Verif.Spec.DataFiles (Str)

theorem toNat_ofNat {c : Nat} (h : c.isValidChar) : (Char.ofNat c).toNat = c := by
  rw [Char.ofNat, dif_pos h]
  simp [Char.toNat, Char.ofNatAux]

theorem char_scalar (c : Char) : IsScalar c.toNat := by
  have := c.valid
  rcases this with h | h
  · exact .inl h
  · exact .inr ⟨by have := h.1; simp only [Char.toNat]; omega, h.2⟩

theorem char_inj {s t : Str} (h : s.map Char.toNat = t.map Char.toNat) : s = t := by
  refine List.map_injective_iff.2 (fun a b h => ?_) h
  exact Char.ext (UInt32.toNat_inj.1 h)

theorem utf8_inj {s t : Str} (h : encs (s.map Char.toNat) = encs (t.map Char.toNat)) : s = t := by
  refine char_inj (Unicode.encs_inj ?_ ?_ h) <;>
  · intro c hc
    obtain ⟨x, _, rfl⟩ := List.mem_map.1 hc
    exact char_scalar x

theorem enc_small {cp b : Nat} (h : IsScalar cp) (hb : b < 128) (hm : UInt8.ofNat b ∈ enc cp) : cp = b := by
  have hcp : cp < 0x110000 := by rcases h with h | h <;> omega
  have key : ∀ x, UInt8.ofNat b = UInt8.ofNat x → x < 256 → b = x := by
    intro x h hx
    have := congrArg UInt8.toNat h
    simpa [Nat.mod_eq_of_lt hx, Nat.mod_eq_of_lt (show b < 256 by omega)] using this
  unfold enc width at hm
  split at hm
  · simp only [form, List.mem_singleton] at hm
    exact (key _ hm (by omega)).symm
  · split at hm
    · simp only [form, List.mem_cons, List.not_mem_nil, or_false] at hm
      rcases hm with h | h <;> have := key _ h (by omega) <;> omega
    · split at hm
      · simp only [form, List.mem_cons, List.not_mem_nil, or_false] at hm
        rcases hm with h | h | h <;> have := key _ h (by omega) <;> omega
      · simp only [form, List.mem_cons, List.not_mem_nil, or_false] at hm
        rcases hm with h | h | h | h <;> have := key _ h (by omega) <;> omega

theorem enc_ascii {c : Nat} (h : c < 128) : enc c = [UInt8.ofNat c] := by simp [enc, width, h, form]

theorem encs_chars {l : List Nat} (h : ∀ c ∈ l, c < 128) : encs ((chars l).map Char.toNat) = toB l := by
  induction l with
  | nil => rfl
  | cons a l ih =>
    have ha := h a (by simp)
    have := ih fun c hc => h c (by simp [hc])
    simp only [encs, chars, List.map_cons, List.flatMap_cons, toB] at this ⊢
    rw [this, toNat_ofNat (.inl (by omega)), enc_ascii ha]
    rfl

/-- An ASCII byte is a character. -/
theorem utf8_cut {b : Nat} (hb : b < 128) : ∀ {text : Str} {x y : List UInt8}, encs (text.map Char.toNat) = x ++ UInt8.ofNat b :: y →
    ∃ s t, text = s ++ Char.ofNat b :: t ∧ encs (s.map Char.toNat) = x ∧ encs (t.map Char.toNat) = y := by
  intro text
  induction text with
  | nil => intro x y h; simp [encs] at h
  | cons c text ih =>
    intro x y h
    have h' : enc c.toNat ++ encs (text.map Char.toNat) = x ++ UInt8.ofNat b :: y := h
    obtain ⟨a', h1, h2⟩ | ⟨z, h1, h2⟩ := List.append_eq_append_iff.1 h'
    · obtain ⟨s, t, rfl, h3, h4⟩ := ih h2
      refine ⟨c :: s, t, rfl, ?_, h4⟩
      rw [h1, ← h3]
      rfl
    · cases z with
      | nil =>
        simp only [List.nil_append] at h2
        obtain ⟨s, t, rfl, h3, h4⟩ := ih (x := []) h2.symm
        refine ⟨c :: s, t, rfl, ?_, h4⟩
        have : encs ((c :: s).map Char.toNat) = enc c.toNat ++ encs (s.map Char.toNat) := rfl
        rw [this, h3, h1, List.append_nil, List.append_nil]
      | cons w z =>
        simp only [List.cons_append, List.cons.injEq] at h2
        obtain ⟨rfl, h2⟩ := h2
        have hc := enc_small (char_scalar c) hb (by rw [h1]; simp)
        rw [hc, enc_ascii hb] at h1
        have hx : x = [] := by
          cases x with
          | nil => rfl
          | cons _ x => simp at h1
        subst hx
        simp only [List.nil_append, List.cons.injEq, true_and] at h1
        subst h1
        refine ⟨[], text, ?_, rfl, h2.symm⟩
        rw [← hc, Char.ofNat_toNat]
        rfl

/-- Of a file of bytes. -/
def Bytes (l : List Nat) : Prop := ∀ c ∈ l, c < 256

open Classical in
/-- Decodes a line. -/
noncomputable def utf8 (l : List Nat) : Str := if h : ∃ s : Str, Bytes l ∧ encs (s.map Char.toNat) = toB l then h.choose else chars l

theorem utf8_of {s : Str} {l : List Nat} (hl : Bytes l) (h : encs (s.map Char.toNat) = toB l) : utf8 l = s := by
  have : ∃ s : Str, Bytes l ∧ encs (s.map Char.toNat) = toB l := ⟨s, hl, h⟩
  rw [utf8, dif_pos this]
  exact utf8_inj (this.choose_spec.2.trans h.symm)

theorem latin1 : Decoder chars where
  ascii _ _ := rfl
  feed l h := by
    intro hm
    obtain ⟨c, hc, e⟩ := List.mem_map.1 hm
    have : c = 10 := by
      by_cases hv : c.isValidChar
      · have h2 := congrArg Char.toNat e
        rw [toNat_ofNat hv] at h2
        exact h2
      · rw [Char.ofNat, dif_neg hv] at e
        exact absurd e (by decide)
    exact h (this ▸ hc)
  hash l := ⟨chars l, rfl⟩

theorem utf8_decoder : Decoder utf8 where
  ascii l h := utf8_of (fun c hc => by have := h c hc; omega) (encs_chars h)
  feed l h := by
    by_cases hs : ∃ s : Str, Bytes l ∧ encs (s.map Char.toNat) = toB l
    · obtain ⟨s, h1, h2⟩ := hs
      rw [utf8_of h1 h2]
      intro hm
      have : UInt8.ofNat 10 ∈ toB l := by
        rw [← h2]
        exact List.mem_flatMap.2 ⟨10, List.mem_map.2 ⟨_, hm, rfl⟩, by decide⟩
      obtain ⟨c, hc, e⟩ := List.mem_map.1 this
      have e' := congrArg UInt8.toNat e
      have hc' := h1 c hc
      simp only [UInt8.toNat_ofNat', Nat.reducePow, Nat.mod_eq_of_lt hc', Nat.reduceMod] at e'
      exact h (e' ▸ hc)
    · rw [utf8, dif_neg hs]
      exact latin1.feed l h
  hash l := by
    by_cases hs : ∃ s : Str, Bytes (35 :: l) ∧ encs (s.map Char.toNat) = toB (35 :: l)
    · obtain ⟨s, h1, h2⟩ := hs
      rw [utf8_of h1 h2]
      obtain ⟨a, t, rfl, h3, _⟩ := utf8_cut (b := 35) (by decide) (x := []) (y := toB l) (by rw [h2]; rfl)
      rw [utf8_inj (t := []) h3]
      exact ⟨t, rfl⟩
    · rw [utf8, dif_neg hs]
      exact latin1.hash l

/-- The text that has a file as its UTF-8 form, line by line. -/
theorem utf8_lines {ls : List (List Nat)} (hb : ∀ l ∈ ls, Bytes l) : ∀ {text : Str}, encs (text.map Char.toNat) = toB (ls.flatMap fun l => l ++ [10]) →
    text = ls.flatMap fun l => utf8 l ++ ['\n'] := by
  induction ls with
  | nil =>
    intro text h
    exact utf8_inj (t := []) h
  | cons l ls ih =>
    intro text h
    obtain ⟨s, t, rfl, h1, h2⟩ := utf8_cut (b := 10) (by decide) (x := toB l) (y := toB (ls.flatMap fun l => l ++ [10])) (by rw [h]; simp [toB])
    rw [List.flatMap_cons, utf8_of (hb l (by simp)) h1, ← ih (fun l hl => hb l (by simp [hl])) h2]
    simp

theorem pieces_bytes (cs : List Piece) : Bytes (cs.flatMap Piece.bytes) := by
  intro c hc
  obtain ⟨p, _, h⟩ := List.mem_flatMap.1 hc
  exact unpack_lt _ _ c h

/-- ASCII. -/
abbrev m7 : Nat := nat_lit 340282366920938463463374607431768211455
/-- First bytes of two. -/
abbrev mLead : Nat := nat_lit 26959946642042232853120292031676472980806478758131150703247472197632
/-- Second bytes. -/
abbrev mCont : Nat := nat_lit 6277101735386680763495507056286727952638980837032266301440

/-- Two-byte sequences and ASCII. -/
noncomputable def two (k n : Nat) (s : Bool) : Bool :=
  Nat.rec (motive := fun _ => Nat → Bool → Bool) (fun _ s => Bool.rec true false s)
    (fun _ ih n s => Bool.rec
      (Bool.rec (both (bit mLead (Nat.land n (nat_lit 255))) (ih (Nat.shiftRight n (nat_lit 8)) true)) (ih (Nat.shiftRight n (nat_lit 8)) false)
        (bit m7 (Nat.land n (nat_lit 255))))
      (both (bit mCont (Nat.land n (nat_lit 255))) (ih (Nat.shiftRight n (nat_lit 8)) false)) s) k n s

theorem two_false (k n : Nat) : two (k + 1) n false = true ↔
    bit m7 (n % 256) = true ∧ two k (n / 256) false = true ∨ bit m7 (n % 256) = false ∧ bit mLead (n % 256) = true ∧ two k (n / 256) true = true := by
  have : two (k + 1) n false = Bool.rec (both (bit mLead (Nat.land n 255)) (two k (Nat.shiftRight n 8) true)) (two k (Nat.shiftRight n 8) false) (bit m7 (Nat.land n 255)) := rfl
  rw [this, land_255, shift_8]
  cases bit m7 (n % 256) <;> simp [both_iff]

theorem two_true (k n : Nat) : two (k + 1) n true = true ↔ bit mCont (n % 256) = true ∧ two k (n / 256) false = true := by
  have : two (k + 1) n true = both (bit mCont (Nat.land n 255)) (two k (Nat.shiftRight n 8) false) := rfl
  rw [this, land_255, shift_8, both_iff]

theorem bit_two : ∀ c < 256, (bit m7 c = true → c < 128) ∧ (bit mLead c = true → 194 ≤ c ∧ c ≤ 223) ∧ (bit mCont c = true → 128 ≤ c ∧ c ≤ 191) := by decide +kernel

theorem two_sound (k : Nat) : ∀ n, (two k n false = true → ∃ s : Str, encs (s.map Char.toNat) = toB (unpack k n)) ∧
    ∀ p, 194 ≤ p → p ≤ 223 → two k n true = true → ∃ s : Str, encs (s.map Char.toNat) = toB (p :: unpack k n) := by
  induction k with
  | zero => exact fun n => ⟨fun _ => ⟨[], rfl⟩, fun p _ _ h => by cases h⟩
  | succ k ih =>
    intro n
    obtain ⟨b1, b2, b3⟩ := bit_two (n % 256) (Nat.mod_lt _ (by decide))
    have hu : unpack (k + 1) n = n % 256 :: unpack k (n / 256) := rfl
    constructor
    · intro h
      rcases (two_false k n).1 h with ⟨h1, h2⟩ | ⟨_, h1, h2⟩
      · obtain ⟨s, hs⟩ := (ih _).1 h2
        have h1 := b1 h1
        refine ⟨Char.ofNat (n % 256) :: s, ?_⟩
        rw [hu]
        simp only [encs, List.map_cons, List.flatMap_cons, toB] at hs ⊢
        rw [hs, toNat_ofNat (.inl (by omega)), enc_ascii h1]
        rfl
      · rw [hu]
        exact (ih _).2 _ (b2 h1).1 (b2 h1).2 h2
    · intro p h1 h2 h
      obtain ⟨h3, h4⟩ := (two_true k n).1 h
      obtain ⟨s, hs⟩ := (ih _).1 h4
      have h3 := b3 h3
      rw [hu]
      generalize n % 256 = a at h3 ⊢
      refine ⟨Char.ofNat ((p - 192) * 64 + (a - 128)) :: s, ?_⟩
      simp only [encs, List.map_cons, List.flatMap_cons, toB] at hs ⊢
      rw [hs, toNat_ofNat (.inl (by omega)), enc, width, if_neg (by omega), if_pos (by omega), form]
      have e1 : 0xC0 + ((p - 192) * 64 + (a - 128)) / 64 = p := by omega
      have e2 : 0x80 + ((p - 192) * 64 + (a - 128)) % 64 = a := by omega
      rw [e1, e2]
      rfl

/-- The highest bits of `k` bytes. -/
def highs (k : Nat) : Nat := (256 ^ k - 1) / 255 * 128

theorem highs_succ (k : Nat) : highs (k + 1) = highs k * 256 + 128 := by
  have key : ∀ k, ∃ q, 256 ^ k = 255 * q + 1 := by
    intro k
    induction k with
    | zero => exact ⟨0, rfl⟩
    | succ k ih => obtain ⟨q, h⟩ := ih; exact ⟨256 * q + 1, by rw [Nat.pow_succ, h]; omega⟩
  obtain ⟨q, h⟩ := key k
  rw [highs, highs, Nat.pow_succ, h]
  have e1 : ((255 * q + 1) * 256 - 1) / 255 = 256 * q + 1 := by omega
  have e2 : (255 * q + 1 - 1) / 255 = q := by omega
  rw [e1, e2]
  omega

theorem highs_sound (k : Nat) : ∀ n, n &&& highs k = 0 → ∀ c ∈ unpack k n, c < 128 := by
  induction k with
  | zero => intro n _ c h; cases h
  | succ k ih =>
    intro n h c hc
    rw [highs_succ] at h
    have h1 : n % 2 ^ 8 &&& (highs k * 256 + 128) % 2 ^ 8 = 0 := by rw [← Nat.and_mod_two_pow, h]
    have h2 : n / 2 ^ 8 &&& (highs k * 256 + 128) / 2 ^ 8 = 0 := by rw [← Nat.and_div_two_pow, h]
    have e1 : (highs k * 256 + 128) % 2 ^ 8 = 128 := by omega
    have e2 : (highs k * 256 + 128) / 2 ^ 8 = highs k := by omega
    rw [e1] at h1
    rw [e2] at h2
    rcases List.mem_cons.1 (show c ∈ n % 256 :: unpack k (n / 256) from hc) with rfl | hc
    · have : ∀ a < 256, a &&& 128 = 0 → a < 128 := by decide +kernel
      exact this _ (Nat.mod_lt _ (by decide)) h1
    · exact ih _ h2 c hc

theorem unpack_add (a b : Nat) : ∀ n, unpack (a + b) n = unpack a n ++ unpack b (n / 256 ^ a) := by
  induction a with
  | zero => intro n; simp [unpack]
  | succ a ih =>
    intro n
    have : a + 1 + b = a + b + 1 := by omega
    rw [this, unpack, unpack, ih, Nat.div_div_eq_div_mul, Nat.pow_succ, Nat.mul_comm 256]
    rfl

/-- A part of a file in UTF-8: in ASCII from byte 200 on. -/
noncomputable def Piece.okUtf (c : Piece) : Bool :=
  Bool.rec (both (Nat.ble 200 c.k) (both (two 200 c.n false) (Nat.beq (Nat.land (c.n / 256 ^ 200) (highs (c.k - 200))) 0))) true (Nat.beq (Nat.land c.n (highs c.k)) 0)

theorem Piece.utf {c : Piece} (h : c.okUtf = true) : ∃ s : Str, encs (s.map Char.toNat) = toB c.bytes := by
  cases hb : Nat.beq (Nat.land c.n (highs c.k)) 0 with
  | true => exact ⟨chars c.bytes, encs_chars (highs_sound _ _ (Nat.eq_of_beq_eq_true hb))⟩
  | false =>
    rw [Piece.okUtf, hb] at h
    have h' : both (Nat.ble 200 c.k) (both (two 200 c.n false) (Nat.beq (Nat.land (c.n / 256 ^ 200) (highs (c.k - 200))) 0)) = true := h
    simp only [both_iff, Nat.ble_eq] at h'
    obtain ⟨h1, h2, h3⟩ := h'
    obtain ⟨s, hs⟩ := (two_sound _ _).1 h2
    have ht := encs_chars (highs_sound _ _ (Nat.eq_of_beq_eq_true h3))
    refine ⟨s ++ chars (unpack (c.k - 200) (c.n / 256 ^ 200)), ?_⟩
    have : c.bytes = unpack 200 c.n ++ unpack (c.k - 200) (c.n / 256 ^ 200) := by
      rw [← unpack_add, Nat.add_sub_cancel' h1]
      rfl
    rw [this, toB_append, ← hs, ← ht]
    simp [encs]

theorem two_pieces {cs : List Piece} (h : cs.all Piece.okUtf = true) : ∃ s : Str, encs (s.map Char.toNat) = toB (cs.flatMap Piece.bytes) := by
  induction cs with
  | nil => exact ⟨[], rfl⟩
  | cons c cs ih =>
    simp only [List.all_cons, Bool.and_eq_true] at h
    obtain ⟨s, hs⟩ := Piece.utf h.1
    obtain ⟨t, ht⟩ := ih h.2
    refine ⟨s ++ t, ?_⟩
    simp only [encs, toB, List.map_append, List.flatMap_append, List.flatMap_cons] at hs ht ⊢
    rw [hs, ht]

end Verif.Shipped
