import Verif.Proofs.Base64Dec
import Verif.Base.Tac

namespace Verif.Base64
open Verif.Spec.Base64

theorem text_length_le (src : List UInt8) (n : Nat) : (text src n).length ≤ n := by
  have := (List.takeWhile_sublist (fun c : UInt8 => decide (c ≠ 0)) (l := src.take n)).length_le
  simp only [List.length_take] at this
  simp only [text]; omega

theorem text_drop (src : List UInt8) (n k : Nat) (hk : k ≤ (text src n).length) :
    text (src.drop k) (n - k) = (text src n).drop k := by
  induction k generalizing src n with
  | zero => simp
  | succ k ih =>
    cases src with
    | nil => simp
    | cons c r =>
      cases n with
      | zero => simp
      | succ n =>
        rw [text_cons] at hk ⊢
        split
        · rename_i h; rw [if_pos h] at hk; simp at hk
        · rename_i h; rw [if_neg h] at hk
          simp only [List.drop_succ_cons, Nat.add_sub_add_right]
          exact ih r n (by simpa using hk)

theorem Readable.drop {src : List UInt8} {n k : Nat} (hr : Readable src n) (hk : k ≤ (text src n).length) :
    Readable (src.drop k) (n - k) := by
  induction k generalizing src n with
  | zero => simpa using hr
  | succ k ih =>
    cases src with
    | nil => simp at hk
    | cons c r =>
      cases n with
      | zero => simp at hk
      | succ n =>
        rw [text_cons] at hk
        split at hk
        · simp at hk
        · rename_i h
          simp only [List.drop_succ_cons, Nat.add_sub_add_right]
          exact ih (hr.tail h) (by simpa using hk)

theorem hasPrefix_spec (src p : List UInt8) (n : Nat) (hr : Readable src n) (hp : p.length ≤ n) (h0 : (0 : UInt8) ∉ p) :
    hasPrefix src p = .ok (p.isPrefixOf (text src n)) := by
  induction p generalizing src n with
  | nil => simp [hasPrefix, pure, Except.pure]
  | cons a p ih =>
    cases n with
    | zero => simp at hp
    | succ n =>
      cases src with
      | nil => rcases hr with h | h <;> simp at h
      | cons c r =>
        simp only [List.mem_cons, not_or] at h0
        rw [hasPrefix, text_cons]
        by_cases hc : c = 0
        · have : c ≠ a := fun e => h0.1 (by rw [← e, hc])
          simp [this, hc, pure, Except.pure, h0.1]
        · rw [if_neg hc]
          by_cases hca : c = a
          · subst hca
            simp [ih r n (hr.tail hc) (by simpa using hp) h0.2]
          · have : ¬ a = c := fun e => hca e.symm
            simp only [hca, if_false, pure, Except.pure]
            rw [List.isPrefixOf_cons₂]; simp [this]

theorem goodTermination_loop (src : List UInt8) (n : Nat) (hr : Readable src n) :
    goodTermination.loop src n = .ok ((text src n).all (fun c => decodingOf c = -2)) := by
  induction src generalizing n with
  | nil =>
    cases n with
    | zero => simp [goodTermination.loop, pure, Except.pure]
    | succ n => rcases hr with h | h <;> simp at h
  | cons c r ih =>
    cases n with
    | zero => simp [goodTermination.loop, pure, Except.pure]
    | succ n =>
      rw [goodTermination.loop, text_cons]
      by_cases hc : c = 0
      · simp [hc, pure, Except.pure]
      · rw [if_neg hc, if_neg hc]
        by_cases h2 : decodingOf c = -2
        · simp [h2, ih n (hr.tail hc)]
        · simp [h2, pure, Except.pure]

theorem goodTermination_spec (src : List UInt8) (n : Nat) (ign : Bool) (hr : Readable src n) :
    goodTermination src n ign = .ok (if ign then (text src n).all (fun c => decodingOf c = -2) else (text src n).isEmpty) := by
  unfold goodTermination
  cases ign with
  | true => simp [goodTermination_loop src n hr]
  | false =>
    cases n with
    | zero => simp [pure, Except.pure]
    | succ n =>
      cases src with
      | nil => rcases hr with h | h <;> simp at h
      | cons c r =>
        by_cases hc : c = 0 <;> simp [text_cons, hc, pure, Except.pure]

/-- Padding expected for a number of pending bits. -/
def padOf (bc : Nat) : List UInt8 := if bc = 4 then [61, 61] else if bc = 2 then [61] else []

theorem goodTail_spec (src : List UInt8) (n bc : Nat) (ign : Bool) (hr : Readable src n) (hb : bc = 0 ∨ bc = 2 ∨ bc = 4) :
    goodTail src n bc ign = .ok ((padOf bc).isPrefixOf (text src n) &&
      (if ign then ((text src n).drop (padOf bc).length).all (fun c => decodingOf c = -2)
       else ((text src n).drop (padOf bc).length).isEmpty)) := by
  have key : ∀ p : List UInt8, (0 : UInt8) ∉ p →
      (if n < p.length then (.ok false : C Bool) else do
        if !(← hasPrefix src p) then return false
        goodTermination (src.drop p.length) (n - p.length) ign) =
      .ok (p.isPrefixOf (text src n) &&
      (if ign then ((text src n).drop p.length).all (fun c => decodingOf c = -2)
       else ((text src n).drop p.length).isEmpty)) := by
    intro p hp
    have hl := text_length_le src n
    split
    · rename_i hlt
      have : p.isPrefixOf (text src n) = false := by
        rw [Bool.eq_false_iff]
        intro h
        rw [List.isPrefixOf_iff_prefix] at h
        have := h.length_le
        omega
      simp [this]
    · rename_i hlt
      rw [hasPrefix_spec src p n hr (by omega) hp]
      by_cases h : p.isPrefixOf (text src n) = true
      · have hle : p.length ≤ (text src n).length := (List.isPrefixOf_iff_prefix.mp h).length_le
        rw [h]
        simp only [bind, Except.bind, Bool.not_true, Bool.false_eq_true, if_false, Bool.true_and]
        rw [goodTermination_spec _ _ _ (hr.drop hle), text_drop _ _ _ hle]
      · simp [h, bind, Except.bind, pure, Except.pure]
  rcases hb with rfl | rfl | rfl
  · have := key [] (by simp)
    rw [show padOf 0 = [] from rfl, ← this]; simp [goodTail, bind, Except.bind, pure, Except.pure]
  · have := key [61] (by decide)
    rw [show padOf 2 = [61] from rfl, ← this]; simp [goodTail, bind, Except.bind, pure, Except.pure]
  · have := key [61, 61] (by decide)
    rw [show padOf 4 = [61, 61] from rfl, ← this]; simp [goodTail, bind, Except.bind, pure, Except.pure]

/-! ### Character classes -/

theorem u8_forall {P : UInt8 → Prop} (h : ∀ n : Fin 256, P (UInt8.ofNat n)) (c : UInt8) : P c := by
  have := h ⟨c.toNat, c.toNat_lt⟩
  simpa using this

theorem decoding_digit : ∀ v : Fin 62, ∀ p q, decodingOf (digit p q v) = (v : Nat) ∧
    ((65 ≤ digit p q v ∧ digit p q v ≤ 90) ∨ (97 ≤ digit p q v ∧ digit p q v ≤ 122) ∨
      (48 ≤ digit p q v ∧ digit p q v ≤ 57)) := by
  have h : ∀ v : Fin 62, decodingOf (digit 0 0 v) = (v : Nat) ∧
    ((65 ≤ digit 0 0 v ∧ digit 0 0 v ≤ 90) ∨ (97 ≤ digit 0 0 v ∧ digit 0 0 v ≤ 122) ∨
      (48 ≤ digit 0 0 v ∧ digit 0 0 v ≤ 57)) := by decide +kernel
  intro v p q
  have e : digit p q v = digit 0 0 v := by
    have := v.2
    simp only [digit, this, if_true]
  rw [e]; exact h v

theorem table_inv (c : UInt8) : c ≠ 127 → c ≠ 255 →
    (decodingOf c = -2 ↔ isWs c = true) ∧
    (0 ≤ decodingOf c → decodingOf c ≠ 62 → decodingOf c ≠ 63 →
      (decodingOf c).toNat < 62 ∧ digit 0 0 (decodingOf c).toNat = c) := by
  refine u8_forall (P := fun c => c ≠ 127 → c ≠ 255 →
    (decodingOf c = -2 ↔ isWs c = true) ∧
    (0 ≤ decodingOf c → decodingOf c ≠ 62 → decodingOf c ≠ 63 →
      (decodingOf c).toNat < 62 ∧ digit 0 0 (decodingOf c).toNat = c)) ?_ c
  decide +kernel

theorem digit_small (p q : UInt8) (v : Nat) (h : v < 62) : digit p q v = digit 0 0 v := by
  simp only [digit, h, if_true]

theorem getBits_digit {p62 p63 : UInt8} (ha : Alphabet p62 p63) (ign : Bool) (v : Nat) (hv : v < 64) :
    getBits (digit p62 p63 v) p62 p63 ign = v := by
  by_cases h : v < 62
  · obtain ⟨e, hr⟩ := decoding_digit ⟨v, h⟩ p62 p63
    simp only at e hr
    have n1 : digit p62 p63 v ≠ p62 := by
      intro e'; have := ha.2 p62 (Or.inl rfl); rw [e'] at hr; tauto
    have n2 : digit p62 p63 v ≠ p63 := by
      intro e'; have := ha.2 p63 (Or.inr rfl); rw [e'] at hr; tauto
    simp only [getBits, n1, n2, if_false, e]
    rw [if_neg (by omega), if_neg (by omega)]
  · have : v = 62 ∨ v = 63 := by omega
    rcases this with rfl | rfl
    · simp [digit, getBits]
    · simp [digit, getBits, ha.1.symm]

theorem getBits_ws {p62 p63 : UInt8} (ha : Alphabet p62 p63) (c : UInt8) (h : isWs c = true) :
    getBits c p62 p63 true = -2 := by
  have n1 : c ≠ p62 := by intro e; have := (ha.2 p62 (Or.inl rfl)); rw [← e] at this; simp [h] at this
  have n2 : c ≠ p63 := by intro e; have := (ha.2 p63 (Or.inr rfl)); rw [← e] at this; simp [h] at this
  have n3 : c ≠ 127 := by rintro rfl; simp [isWs] at h
  have n4 : c ≠ 255 := by rintro rfl; simp [isWs] at h
  have := (table_inv c n3 n4).1.mpr h
  simp [getBits, n1, n2, this]

theorem getBits_inv {p62 p63 : UInt8} (ign : Bool) (c : UInt8) (h1 : c ≠ 127) (h2 : c ≠ 255) :
    (0 ≤ getBits c p62 p63 ign → (getBits c p62 p63 ign).toNat < 64 ∧ digit p62 p63 (getBits c p62 p63 ign).toNat = c) ∧
    (getBits c p62 p63 ign = -2 → ign = true ∧ isWs c = true) := by
  unfold getBits
  obtain ⟨t1, t2⟩ := table_inv c h1 h2
  split
  · rename_i e; simp [digit, e]
  · split
    · rename_i e; simp [digit, e]
    · simp only
      split
      · simp
      · rename_i n6
        split
        · rename_i e
          cases ign with
          | true => simp [e]; exact t1.mp e
          | false => simp
        · rename_i e
          constructor
          · intro hp
            have := t2 hp (by tauto) (by tauto)
            exact ⟨by omega, by rw [digit_small _ _ _ this.1]; exact this.2⟩
          · intro e'; exact absurd e' e

end Verif.Base64
