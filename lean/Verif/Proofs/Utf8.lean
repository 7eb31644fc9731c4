import Verif.Model.Utf8
import Verif.Spec.Utf8
import Verif.Base.U8
import Verif.Base.Splice
import Verif.Base.Tac

/-! Helper lemmas for UTF-8. -/

namespace Verif.Utf8
open Verif.Spec.Utf8

theorem contByte (c : UInt8) : c &&& 0xc0 = 0x80 → c = UInt8.ofNat (0x80 + (c &&& 0x3f).toNat) ∧ (c &&& 0x3f).toNat < 64 := by
  revert c; apply u8_all; decide +kernel

theorem contByte_mk : ∀ d : Fin 64, (UInt8.ofNat (0x80 + d.val)) &&& 0xc0 = 0x80 ∧ ((UInt8.ofNat (0x80 + d.val)) &&& 0x3f).toNat = d.val := by
  decide +kernel

theorem shl_or (a d : Nat) (h : d < 64) : a <<< 6 ||| d = a * 64 + d := by
  rw [← Nat.shiftLeft_add_eq_or_of_lt (by omega : d < 2 ^ 6), Nat.shiftLeft_eq]

theorem cont_some {cp cp' : Nat} {s s' : List UInt8} {lim lim' : Option Nat} :
    cont cp (s, lim) = .ok (some (cp', (s', lim'))) ↔
      ∃ d, d < 64 ∧ s = UInt8.ofNat (0x80 + d) :: s' ∧ lim ≠ some 0 ∧ lim' = adv lim ∧ cp' = cp * 64 + d := by
  constructor
  · intro h
    simp only [cont] at h
    split at h; · simp at h
    split at h; · simp at h
    split at h; · simp at h
    rename_i h1 _ c s h2
    simp only [Except.ok.injEq, Option.some.injEq, Prod.mk.injEq] at h
    obtain ⟨rfl, rfl, rfl⟩ := h
    have := contByte c (by simpa using h2)
    refine ⟨_, this.2, by rw [← this.1], h1, rfl, shl_or _ _ this.2⟩
  · rintro ⟨d, hd, rfl, h1, rfl, rfl⟩
    have := contByte_mk ⟨d, hd⟩
    simp only at this
    simp only [cont, h1, if_false, this.1, this.2, shl_or _ _ hd]
    simp

theorem validUnicode_iff (cp : Nat) : validUnicode cp = true ↔ IsScalar cp := by
  simp [validUnicode, IsScalar]; omega

/-- `n` bytes may be consumed before `end`. -/
def Room (lim : Option Nat) (n : Nat) : Prop := ∀ e, lim = some e → n ≤ e

/-- `end` seen from `n` bytes further. -/
def advN (lim : Option Nat) (n : Nat) : Option Nat := lim.map (· - n)

theorem last_some {cp cp' : Nat} {s s' : List UInt8} {lim lim' : Option Nat} :
    last cp (s, lim) = .ok (some (cp', (s', lim'))) ↔
      ∃ d, d < 64 ∧ s = UInt8.ofNat (0x80 + d) :: s' ∧ Room lim 1 ∧ lim' = advN lim 1 ∧ cp' = cp * 64 + d ∧ IsScalar cp' := by
  have hr : lim ≠ some 0 ↔ Room lim 1 := by
    cases lim with
    | none => simp [Room]
    | some n => simp [Room]; omega
  simp only [last]
  constructor
  · intro h
    split at h
    · simp at h
    · simp at h
    · rename_i cp1 p h1
      split at h
      · rename_i hv
        simp only [Except.ok.injEq, Option.some.injEq, Prod.mk.injEq] at h
        obtain ⟨rfl, rfl⟩ := h
        obtain ⟨d, hd, hs, hl, hl', rfl⟩ := cont_some.mp h1
        exact ⟨d, hd, hs, hr.mp hl, hl', rfl, (validUnicode_iff _).mp hv⟩
      · simp at h
  · rintro ⟨d, hd, hs, hl, hl', rfl, hv⟩
    have := (cont_some (cp := cp)).mpr ⟨d, hd, hs, hr.mpr hl, hl', rfl⟩
    rw [this]
    simp [(validUnicode_iff _).mpr hv]

theorem last2_some {cp cp' : Nat} {s s' : List UInt8} {lim lim' : Option Nat} :
    last2 cp (s, lim) = .ok (some (cp', (s', lim'))) ↔
      ∃ d e, d < 64 ∧ e < 64 ∧ s = UInt8.ofNat (0x80 + d) :: UInt8.ofNat (0x80 + e) :: s' ∧ Room lim 2 ∧ lim' = advN lim 2 ∧
        cp' = cp * 4096 + d * 64 + e ∧ IsScalar cp' := by
  simp only [last2]
  constructor
  · intro h
    split at h
    · simp at h
    · simp at h
    · rename_i cp1 p h1
      obtain ⟨s1, l1⟩ := p
      obtain ⟨d, hd, rfl, hl, rfl, rfl⟩ := cont_some.mp h1
      obtain ⟨e, he, rfl, hl2, rfl, rfl, hv⟩ := last_some.mp h
      refine ⟨d, e, hd, he, rfl, ?_, ?_, by omega, hv⟩
      · cases lim with
        | none => simp [Room]
        | some n => simp [Room, adv] at hl hl2 ⊢; omega
      · cases lim with
        | none => simp [advN, adv]
        | some n => simp [advN, adv] at hl hl2 ⊢; omega
  · rintro ⟨d, e, hd, he, rfl, hl, rfl, rfl, hv⟩
    rw [cont_some.mpr ⟨d, hd, rfl, ?_, rfl, rfl⟩]
    · simp only
      rw [last_some]
      refine ⟨e, he, rfl, ?_, ?_, by omega, hv⟩
      · cases lim with
        | none => simp [Room, adv]
        | some n => simp [Room, adv] at hl ⊢; omega
      · cases lim with
        | none => simp [advN, adv]
        | some n => simp [advN, adv] at hl ⊢; omega
    · cases lim with
      | none => simp
      | some n => simp [Room] at hl ⊢; omega

theorem last3_some {cp cp' : Nat} {s s' : List UInt8} {lim lim' : Option Nat} :
    last3 cp (s, lim) = .ok (some (cp', (s', lim'))) ↔
      ∃ c d e, c < 64 ∧ d < 64 ∧ e < 64 ∧
        s = UInt8.ofNat (0x80 + c) :: UInt8.ofNat (0x80 + d) :: UInt8.ofNat (0x80 + e) :: s' ∧ Room lim 3 ∧
        lim' = advN lim 3 ∧ cp' = cp * 262144 + c * 4096 + d * 64 + e ∧ IsScalar cp' := by
  simp only [last3]
  constructor
  · intro h
    split at h
    · simp at h
    · simp at h
    · rename_i cp1 p h1
      obtain ⟨s1, l1⟩ := p
      obtain ⟨c, hc, rfl, hl, rfl, rfl⟩ := cont_some.mp h1
      obtain ⟨d, e, hd, he, rfl, hl2, rfl, rfl, hv⟩ := last2_some.mp h
      refine ⟨c, d, e, hc, hd, he, rfl, ?_, ?_, by omega, hv⟩
      · cases lim with
        | none => simp [Room]
        | some n => simp [Room, adv] at hl hl2 ⊢; omega
      · cases lim with
        | none => simp [advN, adv]
        | some n => simp [advN, adv] at hl hl2 ⊢; omega
  · rintro ⟨c, d, e, hc, hd, he, rfl, hl, rfl, rfl, hv⟩
    rw [cont_some.mpr ⟨c, hc, rfl, ?_, rfl, rfl⟩]
    · simp only
      rw [last2_some]
      refine ⟨d, e, hd, he, rfl, ?_, ?_, by omega, hv⟩
      · cases lim with
        | none => simp [Room, adv]
        | some n => simp [Room, adv] at hl ⊢; omega
      · cases lim with
        | none => simp [advN, adv]
        | some n => simp [advN, adv] at hl ⊢; omega
    · cases lim with
      | none => simp
      | some n => simp [Room] at hl ⊢; omega

theorem lead1 (c : UInt8) : c &&& 0x80 = 0 → c = UInt8.ofNat (c &&& 0x7f).toNat ∧ (c &&& 0x7f).toNat < 128 := by
  revert c; apply u8_all; decide +kernel

theorem lead2 (c : UInt8) : ¬ c &&& 0x80 = 0 → ¬ c &&& 0x40 = 0 → c &&& 0x20 = 0 →
    c = UInt8.ofNat (0xC0 + (c &&& 0x1f).toNat) ∧ (c &&& 0x1f).toNat < 32 := by
  revert c; apply u8_all; decide +kernel

theorem lead3 (c : UInt8) : ¬ c &&& 0x80 = 0 → ¬ c &&& 0x40 = 0 → ¬ c &&& 0x20 = 0 → c &&& 0x10 = 0 →
    c = UInt8.ofNat (0xE0 + (c &&& 0x0f).toNat) ∧ (c &&& 0x0f).toNat < 16 := by
  revert c; apply u8_all; decide +kernel

theorem lead4 (c : UInt8) : ¬ c &&& 0x80 = 0 → ¬ c &&& 0x40 = 0 → ¬ c &&& 0x20 = 0 → ¬ c &&& 0x10 = 0 → c &&& 0x08 = 0 →
    c = UInt8.ofNat (0xF0 + (c &&& 0x07).toNat) ∧ (c &&& 0x07).toNat < 8 := by
  revert c; apply u8_all; decide +kernel

theorem mk1 : ∀ d : Fin 128, (UInt8.ofNat d.val) &&& 0x80 = 0 ∧ ((UInt8.ofNat d.val) &&& 0x7f).toNat = d.val := by
  decide +kernel

theorem mk2 : ∀ d : Fin 32, let c := UInt8.ofNat (0xC0 + d.val)
    ¬ c &&& 0x80 = 0 ∧ ¬ c &&& 0x40 = 0 ∧ c &&& 0x20 = 0 ∧ (c &&& 0x1f).toNat = d.val := by decide +kernel

theorem mk3 : ∀ d : Fin 16, let c := UInt8.ofNat (0xE0 + d.val)
    ¬ c &&& 0x80 = 0 ∧ ¬ c &&& 0x40 = 0 ∧ ¬ c &&& 0x20 = 0 ∧ c &&& 0x10 = 0 ∧ (c &&& 0x0f).toNat = d.val := by decide +kernel

theorem mk4 : ∀ d : Fin 8, let c := UInt8.ofNat (0xF0 + d.val)
    ¬ c &&& 0x80 = 0 ∧ ¬ c &&& 0x40 = 0 ∧ ¬ c &&& 0x20 = 0 ∧ ¬ c &&& 0x10 = 0 ∧ c &&& 0x08 = 0 ∧ (c &&& 0x07).toNat = d.val := by
  decide +kernel

theorem room_adv {lim : Option Nat} {n : Nat} (h0 : lim ≠ some 0) : Room (adv lim) n ↔ Room lim (n + 1) := by
  cases lim with
  | none => simp [Room, adv]
  | some m => simp [Room, adv] at h0 ⊢; omega

theorem advN_adv {lim : Option Nat} {n : Nat} : advN (adv lim) n = advN lim (n + 1) := by
  cases lim with
  | none => simp [advN, adv]
  | some m => simp [advN, adv]; omega

theorem room_ne {lim : Option Nat} {n : Nat} (h : Room lim (n + 1)) : lim ≠ some 0 := by
  cases lim with
  | none => simp
  | some m => simp [Room] at h ⊢; omega

/-- The decoder accepts exactly the (possibly overlong) encodings of scalar values that end before `end`. -/
theorem decode_some {s s' : List UInt8} {lim lim' : Option Nat} {cp : Nat} :
    decode (s, lim) = .ok (some (cp, (s', lim'))) ↔
      ∃ p, Loose p cp ∧ s = p ++ s' ∧ Room lim p.length ∧ lim' = advN lim p.length := by
  constructor
  · intro h
    simp only [decode] at h
    split at h; · simp at h
    rename_i h0
    split at h; · simp at h
    rename_i c s
    split at h
    · rename_i h1
      simp only [Except.ok.injEq, Option.some.injEq, Prod.mk.injEq] at h
      obtain ⟨rfl, rfl, rfl⟩ := h
      have := lead1 c h1
      refine ⟨[c], ⟨?_, 1, by omega, by omega, this.2, ?_⟩, rfl, ?_, rfl⟩
      · left; omega
      · simp only [form]; rw [← this.1]
      · cases lim with
        | none => simp [Room]
        | some m => simp [Room] at h0 ⊢; omega
    · rename_i h1
      split at h; · simp at h
      rename_i h2
      split at h
      · rename_i h3
        obtain ⟨d, hd, rfl, hl, rfl, rfl, hv⟩ := last_some.mp h
        have := lead2 c h1 h2 h3
        refine ⟨[c, UInt8.ofNat (0x80 + d)], ⟨hv, 2, by omega, by omega, ?_, ?_⟩, rfl, ?_, ?_⟩
        · simp only [cap]; omega
        · simp only [form]
          rw [show ((c &&& 0x1f).toNat * 64 + d) / 64 = (c &&& 0x1f).toNat by omega,
            show ((c &&& 0x1f).toNat * 64 + d) % 64 = d by omega, ← this.1]
        · exact (room_adv h0).mp hl
        · rw [advN_adv]; rfl
      · rename_i h3
        split at h
        · rename_i h4
          obtain ⟨d, e, hd, he, rfl, hl, rfl, rfl, hv⟩ := last2_some.mp h
          have := lead3 c h1 h2 h3 h4
          refine ⟨[c, UInt8.ofNat (0x80 + d), UInt8.ofNat (0x80 + e)], ⟨hv, 3, by omega, by omega, ?_, ?_⟩, rfl, ?_, ?_⟩
          · simp only [cap]; omega
          · simp only [form]
            generalize (c &&& 0x0f).toNat = x at *
            rw [show (x * 4096 + d * 64 + e) / 4096 = x by omega,
              show (x * 4096 + d * 64 + e) / 64 % 64 = d by omega,
              show (x * 4096 + d * 64 + e) % 64 = e by omega, ← this.1]
          · exact (room_adv h0).mp hl
          · rw [advN_adv]; rfl
        · rename_i h4
          split at h; · simp at h
          rename_i h5
          obtain ⟨b, d, e, hb, hd, he, rfl, hl, rfl, rfl, hv⟩ := last3_some.mp h
          have := lead4 c h1 h2 h3 h4 (by simpa using h5)
          refine ⟨[c, UInt8.ofNat (0x80 + b), UInt8.ofNat (0x80 + d), UInt8.ofNat (0x80 + e)],
            ⟨hv, 4, by omega, by omega, ?_, ?_⟩, rfl, ?_, ?_⟩
          · simp only [cap]; omega
          · simp only [form]
            generalize (c &&& 0x07).toNat = x at *
            rw [show (x * 262144 + b * 4096 + d * 64 + e) / 262144 = x by omega,
              show (x * 262144 + b * 4096 + d * 64 + e) / 4096 % 64 = b by omega,
              show (x * 262144 + b * 4096 + d * 64 + e) / 64 % 64 = d by omega,
              show (x * 262144 + b * 4096 + d * 64 + e) % 64 = e by omega, ← this.1]
          · exact (room_adv h0).mp hl
          · rw [advN_adv]; rfl
  · rintro ⟨p, ⟨hv, k, hk1, hk4, hc, rfl⟩, rfl, hr, rfl⟩
    obtain rfl | rfl | rfl | rfl : k = 1 ∨ k = 2 ∨ k = 3 ∨ k = 4 := by omega
    · simp only [form, cap] at *
      have h0 := room_ne hr
      have := mk1 ⟨cp, hc⟩
      simp only at this
      simp only [decode, h0, if_false, List.cons_append, List.nil_append, this.1, this.2, if_true]
      rfl
    · simp only [form, cap] at *
      have h0 := room_ne hr
      have := mk2 ⟨cp / 64, by omega⟩
      simp only at this
      obtain ⟨h1, h2, h3, h4⟩ := this
      simp only [decode, h0, if_false, List.cons_append, List.nil_append, h1, h2, h3, h4, if_true]
      rw [last_some]
      exact ⟨cp % 64, by omega, rfl, (room_adv h0).mpr hr, advN_adv.symm, by omega, hv⟩
    · simp only [form, cap] at *
      have h0 := room_ne hr
      have := mk3 ⟨cp / 4096, by omega⟩
      simp only at this
      obtain ⟨h1, h2, h3, h4, h5⟩ := this
      simp only [decode, h0, if_false, List.cons_append, List.nil_append, h1, h2, h3, h4, h5, if_true]
      rw [last2_some]
      exact ⟨cp / 64 % 64, cp % 64, by omega, by omega, rfl, (room_adv h0).mpr hr, advN_adv.symm, by omega, hv⟩
    · simp only [form, cap] at *
      have h0 := room_ne hr
      have := mk4 ⟨cp / 262144, by omega⟩
      simp only at this
      obtain ⟨h1, h2, h3, h4, h5, h6⟩ := this
      simp only [decode, h0, if_false, List.cons_append, List.nil_append, h1, h2, h3, h4, h5, h6]
      rw [if_neg (by simp), last3_some]
      exact ⟨cp / 4096 % 64, cp / 64 % 64, cp % 64, by omega, by omega, by omega, rfl, (room_adv h0).mpr hr,
        advN_adv.symm, by omega, hv⟩

/-- The input can be read without running off the object: a bounded `end` is inside it, an unbounded one is NUL-terminated. -/
def Readable (s : List UInt8) (lim : Option Nat) : Prop :=
  match lim with
  | some n => n ≤ s.length
  | none => (0 : UInt8) ∈ s

theorem cont_safe {cp : Nat} {s : List UInt8} {lim : Option Nat} (h : Readable s lim) :
    cont cp (s, lim) = .ok none ∨ ∃ cp' s' lim', cont cp (s, lim) = .ok (some (cp', (s', lim'))) ∧ Readable s' lim' := by
  simp only [cont]
  split
  · exact .inl rfl
  · rename_i h0
    cases s with
    | nil =>
      cases lim with
      | none => simp [Readable] at h
      | some n => simp [Readable] at h h0; omega
    | cons c s =>
      simp only
      split
      · exact .inl rfl
      · rename_i h1
        refine .inr ⟨_, _, _, rfl, ?_⟩
        cases lim with
        | none =>
          simp only [Readable, adv, Option.map_none, List.mem_cons] at h ⊢
          rcases h with h | h
          · subst h; exact absurd h1 (by decide)
          · exact h
        | some n => simp [Readable, adv] at h ⊢; omega

theorem last_safe {cp : Nat} {s : List UInt8} {lim : Option Nat} (h : Readable s lim) : ∃ r, last cp (s, lim) = .ok r := by
  simp only [last]
  rcases cont_safe (cp := cp) h with h | ⟨_, _, _, h, _⟩ <;> rw [h] <;> simp only
  · exact ⟨_, rfl⟩
  · split <;> exact ⟨_, rfl⟩

theorem last2_safe {cp : Nat} {s : List UInt8} {lim : Option Nat} (h : Readable s lim) : ∃ r, last2 cp (s, lim) = .ok r := by
  simp only [last2]
  rcases cont_safe (cp := cp) h with h | ⟨_, _, _, h, h'⟩ <;> rw [h] <;> simp only
  · exact ⟨_, rfl⟩
  · exact last_safe h'

theorem last3_safe {cp : Nat} {s : List UInt8} {lim : Option Nat} (h : Readable s lim) : ∃ r, last3 cp (s, lim) = .ok r := by
  simp only [last3]
  rcases cont_safe (cp := cp) h with h | ⟨_, _, _, h, h'⟩ <;> rw [h] <;> simp only
  · exact ⟨_, rfl⟩
  · exact last2_safe h'

/-- The decoder never leaves the object. -/
theorem decode_safe {s : List UInt8} {lim : Option Nat} (h : Readable s lim) : ∃ r, decode (s, lim) = .ok r := by
  simp only [decode]
  split
  · exact ⟨_, rfl⟩
  · rename_i h0
    cases s with
    | nil =>
      cases lim with
      | none => simp [Readable] at h
      | some n => simp [Readable] at h h0; omega
    | cons c s =>
      simp only
      split
      · exact ⟨_, rfl⟩
      · rename_i h1
        have hr : Readable s (adv lim) := by
          cases lim with
          | none =>
            simp only [Readable, adv, Option.map_none, List.mem_cons] at h ⊢
            rcases h with h | h
            · subst h; exact absurd h1 (by decide)
            · exact h
          | some n => simp [Readable, adv] at h ⊢; omega
        split
        · exact ⟨_, rfl⟩
        · split
          · exact last_safe hr
          · split
            · exact last2_safe hr
            · split
              · exact ⟨_, rfl⟩
              · exact last3_safe hr

/-! ### Facts about the forms -/

theorem form_length {k cp : Nat} (h1 : 1 ≤ k) (h4 : k ≤ 4) : (form k cp).length = k := by
  obtain rfl | rfl | rfl | rfl : k = 1 ∨ k = 2 ∨ k = 3 ∨ k = 4 := by omega
  all_goals rfl

theorem loose_ne_nil {p : List UInt8} {cp : Nat} (h : Loose p cp) : p ≠ [] := by
  obtain ⟨_, k, h1, h4, _, rfl⟩ := h
  intro h
  have := form_length h1 h4 (cp := cp)
  rw [h] at this; simp at this; omega

theorem loose_len {p : List UInt8} {cp : Nat} (h : Loose p cp) : 1 ≤ p.length ∧ p.length ≤ 4 := by
  obtain ⟨_, k, h1, h4, _, rfl⟩ := h
  rw [form_length h1 h4]; omega

theorem width_bounds (cp : Nat) : 1 ≤ width cp ∧ width cp ≤ 4 := by
  simp only [width]; split_ifs <;> omega

theorem legal_loose {p : List UInt8} {cp : Nat} (h : Legal p cp) : Loose p cp := by
  obtain ⟨hv, rfl⟩ := h
  refine ⟨hv, width cp, (width_bounds cp).1, (width_bounds cp).2, ?_, rfl⟩
  simp only [width]
  simp only [IsScalar] at hv
  split_ifs <;> simp only [cap] <;> omega

/-- An accepted encoding is legal exactly when it has the minimal number of bytes. -/
theorem loose_legal_iff {p : List UInt8} {cp : Nat} (h : Loose p cp) : Legal p cp ↔ p.length = width cp := by
  obtain ⟨hv, k, h1, h4, hc, rfl⟩ := h
  rw [form_length h1 h4]
  constructor
  · rintro ⟨_, h⟩
    have := congrArg List.length h
    rw [form_length h1 h4, enc, form_length (width_bounds cp).1 (width_bounds cp).2] at this
    exact this
  · rintro rfl
    exact ⟨hv, rfl⟩

/-- Two accepted encodings at the start of the same text are the same. -/
theorem loose_unique {p q r t : List UInt8} {cp cq : Nat} (hp : Loose p cp) (hq : Loose q cq) (h : p ++ r = q ++ t) :
    p = q ∧ cp = cq ∧ r = t := by
  have h1 := (decode_some (s := p ++ r) (s' := r) (lim := none) (lim' := none)).mpr ⟨p, hp, rfl, by simp [Room], rfl⟩
  have h2 := (decode_some (s := p ++ r) (s' := t) (lim := none) (lim' := none)).mpr ⟨q, hq, h, by simp [Room], rfl⟩
  rw [h1] at h2
  simp only [Except.ok.injEq, Option.some.injEq, Prod.mk.injEq, and_true] at h2
  obtain ⟨rfl, rfl⟩ := h2
  exact ⟨by simpa using h, rfl, rfl⟩

theorem ofNat_ne_zero {n : Nat} (h : n % 256 ≠ 0) : UInt8.ofNat n ≠ 0 := by
  intro h'
  have := congrArg UInt8.toNat h'
  simp [UInt8.toNat_ofNat'] at this
  omega

/-- The only byte of an accepted encoding that may be NUL is the encoding of U+0000. -/
theorem loose_zero {p : List UInt8} {cp : Nat} (h : Loose p cp) (h0 : (0 : UInt8) ∈ p) : p = [0] := by
  obtain ⟨hv, k, h1, h4, hc, rfl⟩ := h
  obtain rfl | rfl | rfl | rfl : k = 1 ∨ k = 2 ∨ k = 3 ∨ k = 4 := by omega
  · simp only [form, List.mem_singleton] at h0 ⊢
    rw [← h0]
  · exfalso
    simp only [form, cap, List.mem_cons, List.not_mem_nil, or_false] at h0 hc
    rcases h0 with h0 | h0 <;> revert h0 <;> apply Ne.symm <;> apply ofNat_ne_zero <;> omega
  · exfalso
    simp only [form, cap, List.mem_cons, List.not_mem_nil, or_false] at h0 hc
    rcases h0 with h0 | h0 | h0 <;> revert h0 <;> apply Ne.symm <;> apply ofNat_ne_zero <;> omega
  · exfalso
    simp only [form, cap, List.mem_cons, List.not_mem_nil, or_false] at h0 hc
    rcases h0 with h0 | h0 | h0 | h0 <;> revert h0 <;> apply Ne.symm <;> apply ofNat_ne_zero <;> omega

/-! ### Validation -/

theorem readable_tail {s s' : List UInt8} {lim lim' : Option Nat} {cp : Nat} (h : Readable s lim)
    (hd : decode (s, lim) = .ok (some (cp, (s', lim')))) (h0 : lim = none → s.head? ≠ some 0) : Readable s' lim' := by
  obtain ⟨p, hp, rfl, hr, rfl⟩ := decode_some.mp hd
  cases lim with
  | none =>
    simp only [Readable, advN, Option.map_none] at h ⊢
    rcases List.mem_append.mp h with h | h
    · have := loose_zero hp h
      subst this
      simp at h0
    · exact h
  | some n =>
    simp only [Readable, advN, Option.map_some, List.length_append] at h ⊢
    have := hr n rfl
    omega

theorem seq_uncons {s : List UInt8} {cps : List Nat} (h : Seq Loose s cps) :
    s = [] ∧ cps = [] ∨ ∃ p cp r cps', Loose p cp ∧ Seq Loose r cps' ∧ s = p ++ r ∧ cps = cp :: cps' := by
  cases h with
  | nil => exact .inl ⟨rfl, rfl⟩
  | cons h1 h2 => exact .inr ⟨_, _, _, _, h1, h2, rfl, rfl⟩

theorem validBounded_iff (s t : List UInt8) :
    ∃ b, validBounded (s ++ t, some s.length) = .ok b ∧ (b = true ↔ ∃ cps, Seq Loose s cps) := by
  induction hn : s.length using Nat.strong_induction_on generalizing s with
  | _ n ih =>
    subst hn
    rw [validBounded]
    by_cases h0 : s = []
    · subst h0
      exact ⟨true, by simp, by simp only [true_iff]; exact ⟨[], .nil⟩⟩
    · have hne : ¬ (some s.length = some 0) := by simpa using h0
      simp only [hne, if_false]
      obtain ⟨r, hr⟩ := decode_safe (s := s ++ t) (lim := some s.length) (by simp [Readable])
      split
      · rename_i e he; rw [hr] at he; simp at he
      · rename_i he
        refine ⟨false, rfl, ?_⟩
        simp only [Bool.false_eq_true, false_iff]
        rintro ⟨cps, hs⟩
        rcases seq_uncons hs with ⟨h, _⟩ | ⟨p, cp, r', cps', hp, _, rfl, _⟩
        · exact h0 h
        · have := (decode_some (s := p ++ r' ++ t) (s' := r' ++ t) (lim := some (p ++ r').length)).mpr
            ⟨p, hp, by simp, by simp [Room], rfl⟩
          rw [he] at this; simp at this
      · rename_i cp q he
        obtain ⟨s', lim'⟩ := q
        obtain ⟨p, hp, hs, hroom, rfl⟩ := decode_some.mp he
        have hpl : p.length ≤ s.length := hroom _ rfl
        obtain ⟨r', rfl⟩ : ∃ r', s = p ++ r' := by
          refine ⟨s.drop p.length, ?_⟩
          have := congrArg (List.take p.length) hs
          rw [List.take_append_of_le_length hpl, List.take_left] at this
          conv_lhs => rw [← List.take_append_drop p.length s, this]
        have hs' : s' = r' ++ t := by simpa using hs.symm
        subst hs'
        have hp1 := (loose_len hp).1
        obtain ⟨b, hb, hiff⟩ := ih r'.length (by simp; omega) r' rfl
        refine ⟨b, ?_, hiff.trans ?_⟩
        · rw [← hb]; congr 2; simp [advN]
        · constructor
          · rintro ⟨cps, h⟩; exact ⟨_, .cons hp h⟩
          · rintro ⟨cps, h⟩
            rcases seq_uncons h with ⟨h, _⟩ | ⟨p2, cp2, r2, cps', hp2, hs2, h, _⟩
            · exact absurd h h0
            · obtain ⟨_, _, rfl⟩ := loose_unique hp hp2 h
              exact ⟨_, hs2⟩

theorem loose_prefix {p s r t : List UInt8} {cp : Nat} (hp : Loose p cp) (hs : (0 : UInt8) ∉ s) (hne : s ≠ [])
    (h : s ++ 0 :: t = p ++ r) : ∃ r', s = p ++ r' ∧ r = r' ++ 0 :: t := by
  by_cases hle : p.length ≤ s.length
  · refine ⟨s.drop p.length, ?_, ?_⟩
    · have := congrArg (List.take p.length) h
      rw [List.take_append_of_le_length hle, List.take_left] at this
      conv_lhs => rw [← List.take_append_drop p.length s, this]
    · have := congrArg (List.drop p.length) h
      rw [List.drop_append_of_le_length hle, List.drop_left] at this
      exact this.symm
  · exfalso
    have hz : (0 : UInt8) ∈ p := by
      have h1 : (s ++ 0 :: t)[s.length]? = some 0 := by simp
      rw [h, List.getElem?_append_left (by omega)] at h1
      exact List.mem_of_getElem? h1
    have := loose_zero hp hz
    subst this
    have : s.length = 0 := by simp at hle; simp [hle]
    exact hne (by simpa using this)

theorem valid_iff (s t : List UInt8) (hs : (0 : UInt8) ∉ s) :
    ∃ b, valid (s ++ 0 :: t) = .ok b ∧ (b = true ↔ ∃ cps, Seq Loose s cps) := by
  induction hn : s.length using Nat.strong_induction_on generalizing s with
  | _ n ih =>
    subst hn
    cases hs0 : s with
    | nil =>
      refine ⟨true, ?_, by simp only [true_iff]; exact ⟨[], .nil⟩⟩
      rw [List.nil_append, valid]; simp
    | cons c s1 =>
      have hc : c ≠ 0 := by
        intro h; subst h; subst hs0; simp at hs
      rw [List.cons_append, valid]
      simp only [hc, if_false]
      rw [← List.cons_append, ← hs0]
      have h0 : s ≠ [] := by simp [hs0]
      obtain ⟨r, hr⟩ := decode_safe (s := s ++ 0 :: t) (lim := none) (by simp [Readable])
      split
      · rename_i e he; rw [hr] at he; simp at he
      · rename_i he
        refine ⟨false, rfl, ?_⟩
        simp only [Bool.false_eq_true, false_iff]
        rintro ⟨cps, hq⟩
        rcases seq_uncons hq with ⟨h, _⟩ | ⟨p, cp, r', cps', hp, _, rfl, _⟩
        · exact h0 h
        · have := (decode_some (s := p ++ r' ++ 0 :: t) (s' := r' ++ 0 :: t) (lim := none)).mpr
            ⟨p, hp, by simp, by simp [Room], rfl⟩
          rw [he] at this; simp at this
      · rename_i cp q he
        obtain ⟨s', lim'⟩ := q
        obtain ⟨p, hp, heq, -, rfl⟩ := decode_some.mp he
        obtain ⟨r', rfl, rfl⟩ := loose_prefix hp hs h0 heq
        have hp1 := (loose_len hp).1
        obtain ⟨b, hb, hiff⟩ := ih r'.length (by simp; omega) r' (by simp at hs; exact hs.2) rfl
        refine ⟨b, hb, hiff.trans ?_⟩
        · constructor
          · rintro ⟨cps, h⟩; exact ⟨_, .cons hp h⟩
          · rintro ⟨cps, h⟩
            rcases seq_uncons h with ⟨h, _⟩ | ⟨p2, cp2, r2, cps', hp2, hs2, h, _⟩
            · exact absurd h h0
            · obtain ⟨_, _, rfl⟩ := loose_unique hp hp2 h
              exact ⟨_, hs2⟩

/-! ### Sanitizing -/

theorem putAll_ok (bs : List UInt8) : ∀ (out : List UInt8) (q : Nat), q + bs.length ≤ out.length →
    putAll out q bs = .ok (splice out q bs, q + bs.length) := by
  induction bs with
  | nil => intro out q h; simp [putAll]
  | cons b bs ih =>
    intro out q h
    simp only [List.length_cons] at h
    simp only [putAll]
    rw [wr_ok (by omega)]
    simp only
    rw [ih _ _ (by simp; omega), splice_set (by omega)]
    simp; omega

/-- Both passes of the sanitizer agree with the specification. -/
theorem san_spec (s t : List UInt8) (hs : (0 : UInt8) ∉ s) : ∃ o b, Sanitized Loose s o ∧ o.length = s.length + 2 * b ∧
    (∀ len bad, sanPass1 (s ++ 0 :: t) len bad = .ok (len + s.length, bad + b)) ∧
    (∀ out q, q + o.length ≤ out.length →
      sanPass2 (s ++ 0 :: t) out q = .ok (splice out q o, q + o.length)) := by
  induction hn : s.length using Nat.strong_induction_on generalizing s with
  | _ n ih =>
    subst hn
    cases hs0 : s with
    | nil =>
      refine ⟨[], 0, .nil, rfl, ?_, ?_⟩
      · intro len bad; rw [List.nil_append, sanPass1]; simp
      · intro out q h; rw [List.nil_append, sanPass2]; simp
    | cons c s1 =>
      have hc : c ≠ 0 := by
        intro h; subst h; subst hs0; simp at hs
      have h0 : s ≠ [] := by simp [hs0]
      obtain ⟨r, hr⟩ := decode_safe (s := s ++ 0 :: t) (lim := none) (by simp [Readable])
      cases r with
      | none =>
        subst hs0
        obtain ⟨o, b, hso, hlen, hp1, hp2⟩ := ih s1.length (by simp) s1 (by simp at hs; exact hs.2) rfl
        refine ⟨0xEF :: 0xBF :: 0xBD :: o, b + 1, .bad ?_ hso, by simp [hlen]; omega, ?_, ?_⟩
        · intro p cp r hp heq
          have := (decode_some (s := c :: s1 ++ 0 :: t) (s' := r ++ 0 :: t) (lim := none)).mpr
            ⟨p, hp, by rw [heq]; simp, by simp [Room], rfl⟩
          rw [hr] at this; simp at this
        · intro len bad
          rw [List.cons_append, sanPass1]
          rw [List.cons_append] at hr
          simp only [hc, if_false]
          split
          · rename_i he; rw [hr] at he; simp at he
          · rename_i he; rw [hr] at he; simp at he
          · rw [hp1]; simp; omega
        · intro out q hroom
          rw [List.cons_append, sanPass2]
          rw [List.cons_append] at hr
          simp only [hc, if_false]
          simp only [List.length_cons] at hroom
          split
          · rename_i he; rw [hr] at he; simp at he
          · rename_i he; rw [hr] at he; simp at he
          · rw [putAll_ok _ _ _ (by simp; omega)]
            simp only
            have hq : q + [(0xef : UInt8), 0xbf, 0xbd].length ≤ out.length := by simp; omega
            rw [hp2 _ _ (by rw [splice_length hq]; simp; omega), splice_splice hq]
            simp; omega
      | some x =>
        obtain ⟨cp, s', lim'⟩ := x
        obtain ⟨p, hp, heq, -, rfl⟩ := decode_some.mp hr
        obtain ⟨r', hpr, rfl⟩ := loose_prefix hp hs h0 heq
        rw [← hs0]
        have hp1 := (loose_len hp).1
        have hlt : r'.length < s.length := by rw [hpr]; simp; omega
        obtain ⟨o, b, hso, hlen, hp1, hp2⟩ := ih r'.length hlt r' (by rw [hpr] at hs; simp at hs; exact hs.2) rfl
        have hcs : c :: (s1 ++ 0 :: t) = s ++ 0 :: t := by simp [hs0]
        have htake : (p ++ (r' ++ 0 :: t)).length - (r' ++ 0 :: t).length = p.length := by simp
        refine ⟨p ++ o, b, ?_, by rw [hpr]; simp [hlen]; omega, ?_, ?_⟩
        · rw [hpr]; exact .good hp hso
        · intro len bad
          rw [show s ++ 0 :: t = c :: (s1 ++ 0 :: t) from hcs.symm, sanPass1]
          rw [hcs.symm] at hr
          simp only [hc, if_false]
          split
          · rename_i he; rw [hr] at he; simp at he
          · rename_i he; rw [hr] at he
            simp only [Except.ok.injEq, Option.some.injEq, Prod.mk.injEq] at he
            obtain ⟨-, rfl⟩ := he
            rw [hp1, hcs, heq, htake, hpr]
            simp; omega
          · rename_i he; rw [hr] at he; simp at he
        · intro out q hroom
          rw [show s ++ 0 :: t = c :: (s1 ++ 0 :: t) from hcs.symm, sanPass2]
          rw [hcs.symm] at hr
          simp only [hc, if_false]
          simp only [List.length_append] at hroom
          split
          · rename_i he; rw [hr] at he; simp at he
          · rename_i he; rw [hr] at he
            simp only [Except.ok.injEq, Option.some.injEq, Prod.mk.injEq] at he
            obtain ⟨-, rfl⟩ := he
            simp only
            rw [hcs, heq, htake, List.take_left, putAll_ok _ _ _ (by omega)]
            simp only
            have hq : q + p.length ≤ out.length := by omega
            rw [hp2 _ _ (by rw [splice_length hq]; omega), splice_splice hq]
            simp; omega
          · rename_i he; rw [hr] at he; simp at he

theorem sanitize_spec (fresh : Nat → List UInt8) (hf : ∀ n, (fresh n).length = n) (s t : List UInt8) (hs : (0 : UInt8) ∉ s) :
    ∃ o, Sanitized Loose s o ∧ sanitize fresh (s ++ 0 :: t) = .ok (o ++ [0]) := by
  obtain ⟨o, b, hso, hlen, hp1, hp2⟩ := san_spec s t hs
  refine ⟨o, hso, ?_⟩
  have hl : (fresh (s.length + b * 2 + 1)).length = o.length + 1 := by rw [hf]; omega
  simp only [sanitize, bind, Except.bind, hp1, Nat.zero_add]
  rw [hp2 _ _ (by rw [hl]; omega)]
  simp only [Nat.zero_add]
  have hq : 0 + o.length ≤ (fresh (s.length + b * 2 + 1)).length := by rw [hl]; omega
  rw [wr_ok (by rw [splice_length hq, hl]; omega), ← splice_one (by rw [splice_length hq, hl]; omega)]
  have := splice_splice (b := [0]) hq
  rw [Nat.zero_add] at this
  rw [this, splice_full (by simp [hl])]

theorem sanitized_seq {s o : List UInt8} (h : Sanitized Loose s o) : ∃ cps, Seq Loose o cps := by
  induction h with
  | nil => exact ⟨[], .nil⟩
  | good hp _ ih => obtain ⟨cps, h⟩ := ih; exact ⟨_, .cons hp h⟩
  | bad _ _ ih =>
    obtain ⟨cps, h⟩ := ih
    refine ⟨0xFFFD :: cps, ?_⟩
    exact .cons (p := [0xEF, 0xBF, 0xBD]) ⟨by decide, 3, by omega, by omega, by decide, by decide⟩ h

theorem sanitized_self {s : List UInt8} {cps : List Nat} (h : Seq Loose s cps) : Sanitized Loose s s := by
  induction h with
  | nil => exact .nil
  | cons hp _ ih => exact .good hp ih

theorem sanitized_unique {s o : List UInt8} (h : Sanitized Loose s o) : ∀ o', Sanitized Loose s o' → o' = o := by
  induction h with
  | nil =>
    intro o' h'
    generalize he : ([] : List UInt8) = e at h'
    cases h' with
    | nil => rfl
    | good hp _ => simp at he; exact absurd he.1 (loose_ne_nil hp)
    | bad _ _ => simp at he
  | @good p cp r o hp hs ih =>
    intro o' h'
    generalize he : p ++ r = e at h'
    cases h' with
    | nil => simp at he; exact absurd he.1 (loose_ne_nil hp)
    | @good p' cp' r' o' hp' hs' =>
      obtain ⟨rfl, rfl, rfl⟩ := loose_unique hp hp' he
      rw [ih _ hs']
    | bad hb _ => exact absurd he.symm (hb _ _ _ hp)
  | @bad b r o hb hs ih =>
    intro o' h'
    generalize he : b :: r = e at h'
    cases h' with
    | nil => simp at he
    | good hp' hs' => exact absurd he (hb _ _ _ hp')
    | bad _ hs' => simp at he; obtain ⟨rfl, rfl⟩ := he; rw [ih _ hs']

theorem sanitized_nonul {s o : List UInt8} (h : Sanitized Loose s o) (hs : (0 : UInt8) ∉ s) : (0 : UInt8) ∉ o := by
  induction h with
  | nil => exact hs
  | good hp _ ih =>
    simp only [List.mem_append, not_or] at hs ⊢
    exact ⟨hs.1, ih hs.2⟩
  | bad _ _ ih =>
    simp only [List.mem_cons, not_or] at hs ⊢
    exact ⟨by decide, by decide, by decide, ih hs.2⟩

/-! ### The encoder -/

theorem putSeq_none (bs : List UInt8) : ∀ (buf : List UInt8) (i : Nat), i + bs.length ≤ buf.length →
    putSeq buf i none bs = .ok (some (i + bs.length), splice buf i bs) := by
  induction bs with
  | nil => intro buf i h; simp [putSeq]
  | cons b bs ih =>
    intro buf i h
    simp only [List.length_cons] at h
    simp only [putSeq, putChecked]
    rw [wr_ok (by omega)]
    simp only [reduceCtorEq, if_false]
    rw [ih _ _ (by simp; omega), splice_set (by omega)]
    simp; omega

theorem putSeq_some (bs : List UInt8) (e : Nat) : ∀ (buf : List UInt8) (i : Nat), i ≤ e → e ≤ buf.length →
    putSeq buf i (some e) bs = .ok (if i + bs.length ≤ e then some (i + bs.length) else none,
      splice buf i (bs.take (e - i))) := by
  induction bs with
  | nil => intro buf i h he; simp [putSeq, h]
  | cons b bs ih =>
    intro buf i h he
    simp only [putSeq, putChecked, Option.some.injEq]
    by_cases hie : e = i
    · subst hie
      simp
    · simp only [hie, if_false]
      rw [wr_ok (by omega)]
      simp only
      rw [ih _ _ (by omega) (by simp; omega), splice_set (by omega)]
      rw [show e - i = (e - (i + 1)) + 1 by omega, List.take_succ_cons]
      congr 2
      simp only [List.length_cons]
      split <;> split <;> first | rfl | omega | (congr 1; omega)

theorem low8_nat (n : Nat) : low8 (n : Int) = UInt8.ofNat n := by
  apply u8_toNat_inj
  simp only [low8, UInt8.toNat_ofNat']
  omega

theorem or_add (a b k : Nat) (hb : b < 2 ^ k) (ha : a % 2 ^ k = 0) : a ||| b = a + b := by
  obtain ⟨c, rfl⟩ := Nat.dvd_of_mod_eq_zero ha
  rw [Nat.mul_comm, ← Nat.shiftLeft_eq, Nat.shiftLeft_add_eq_or_of_lt hb]

theorem encBytes_form {cp : Nat} (h : cp < 0x200000) (buf : List UInt8) (i : Nat) (e : Option Nat) :
    encode (cp : Int) buf i e = putSeq buf i e (enc cp) := by
  have h63 : ∀ n : Nat, n &&& 0x3f = n % 64 := fun n => Nat.and_two_pow_sub_one_eq_mod n 6
  simp only [encode, enc, width, Int.toNat_natCast, ge_iff_le, h63, Nat.shiftRight_eq_div_pow]
  by_cases h1 : cp < 0x80
  · rw [if_neg (by omega), if_pos h1]
    simp only [form, low8_nat]
  · rw [if_pos (by omega), if_neg h1]
    by_cases h2 : cp < 0x800
    · rw [if_neg (by omega), if_pos h2]
      simp only [form, low8_nat]
      rw [or_add _ _ 5 (by omega) (by decide), or_add _ _ 6 (by omega) (by decide)]
    · rw [if_pos (by omega), if_neg h2]
      by_cases h3 : cp < 0x10000
      · rw [if_neg (by omega), if_pos h3]
        simp only [form, low8_nat]
        rw [or_add _ _ 4 (by omega) (by decide), or_add _ _ 6 (by omega) (by decide), or_add _ _ 6 (by omega) (by decide)]
      · rw [if_pos (by omega), if_neg h3]
        simp only [form, low8_nat]
        rw [or_add _ _ 3 (by omega) (by decide), or_add _ _ 6 (by omega) (by decide), or_add _ _ 6 (by omega) (by decide),
          or_add _ _ 6 (by omega) (by decide)]

theorem encode_putSeq (cp : Int) : ∃ bs : List UInt8, 1 ≤ bs.length ∧ bs.length ≤ 4 ∧
    ∀ buf i e, encode cp buf i e = putSeq buf i e bs := by
  simp only [encode]
  split
  · split
    · split
      · exact ⟨_, by simp, by simp, fun _ _ _ => rfl⟩
      · exact ⟨_, by simp, by simp, fun _ _ _ => rfl⟩
    · exact ⟨_, by simp, by simp, fun _ _ _ => rfl⟩
  · exact ⟨_, by simp, by simp, fun _ _ _ => rfl⟩

end Verif.Utf8
