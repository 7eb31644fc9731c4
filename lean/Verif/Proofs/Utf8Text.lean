import Verif.Proofs.Utf8
import Verif.Proofs.Charstr

/-!
Where a UTF-8 text can be cut, and how encodings compare.
-/

set_option autoImplicit false

namespace Verif.Utf8
open Verif.Spec.Utf8 Verif.Spec.Charstr

/-- A continuation byte. -/
def isCont (c : UInt8) : Prop := 128 ≤ c.toNat ∧ c.toNat < 192

theorem ofNat_toNat' {n : Nat} (h : n < 256) : (UInt8.ofNat n).toNat = n := by
  simp only [UInt8.toNat_ofNat']; omega

/-- The bytes of a form. -/
theorem loose_shape {p : List UInt8} {cp : Nat} (h : Loose p cp) :
    ∃ c q, p = c :: q ∧ ¬ isCont c ∧ (∀ x ∈ q, isCont x) ∧ (c.toNat < 128 → q = [] ∧ cp = c.toNat) ∧ (128 ≤ c.toNat → q ≠ []) := by
  obtain ⟨hv, k, h1, h4, hc, rfl⟩ := h
  have hv' : cp < 0x110000 := by simp only [IsScalar] at hv; omega
  have cc : ∀ n : Nat, isCont (UInt8.ofNat (0x80 + n % 64)) := by
    intro n; unfold isCont; rw [ofNat_toNat' (by omega)]; omega
  obtain rfl | rfl | rfl | rfl : k = 1 ∨ k = 2 ∨ k = 3 ∨ k = 4 := by omega
  · simp only [cap] at hc
    refine ⟨_, [], rfl, ?_, by simp, ?_, ?_⟩
    · unfold isCont; rw [ofNat_toNat' (by omega)]; omega
    · intro _; rw [ofNat_toNat' (by omega)]; exact ⟨rfl, rfl⟩
    · rw [ofNat_toNat' (by omega)]; omega
  · simp only [cap] at hc
    refine ⟨_, _, rfl, ?_, ?_, ?_, by simp⟩
    · unfold isCont; rw [ofNat_toNat' (by omega)]; omega
    · simp only [List.mem_cons, List.not_mem_nil, or_false]
      rintro x rfl; exact cc _
    · rw [ofNat_toNat' (by omega)]; omega
  · simp only [cap] at hc
    refine ⟨_, _, rfl, ?_, ?_, ?_, by simp⟩
    · unfold isCont; rw [ofNat_toNat' (by omega)]; omega
    · simp only [List.mem_cons, List.not_mem_nil, or_false]
      rintro x (rfl | rfl) <;> exact cc _
    · rw [ofNat_toNat' (by omega)]; omega
  · refine ⟨_, _, rfl, ?_, ?_, ?_, by simp⟩
    · unfold isCont; rw [ofNat_toNat' (by omega)]; omega
    · simp only [List.mem_cons, List.not_mem_nil, or_false]
      rintro x (rfl | rfl | rfl) <;> exact cc _
    · rw [ofNat_toNat' (by omega)]; omega

/-- Either notion of an encoding. -/
def Enc (A : List UInt8 → Nat → Prop) : Prop := A = Legal ∨ A = Loose

variable {A : List UInt8 → Nat → Prop}

theorem Enc.loose (hA : Enc A) {p : List UInt8} {cp : Nat} (h : A p cp) : Loose p cp := by
  rcases hA with rfl | rfl
  · exact legal_loose h
  · exact h

theorem seq_append' {s t : List UInt8} {c d : List Nat} (h : Seq A s c) (h' : Seq A t d) : Seq A (s ++ t) (c ++ d) := by
  induction h with
  | nil => exact h'
  | cons h1 _ ih => rw [List.append_assoc]; exact .cons h1 ih

/-- A text may be cut in front of anything but a continuation byte. -/
theorem seq_cut (hA : Enc A) {s : List UInt8} {cps : List Nat} (h : Seq A s cps) : ∀ a b : List UInt8, s = a ++ b → (∀ c ∈ b.head?, ¬ isCont c) →
    ∃ x y, cps = x ++ y ∧ Seq A a x ∧ Seq A b y := by
  induction h with
  | nil =>
    intro a b e _
    obtain ⟨rfl, rfl⟩ := List.nil_eq_append_iff.1 e
    exact ⟨[], [], rfl, .nil, .nil⟩
  | @cons p cp r cps hp hr ih =>
    intro a b e hb
    rcases List.append_eq_append_iff.1 e with ⟨a', e1, e2⟩ | ⟨x, e1, e2⟩
    · obtain ⟨x, y, rfl, hx, hy⟩ := ih a' b e2 hb
      exact ⟨cp :: x, y, rfl, e1 ▸ .cons hp hx, hy⟩
    · obtain ⟨c, q, rfl, _, hq, _⟩ := loose_shape (hA.loose hp)
      cases a with
      | nil => exact ⟨[], cp :: cps, rfl, .nil, by rw [e2, ← List.nil_append x, ← e1]; exact .cons hp hr⟩
      | cons d a =>
        injection e1 with e1 e3
        subst e1
        cases x with
        | nil =>
          replace e3 : q = a := by simpa using e3
          subst e3
          refine ⟨[cp], cps, rfl, ?_, by rw [e2]; exact hr⟩
          have := Seq.cons hp (Seq.nil (A := A)); simpa using this
        | cons y x =>
          exact absurd (hq y (by rw [e3]; simp)) (hb y (by rw [e2]; simp))

/-- A text minus a text in front of it. -/
theorem seq_drop (hA : Enc A) {d : List UInt8} {x : List Nat} (hd : Seq A d x) : ∀ {b : List UInt8} {cps : List Nat}, Seq A (d ++ b) cps →
    ∃ y, cps = x ++ y ∧ Seq A b y := by
  induction hd with
  | nil => intro b cps h; exact ⟨cps, rfl, h⟩
  | @cons p cp r x hp _ ih =>
    intro b cps h
    generalize hs : p ++ r ++ b = s at h
    cases h with
    | nil =>
      have := loose_ne_nil (hA.loose hp)
      simp at hs
      exact absurd hs.1 this
    | @cons q cq t y hq ht =>
      rw [List.append_assoc] at hs
      obtain ⟨-, rfl, rfl⟩ := loose_unique (hA.loose hp) (hA.loose hq) hs
      obtain ⟨z, rfl, hz⟩ := ih ht
      exact ⟨z, rfl, hz⟩

theorem ascii_loose {c : UInt8} (h : c.toNat < 128) : Loose [c] c.toNat :=
  ⟨.inl (by omega), 1, by omega, by omega, by simp only [cap]; omega, by simp [form]⟩

theorem ascii_enc (hA : Enc A) {c : UInt8} (h : c.toNat < 128) : A [c] c.toNat := by
  rcases hA with rfl | rfl
  · exact (loose_legal_iff (ascii_loose h)).2 (by simp [width, h])
  · exact ascii_loose h

theorem ascii_seq (hA : Enc A) {s : List UInt8} (h : ∀ c ∈ s, c.toNat < 128) : Seq A s (s.map (·.toNat)) := by
  induction s with
  | nil => exact .nil
  | cons c s ih => exact Seq.cons (p := [c]) (ascii_enc hA (h c (by simp))) (ih fun x hx => h x (by simp [hx]))

/-- The first byte of a text is no continuation byte. -/
theorem seq_head (hA : Enc A) {s : List UInt8} {cps : List Nat} (h : Seq A s cps) : ∀ c ∈ s.head?, ¬ isCont c := by
  cases h with
  | nil => simp
  | cons hp _ =>
    obtain ⟨c, q, rfl, hc, _⟩ := loose_shape (hA.loose hp)
    intro x hx
    simp at hx
    exact hx ▸ hc

/-- ASCII lower or upper case of code points. -/
def lowerCp (cp : Nat) : Nat := if 65 ≤ cp ∧ cp ≤ 90 then cp + 32 else cp
def upperCp (cp : Nat) : Nat := if 97 ≤ cp ∧ cp ≤ 122 then cp - 32 else cp

theorem lower_toNat (c : UInt8) : (lower c).toNat = lowerCp c.toNat ∧ (upper c).toNat = upperCp c.toNat ∧ (c.toNat < 128 → lowerCp c.toNat < 128 ∧
    upperCp c.toNat < 128) ∧ (128 ≤ c.toNat → lower c = c ∧ upper c = c) := by
  revert c; apply u8_all; decide +kernel

/-- Case conversion maps the one-byte encodings and leaves the others. -/
theorem seq_map (hA : Enc A) (f : UInt8 → UInt8) (h1 : ∀ c : UInt8, c.toNat < 128 → (f c).toNat < 128) (h2 : ∀ c : UInt8, 128 ≤ c.toNat → f c = c)
    {s : List UInt8} {cps : List Nat} (h : Seq A s cps) : ∃ cps', Seq A (s.map f) cps' := by
  induction h with
  | nil => exact ⟨[], .nil⟩
  | @cons p cp r cps hp _ ih =>
    obtain ⟨y, hy⟩ := ih
    obtain ⟨c, q, rfl, hc, hq, h3, _⟩ := loose_shape (hA.loose hp)
    rcases Nat.lt_or_ge c.toNat 128 with hl | hl
    · obtain ⟨rfl, -⟩ := h3 hl
      exact ⟨_, Seq.cons (p := [f c]) (ascii_enc hA (h1 c hl)) hy⟩
    · have : (c :: q).map f = c :: q := by
        rw [List.map_cons, h2 c hl]
        congr 1
        conv_rhs => rw [← List.map_id q]
        exact List.map_congr_left fun x hx => h2 x (hq x hx).1
      refine ⟨cp :: y, ?_⟩
      rw [List.map_append, this]
      exact .cons hp hy

theorem legal_map (f : UInt8 → UInt8) (g : Nat → Nat) (h1 : ∀ c : UInt8, c.toNat < 128 → (f c).toNat < 128 ∧ (f c).toNat = g c.toNat)
    (h2 : ∀ c : UInt8, 128 ≤ c.toNat → f c = c) (h3 : ∀ n, 128 ≤ n → g n = n)
    {s : List UInt8} {cps : List Nat} (h : Seq Legal s cps) : Seq Legal (s.map f) (cps.map g) := by
  induction h with
  | nil => exact .nil
  | @cons p cp r cps hp _ ih =>
    obtain ⟨c, q, rfl, hc, hq, h4, h5⟩ := loose_shape (legal_loose hp)
    rcases Nat.lt_or_ge c.toNat 128 with hl | hl
    · obtain ⟨rfl, rfl⟩ := h4 hl
      have := ascii_enc (A := Legal) (.inl rfl) (h1 c hl).1
      rw [(h1 c hl).2] at this
      exact Seq.cons (p := [f c]) this ih
    · have e : (c :: q).map f = c :: q := by
        rw [List.map_cons, h2 c hl]
        congr 1
        conv_rhs => rw [← List.map_id q]
        exact List.map_congr_left fun x hx => h2 x (hq x hx).1
      have hcp : 128 ≤ cp := by
        by_contra hlt
        have := (loose_legal_iff (legal_loose hp)).1 hp
        have hw : width cp = 1 := by simp only [width]; rw [if_pos (by omega)]
        rw [hw] at this
        have := h5 hl
        cases q <;> simp_all
      rw [List.map_append, e, List.map_cons, h3 cp hcp]
      exact .cons hp ih

/-! ### The order of encodings -/

theorem lexCmp_lt {a b : UInt8} {x y : List UInt8} (h : a.toNat < b.toNat) : lexCmp (a :: x) (b :: y) = -1 := by simp [lexCmp, h]
theorem lexCmp_eq (a : UInt8) (x y : List UInt8) : lexCmp (a :: x) (a :: y) = lexCmp x y := by simp [lexCmp]

theorem enc_lt {a b : Nat} (hb : IsScalar b) (h : a < b) (x y : List UInt8) : lexCmp (enc a ++ x) (enc b ++ y) = -1 := by
  have hb' : b < 0x110000 := by simp only [IsScalar] at hb; omega
  have step : ∀ (m n : Nat) (x y : List UInt8), m < 256 → n < 256 → (m < n ∨ m = n ∧ lexCmp x y = -1) →
      lexCmp (UInt8.ofNat m :: x) (UInt8.ofNat n :: y) = -1 := by
    intro m n x y hm hn h
    rcases h with h | ⟨rfl, h⟩
    · exact lexCmp_lt (by rw [ofNat_toNat' hm, ofNat_toNat' hn]; exact h)
    · rw [lexCmp_eq, h]
  have w1 : ∀ c, c < 0x80 → enc c = [UInt8.ofNat c] := by intro c h; simp only [enc, width, if_pos h, form]
  have w2 : ∀ c, ¬ c < 0x80 → c < 0x800 → enc c = [UInt8.ofNat (0xC0 + c / 64), UInt8.ofNat (0x80 + c % 64)] := by
    intro c h h'; simp only [enc, width, if_neg h, if_pos h', form]
  have w3 : ∀ c, ¬ c < 0x80 → ¬ c < 0x800 → c < 0x10000 → enc c = [UInt8.ofNat (0xE0 + c / 4096), UInt8.ofNat (0x80 + c / 64 % 64),
      UInt8.ofNat (0x80 + c % 64)] := by
    intro c h h' h''; simp only [enc, width, if_neg h, if_neg h', if_pos h'', form]
  have w4 : ∀ c, ¬ c < 0x80 → ¬ c < 0x800 → ¬ c < 0x10000 → enc c = [UInt8.ofNat (0xF0 + c / 262144), UInt8.ofNat (0x80 + c / 4096 % 64),
      UInt8.ofNat (0x80 + c / 64 % 64), UInt8.ofNat (0x80 + c % 64)] := by
    intro c h h' h''; simp only [enc, width, if_neg h, if_neg h', if_neg h'', form]
  by_cases b1 : b < 0x80
  · rw [w1 b b1, w1 a (by omega)]
    exact step _ _ _ _ (by omega) (by omega) (.inl h)
  by_cases b2 : b < 0x800
  · rw [w2 b b1 b2]
    by_cases a1 : a < 0x80
    · rw [w1 a a1]; exact step _ _ _ _ (by omega) (by omega) (.inl (by omega))
    · rw [w2 a a1 (by omega)]
      refine step _ _ _ _ (by omega) (by omega) ?_
      rcases Nat.lt_or_ge (a / 64) (b / 64) with h' | h'
      · exact .inl (by omega)
      · exact .inr ⟨by omega, step _ _ _ _ (by omega) (by omega) (.inl (by omega))⟩
  by_cases b3 : b < 0x10000
  · rw [w3 b b1 b2 b3]
    by_cases a1 : a < 0x80
    · rw [w1 a a1]; exact step _ _ _ _ (by omega) (by omega) (.inl (by omega))
    by_cases a2 : a < 0x800
    · rw [w2 a a1 a2]; exact step _ _ _ _ (by omega) (by omega) (.inl (by omega))
    · rw [w3 a a1 a2 (by omega)]
      refine step _ _ _ _ (by omega) (by omega) ?_
      rcases Nat.lt_or_ge (a / 4096) (b / 4096) with h' | h'
      · exact .inl (by omega)
      · refine .inr ⟨by omega, step _ _ _ _ (by omega) (by omega) ?_⟩
        rcases Nat.lt_or_ge (a / 64) (b / 64) with h'' | h''
        · exact .inl (by omega)
        · exact .inr ⟨by omega, step _ _ _ _ (by omega) (by omega) (.inl (by omega))⟩
  · rw [w4 b b1 b2 b3]
    by_cases a1 : a < 0x80
    · rw [w1 a a1]; exact step _ _ _ _ (by omega) (by omega) (.inl (by omega))
    by_cases a2 : a < 0x800
    · rw [w2 a a1 a2]; exact step _ _ _ _ (by omega) (by omega) (.inl (by omega))
    by_cases a3 : a < 0x10000
    · rw [w3 a a1 a2 a3]; exact step _ _ _ _ (by omega) (by omega) (.inl (by omega))
    · rw [w4 a a1 a2 a3]
      refine step _ _ _ _ (by omega) (by omega) ?_
      rcases Nat.lt_or_ge (a / 262144) (b / 262144) with h' | h'
      · exact .inl (by omega)
      · refine .inr ⟨by omega, step _ _ _ _ (by omega) (by omega) ?_⟩
        rcases Nat.lt_or_ge (a / 4096) (b / 4096) with h' | h'
        · exact .inl (by omega)
        · refine .inr ⟨by omega, step _ _ _ _ (by omega) (by omega) ?_⟩
          rcases Nat.lt_or_ge (a / 64) (b / 64) with h'' | h''
          · exact .inl (by omega)
          · exact .inr ⟨by omega, step _ _ _ _ (by omega) (by omega) (.inl (by omega))⟩

theorem lexCmp_append (p x y : List UInt8) : lexCmp (p ++ x) (p ++ y) = lexCmp x y := by
  induction p with
  | nil => rfl
  | cons c p ih => rw [List.cons_append, List.cons_append, lexCmp_eq, ih]

theorem lexCmp_swap : ∀ x y : List UInt8, lexCmp y x = - lexCmp x y
  | [], [] => rfl
  | [], _ :: _ => rfl
  | _ :: _, [] => rfl
  | a :: x, b :: y => by
    simp only [lexCmp]
    rcases Nat.lt_trichotomy a.toNat b.toNat with h | h | h
    · simp [h, Nat.lt_asymm h]
    · simp [h, lexCmp_swap x y]
    · simp [h, Nat.lt_asymm h]

end Verif.Utf8
