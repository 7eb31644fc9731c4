import Mathlib.Data.Nat.Digits.Lemmas
import Verif.Spec.CText
import Verif.Model.Emit

/-! Lexing, parsing and running the emitted text. -/

set_option autoImplicit false

namespace Verif.Emit
open Verif.Spec.CText hiding Str
open Verif.Py (Str)

/-! ## Lexing -/

theorem feed_append : ∀ (a b : Str) (s s' : At) (ts us : List Tok) (s'' : At), feed s a = some (ts, s') → feed s' b = some (us, s'') →
    feed s (a ++ b) = some (ts ++ us, s'')
  | [], b, s, s', ts, us, s'', h, h' => by
    simp only [feed, Option.some.injEq, Prod.mk.injEq] at h
    obtain ⟨rfl, rfl⟩ := h
    simpa using h'
  | c :: a, b, s, s', ts, us, s'', h, h' => by
    simp only [feed] at h
    simp only [List.cons_append, feed]
    cases hs : step s c with
    | none => simp [hs] at h
    | some p =>
      obtain ⟨t1, s1⟩ := p
      simp only [hs] at h ⊢
      cases hf : feed s1 a with
      | none => simp [hf] at h
      | some q =>
        obtain ⟨t2, s2⟩ := q
        simp only [hf, Option.some.injEq, Prod.mk.injEq] at h
        obtain ⟨rfl, rfl⟩ := h
        rw [feed_append a b s1 s2 t2 us s'' hf h']
        simp

/-- A literal piece of text. -/
theorem lex_lit {a b : Str} {ts us : List Tok} {s : At} (h : feed .free a = some (ts, .free)) (h' : feed .free b = some (us, s)) :
    feed .free (a ++ b) = some (ts ++ us, s) := feed_append a b _ _ _ _ _ h h'

theorem feed_word : ∀ (p w : Str), (∀ c ∈ p, isWord c = true) → feed (.word w) p = some ([], .word (p.reverse ++ w))
  | [], w, _ => rfl
  | c :: p, w, h => by
    have hc := h c (by simp)
    simp only [feed, step, hc, if_true]
    rw [feed_word p (c :: w) fun d hd => h d (by simp [hd])]
    simp

theorem feed_words {p : Str} (hp : p ≠ []) (h : ∀ c ∈ p, isWord c = true) : feed .free p = some ([], .word p.reverse) := by
  cases p with
  | nil => exact absurd rfl hp
  | cons c p =>
    have hc := h c (by simp)
    simp only [feed, step, start, hc, if_true]
    rw [feed_word p [c] fun d hd => h d (by simp [hd])]
    simp

/-- A word that is followed by another character. -/
theorem lex_word {p : Str} {t : Tok} {c : Char} {cs : Str} {ts : List Tok} {s : At} (h : ∀ c ∈ p, isWord c = true)
    (hw : word p = some t) (hc : isWord c = false) (h' : feed .free (c :: cs) = some (ts, s)) :
    feed .free (p ++ c :: cs) = some (t :: ts, s) := by
  have hp : p ≠ [] := by rintro rfl; cases hw
  have h1 : feed (.word p.reverse) (c :: cs) = some (t :: ts, s) := by
    simp only [feed, step, hc, List.reverse_reverse, hw, after] at h' ⊢
    cases hs : start c with
    | none => rw [hs] at h'; cases h'
    | some q =>
      obtain ⟨t1, s1⟩ := q
      rw [hs] at h'
      simp only [] at h' ⊢
      cases hf : feed s1 cs with
      | none => rw [hf] at h'; cases h'
      | some r =>
        obtain ⟨t2, s2⟩ := r
        rw [hf] at h'
        simp only [Option.some.injEq, Prod.mk.injEq] at h'
        obtain ⟨rfl, rfl⟩ := h'
        simp [hf]
  exact feed_append p (c :: cs) _ _ _ _ _ (feed_words hp h) h1

/-! ## Numbers -/

theorem digit_digitChar {b d : Nat} (hd : d < b) (hb : b ≤ 16) : digit b (digitChar d) = some d := by
  have : ∀ d < 16, digitChar d = digitChar d ∧ ((if 48 ≤ (digitChar d).toNat ∧ (digitChar d).toNat ≤ 57 then (digitChar d).toNat - 48
      else if 97 ≤ (digitChar d).toNat ∧ (digitChar d).toNat ≤ 102 then (digitChar d).toNat - 87
      else if 65 ≤ (digitChar d).toNat ∧ (digitChar d).toNat ≤ 70 then (digitChar d).toNat - 55 else 99) = d) := by decide
  simp only [digit, (this d (by omega)).2, hd, if_true]

theorem isWord_digitChar {d : Nat} (hd : d < 16) : isWord (digitChar d) = true := by
  have : ∀ d < 16, isWord (digitChar d) = true := by decide
  exact this d hd

theorem isDigit_digitChar {d : Nat} (hd : d < 10) : isDigit (digitChar d) = true := by
  have : ∀ d < 10, isDigit (digitChar d) = true := by decide
  exact this d hd

theorem number_append (b : Nat) : ∀ (s t : Str) (a : Nat), number b a (s ++ t) = (number b a s).bind fun a => number b a t
  | [], t, a => rfl
  | c :: s, t, a => by
    simp only [List.cons_append, number]
    cases digit b c with
    | none => rfl
    | some d => exact number_append b s t _

theorem number_digits {b : Nat} (hb : b ≤ 16) (a : Nat) : ∀ (ds : List Nat), (∀ d ∈ ds, d < b) →
    number b a (ds.reverse.map digitChar) = some (a * b ^ ds.length + Nat.ofDigits b ds)
  | [], _ => by simp [number]
  | d :: ds, h => by
    rw [List.reverse_cons, List.map_append, number_append, number_digits hb a ds fun x hx => h x (by simp [hx])]
    simp only [Option.bind_some, List.map_cons, List.map_nil, number, digit_digitChar (h d (by simp)) hb, Nat.ofDigits_cons, List.length_cons, pow_succ]
    congr 1
    ring

theorem fmt_word {b n : Nat} (hb : 1 < b) (hb' : b ≤ 16) : ∀ c ∈ fmt b n, isWord c = true := by
  intro c hc
  unfold fmt at hc
  split at hc
  · rw [List.mem_singleton] at hc; subst hc; rfl
  · simp only [List.map_reverse, List.mem_reverse, List.mem_map] at hc
    obtain ⟨d, hd, rfl⟩ := hc
    exact isWord_digitChar (by have := Nat.digits_lt_base hb hd; omega)

theorem fmt_ne (b n : Nat) (hb : 1 < b) : fmt b n ≠ [] := by
  unfold fmt
  split
  · simp
  · simp [Nat.digits_ne_nil_iff_ne_zero, *]

theorem number_fmt {b n : Nat} (hb : 1 < b) (hb' : b ≤ 16) : number b 0 (fmt b n) = some n := by
  unfold fmt
  split
  · rename_i h; subst h
    have : digit b '0' = some 0 := digit_digitChar (d := 0) (by omega) hb'
    simp [number, this]
  · rw [number_digits hb' 0 _ fun d hd => Nat.digits_lt_base hb hd]
    simp [Nat.ofDigits_digits]

/-- The first character of a number other than 0. -/
theorem fmt_head {b n : Nat} (hb : 1 < b) (hn : n ≠ 0) : ∃ d s, fmt b n = digitChar d :: s ∧ d ≠ 0 ∧ d < b := by
  unfold fmt
  rw [if_neg hn]
  have hne : Nat.digits b n ≠ [] := Nat.digits_ne_nil_iff_ne_zero.2 hn
  have hl := Nat.getLast_digit_ne_zero b hn
  obtain ⟨l, d, e⟩ := List.eq_nil_or_concat (Nat.digits b n) |>.resolve_left hne
  refine ⟨d, (l.reverse.map digitChar), ?_, ?_, ?_⟩
  · simp [e]
  · have : (Nat.digits b n).getLast hne = d := by simp [e]
    rw [← this]; exact hl
  · exact Nat.digits_lt_base hb (by rw [e]; simp)

/-- A decimal number is read as what it is, and not as an octal one. -/
theorem word_dec (n : Nat) : word (fmt 10 n) = some (.num n) := by
  by_cases hn : n = 0
  · subst hn; rfl
  · obtain ⟨d, s, e, h1, h2⟩ := fmt_head (b := 10) (by decide) hn
    have hc : constant (fmt 10 n) = some n := by
      have h3 : digitChar d ≠ '0' := by
        have : ∀ d < 10, d ≠ 0 → digitChar d ≠ '0' := by decide
        exact this d h2 h1
      rw [← number_fmt (b := 10) (n := n) (by decide) (by decide), e]
      unfold constant
      split
      · rename_i h; exact absurd (List.cons.inj h).1 h3
      · rename_i h; exact absurd (List.cons.inj h).1 h3
      · rfl
    rw [e] at hc ⊢
    simp [word, isDigit_digitChar h2, hc]

/-- A hexadecimal number. -/
theorem word_hex (n : Nat) : word ('0' :: 'x' :: fmt 16 n) = some (.num n) := by
  have hne := fmt_ne 16 n (by decide)
  have hn := number_fmt (b := 16) (n := n) (by decide) (by decide)
  cases e : fmt 16 n with
  | nil => exact absurd e hne
  | cons c s =>
    rw [e] at hn
    simp [word, show isDigit '0' = true from rfl, constant, hn]

end Verif.Emit
