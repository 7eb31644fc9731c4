import Verif.Model.Date
import Verif.Spec.Date
import Verif.Base.Tac

/-! Helper lemmas for `date.c`. -/

namespace Verif.Date
open Verif.Spec.Date

/-- `tm` fields to a calendar date. -/
def toDate (r : Int × Int × Int) : Date := ⟨r.1 + 1900, r.2.1 + 1, r.2.2⟩

theorem next_mk (y m d : Int) : next ⟨y, m, d⟩ =
    if d < monthLength y m then ⟨y, m, d + 1⟩ else if m < 12 then ⟨y, m + 1, 1⟩ else ⟨y + 1, 1, 1⟩ := rfl

theorem ydayRow_ok : ∀ r : Fin 365, ∃ x, ydayRow (r.val : Int) = .ok x := by
  have : ∀ r : Fin 365, (ydayRow (r.val : Int)).isOk = true := by decide +kernel
  intro r
  have := this r
  cases h : ydayRow (r.val : Int) with
  | error e => rw [h] at this; simp [Except.isOk, Except.toBool] at this
  | ok x => exact ⟨x, rfl⟩

/-- The table row. -/
def row (r : Nat) : Int × Int × Int := ydayInfo.getD r (0, 0, 0)

theorem ydayRow_eq (r : Nat) (h : r < 365) : ydayRow (r : Int) = .ok (row r) := by
  have hl : ydayInfo.length = 366 := by decide +kernel
  simp only [ydayRow, row]
  rw [if_neg (by omega)]
  simp only [Int.toNat_natCast]
  rw [List.getD_eq_getElem?_getD, List.getElem?_eq_getElem (by omega)]
  rfl

/-- What the table is checked for: consecutive rows are consecutive days of a year from March to February, whatever the
year. -/
theorem row_step : ∀ r : Fin 364,
    ((row r.val).2.1 ≠ 1 ∨ (row r.val).2.2 < 28) ∧
    ((row r.val).2.2 < monthLength 1 ((row r.val).2.1 + 1) ∧ row (r.val + 1) = ((row r.val).1, (row r.val).2.1, (row r.val).2.2 + 1) ∨
     ¬ (row r.val).2.2 < monthLength 1 ((row r.val).2.1 + 1) ∧ (row r.val).2.1 < 11 ∧
        row (r.val + 1) = ((row r.val).1, (row r.val).2.1 + 1, 1) ∨
     ¬ (row r.val).2.2 < monthLength 1 ((row r.val).2.1 + 1) ∧ (row r.val).2.1 = 11 ∧
        row (r.val + 1) = ((row r.val).1 + 1, 0, 1)) := by
  decide +kernel

theorem row_first : row 0 = (0, 2, 1) := by decide +kernel
theorem row_last : row 364 = (1, 1, 28) := by decide +kernel

theorem row_next (Y : Int) (r : Nat) (h : r < 364) :
    next (toDate (Y + (row r).1, (row r).2.1, (row r).2.2)) = toDate (Y + (row (r + 1)).1, (row (r + 1)).2.1, (row (r + 1)).2.2) := by
  obtain ⟨hfeb, hs⟩ := row_step ⟨r, h⟩
  simp only at hfeb hs
  generalize row r = a at *
  generalize row (r + 1) = b at *
  obtain ⟨a1, a2, a3⟩ := a
  simp only at hfeb hs
  by_cases hm : a2 = 1
  · subst hm
    have h28 : a3 < 28 := by omega
    have hlt : ∀ y, a3 < monthLength y 2 := by
      intro y; simp only [monthLength]; split_ifs <;> omega
    rcases hs with ⟨_, rfl⟩ | ⟨hn, _⟩ | ⟨hn, _⟩
    · simp [next, toDate, hlt]
    · exact absurd (hlt 1) (by simpa using hn)
    · exact absurd (hlt 1) (by simpa using hn)
  · have hml : ∀ y, monthLength y (a2 + 1) = monthLength 1 (a2 + 1) := by
      intro y
      have : a2 + 1 ≠ 2 := by omega
      simp [monthLength, this]
    rcases hs with ⟨hl, rfl⟩ | ⟨hn, h11, rfl⟩ | ⟨hn, h11, rfl⟩
    · simp [next, toDate, hml, hl]
    · simp only [toDate, next_mk, hml, hn, if_false]
      rw [if_pos (by omega)]
    · simp only [toDate, next_mk, hml, hn, if_false]
      rw [if_neg (by omega)]
      simp; omega

/-! The code on the mixed-radix digits of the day number. -/

theorem tdiv_nat (a b : Nat) : (a : Int).tdiv b = ((a / b : Nat) : Int) := by
  simp [Int.tdiv_eq_ediv_of_nonneg]

theorem tmod_nat (a b : Nat) : (a : Int).tmod b = ((a % b : Nat) : Int) := by
  simp [Int.tmod_eq_emod_of_nonneg]

/-- The code's date for the day number `n` since 1600-03-01, in natural number arithmetic. -/
theorem dateOf_nat (n : Nat) :
    dateOf n = .ok (
      let Y : Int := 400 * (n / 146097 : Nat) + 100 * (n % 146097 / 36524 : Nat) - 300
      let f : Nat := n % 146097 % 36524 / 1461
      let y : Nat := n % 146097 % 36524 % 1461 / 365
      let r : Nat := n % 146097 % 36524 % 1461 % 365
      if n % 146097 / 36524 = 4 then (Y, 1, 29)
      else if y = 4 then (Y + 4 * f + y, 1, 29)
      else (Y + 4 * f + y + (row r).1, (row r).2.1, (row r).2.2)) := by
  simp only [dateOf, dateTail]
  have h1 := tdiv_nat n 146097
  have h2 := tmod_nat n 146097
  have h3 := tdiv_nat (n % 146097) 36524
  have h4 := tmod_nat (n % 146097) 36524
  have h5 := tdiv_nat (n % 146097 % 36524) 1461
  have h6 := tmod_nat (n % 146097 % 36524) 1461
  have h7 := tdiv_nat (n % 146097 % 36524 % 1461) 365
  have h8 := tmod_nat (n % 146097 % 36524 % 1461) 365
  simp only [Nat.cast_ofNat] at h1 h2 h3 h4 h5 h6 h7 h8
  rw [h1, h2, h3, h4, h5, h6, h7, h8, ydayRow_eq _ (Nat.mod_lt _ (by omega))]
  generalize n / 146097 = a
  generalize n % 146097 / 36524 = c
  generalize n % 146097 % 36524 / 1461 = f
  generalize n % 146097 % 36524 % 1461 / 365 = y
  generalize row _ = rr
  by_cases hc : c = 4
  · rw [if_pos (by omega), if_pos hc]
    simp only [Except.ok.injEq, Prod.mk.injEq, and_true]; push_cast; omega
  · rw [if_neg (by omega), if_neg hc]
    by_cases hy : y = 4
    · rw [if_pos (by omega), if_pos hy]
      simp only [Except.ok.injEq, Prod.mk.injEq, and_true]; push_cast; omega
    · rw [if_neg (by omega), if_neg hy]
      simp only
      simp only [Except.ok.injEq, Prod.mk.injEq, and_true]; push_cast; omega

/-- The digits of a day number. -/
inductive Digits : Nat → Nat → Nat → Nat → Nat → Nat → Prop
  | last (a : Nat) : Digits (146097 * a + 146096) a 4 0 0 0
  | leap (a c f : Nat) (hc : c < 4) (hf : f < 24) : Digits (146097 * a + 36524 * c + 1461 * f + 1460) a c f 4 0
  | day (a c f y r : Nat) (hc : c < 4) (hf : f < 25) (hy : y < 4) (hr : r < 365) :
      Digits (146097 * a + 36524 * c + 1461 * f + 365 * y + r) a c f y r

theorem digits_exist (n : Nat) : ∃ a c f y r, Digits n a c f y r := by
  by_cases h1 : n % 146097 = 146096
  · refine ⟨n / 146097, 4, 0, 0, 0, ?_⟩
    have : n = 146097 * (n / 146097) + 146096 := by omega
    rw [this]
    convert Digits.last (n / 146097) using 1
    omega
  · by_cases h2 : n % 146097 % 36524 % 1461 = 1460
    · refine ⟨n / 146097, n % 146097 / 36524, n % 146097 % 36524 / 1461, 4, 0, ?_⟩
      have := Digits.leap (n / 146097) (n % 146097 / 36524) (n % 146097 % 36524 / 1461) (by omega) (by omega)
      convert this using 1
      omega
    · refine ⟨n / 146097, n % 146097 / 36524, n % 146097 % 36524 / 1461, n % 146097 % 36524 % 1461 / 365,
        n % 146097 % 36524 % 1461 % 365, ?_⟩
      have := Digits.day (n / 146097) (n % 146097 / 36524) (n % 146097 % 36524 / 1461)
        (n % 146097 % 36524 % 1461 / 365) (n % 146097 % 36524 % 1461 % 365) (by omega) (by omega) (by omega) (by omega)
      convert this using 1
      omega

theorem dateOf_last (a : Nat) : dateOf ((146097 * a + 146096 : Nat) : Int) = .ok (400 * a + 100, 1, 29) := by
  rw [dateOf_nat]
  have h1 : (146097 * a + 146096) / 146097 = a := by omega
  have h2 : (146097 * a + 146096) % 146097 = 146096 := by omega
  simp only [h1, h2, Nat.reduceDiv, if_true]
  simp only [Except.ok.injEq, Prod.mk.injEq, and_true]; push_cast; omega

theorem dateOf_leap (a c f : Nat) (hc : c < 4) (hf : f < 24) :
    dateOf ((146097 * a + 36524 * c + 1461 * f + 1460 : Nat) : Int) = .ok (400 * a + 100 * c + 4 * f - 296, 1, 29) := by
  rw [dateOf_nat]
  have h1 : (146097 * a + 36524 * c + 1461 * f + 1460) / 146097 = a := by omega
  have h2 : (146097 * a + 36524 * c + 1461 * f + 1460) % 146097 = 36524 * c + 1461 * f + 1460 := by omega
  have h3 : (36524 * c + 1461 * f + 1460) / 36524 = c := by omega
  have h4 : (36524 * c + 1461 * f + 1460) % 36524 = 1461 * f + 1460 := by omega
  have h5 : (1461 * f + 1460) / 1461 = f := by omega
  have h6 : (1461 * f + 1460) % 1461 = 1460 := by omega
  simp only [h1, h2, h3, h4, h5, h6, Nat.reduceDiv, if_true]
  rw [if_neg (by omega)]
  simp only [Except.ok.injEq, Prod.mk.injEq, and_true]; push_cast; omega

theorem dateOf_day (a c f y r : Nat) (hc : c < 4) (hf : f < 25) (hy : y < 4) (hr : r < 365) :
    dateOf ((146097 * a + 36524 * c + 1461 * f + 365 * y + r : Nat) : Int) =
      .ok ((400 * a + 100 * c + 4 * f + y - 300 : Int) + (row r).1, (row r).2.1, (row r).2.2) := by
  rw [dateOf_nat]
  have h1 : (146097 * a + 36524 * c + 1461 * f + 365 * y + r) / 146097 = a := by omega
  have h2 : (146097 * a + 36524 * c + 1461 * f + 365 * y + r) % 146097 = 36524 * c + 1461 * f + 365 * y + r := by omega
  have h3 : (36524 * c + 1461 * f + 365 * y + r) / 36524 = c := by omega
  have h4 : (36524 * c + 1461 * f + 365 * y + r) % 36524 = 1461 * f + 365 * y + r := by omega
  have h5 : (1461 * f + 365 * y + r) / 1461 = f := by omega
  have h6 : (1461 * f + 365 * y + r) % 1461 = 365 * y + r := by omega
  have h7 : (365 * y + r) / 365 = y := by omega
  have h8 : (365 * y + r) % 365 = r := by omega
  simp only [h1, h2, h3, h4, h5, h6, h7, h8]
  rw [if_neg (by omega), if_neg (by omega)]
  simp only [Except.ok.injEq, Prod.mk.injEq, and_true]; push_cast; omega

theorem leap_iff (y : Int) : leap y = true ↔ y % 4 = 0 ∧ (y % 100 ≠ 0 ∨ y % 400 = 0) := by
  simp [leap]

/-- The code's date advances by one calendar day when the day number does. -/
theorem dateOf_step (n : Nat) : ∃ d e, dateOf (n : Int) = .ok d ∧ dateOf ((n + 1 : Nat) : Int) = .ok e ∧
    toDate e = next (toDate d) := by
  obtain ⟨a, c, f, y, r, h⟩ := digits_exist n
  cases h with
  | last a =>
    refine ⟨_, (400 * (a + 1) - 300 + (row 0).1, (row 0).2.1, (row 0).2.2), dateOf_last a, ?_, ?_⟩
    · have := dateOf_day (a + 1) 0 0 0 0 (by omega) (by omega) (by omega) (by omega)
      rw [show 146097 * a + 146096 + 1 = 146097 * (a + 1) + 36524 * 0 + 1461 * 0 + 365 * 0 + 0 by omega, this]
      simp only [Except.ok.injEq, Prod.mk.injEq, and_true]; push_cast; omega
    · have hl : leap ((400 * (a : Int) + 100) + 1900) = true := by rw [leap_iff]; omega
      simp [row_first, toDate, next_mk, monthLength, hl]
      omega
  | leap a c f hc hf =>
    refine ⟨_, (400 * a + 100 * c + 4 * (f + 1) - 300 + (row 0).1, (row 0).2.1, (row 0).2.2), dateOf_leap a c f hc hf, ?_, ?_⟩
    · have := dateOf_day a c (f + 1) 0 0 hc (by omega) (by omega) (by omega)
      rw [show 146097 * a + 36524 * c + 1461 * f + 1460 + 1 = 146097 * a + 36524 * c + 1461 * (f + 1) + 365 * 0 + 0 by omega,
        this]
      simp only [Except.ok.injEq, Prod.mk.injEq, and_true]; push_cast; omega
    · have hl : leap ((400 * (a : Int) + 100 * c + 4 * f - 296) + 1900) = true := by rw [leap_iff]; omega
      simp [row_first, toDate, next_mk, monthLength, hl]
      omega
  | day a c f y r hc hf hy hr =>
    by_cases h364 : r < 364
    · refine ⟨_, _, dateOf_day a c f y r hc hf hy hr, dateOf_day a c f y (r + 1) hc hf hy (by omega), ?_⟩
      exact (row_next _ _ h364).symm
    · have hr' : r = 364 := by omega
      subst hr'
      by_cases hy3 : y < 3
      · refine ⟨_, (400 * a + 100 * c + 4 * f + (y + 1) - 300 + (row 0).1, (row 0).2.1, (row 0).2.2), dateOf_day a c f y 364 hc hf hy hr, ?_, ?_⟩
        · have := dateOf_day a c f (y + 1) 0 hc hf (by omega) (by omega)
          rw [show 146097 * a + 36524 * c + 1461 * f + 365 * y + 364 + 1 =
            146097 * a + 36524 * c + 1461 * f + 365 * (y + 1) + 0 by omega, this]
          simp only [Except.ok.injEq, Prod.mk.injEq, and_true]; push_cast; omega
        · have hl : leap ((400 * (a : Int) + 100 * c + 4 * f + y - 300) + 1 + 1900) = false := by
            rw [← Bool.not_eq_true, leap_iff]; omega
          simp [row_first, row_last, toDate, next_mk, monthLength, hl]
          omega
      · have hy' : y = 3 := by omega
        subst hy'
        by_cases hf24 : f < 24
        · refine ⟨_, (400 * a + 100 * c + 4 * f - 296, 1, 29), dateOf_day a c f 3 364 hc hf hy hr, ?_, ?_⟩
          · rw [show 146097 * a + 36524 * c + 1461 * f + 365 * 3 + 364 + 1 = 146097 * a + 36524 * c + 1461 * f + 1460 by omega]
            exact dateOf_leap a c f hc hf24
          have hl : leap ((400 * (a : Int) + 100 * c + 4 * f + 3 - 300) + 1 + 1900) = true := by
            rw [leap_iff]; omega
          simp [row_last, toDate, next_mk, monthLength, hl]
          omega
        · have hf' : f = 24 := by omega
          subst hf'
          by_cases hc3 : c < 3
          · refine ⟨_, (400 * a + 100 * (c + 1) - 300 + (row 0).1, (row 0).2.1, (row 0).2.2), dateOf_day a c 24 3 364 hc hf hy hr, ?_, ?_⟩
            · have := dateOf_day a (c + 1) 0 0 0 (by omega) (by omega) (by omega) (by omega)
              rw [show 146097 * a + 36524 * c + 1461 * 24 + 365 * 3 + 364 + 1 =
                146097 * a + 36524 * (c + 1) + 1461 * 0 + 365 * 0 + 0 by omega, this]
              simp only [Except.ok.injEq, Prod.mk.injEq, and_true]; push_cast; omega
            · have hl : leap ((400 * (a : Int) + 100 * c + 4 * (24 : Nat) + (3 : Nat) - 300) + 1 + 1900) = false := by
                rw [← Bool.not_eq_true, leap_iff]; omega
              simp at hl
              simp [row_first, row_last, toDate, next_mk, monthLength, hl]
              omega
          · have hc' : c = 3 := by omega
            subst hc'
            refine ⟨_, (400 * a + 100, 1, 29), dateOf_day a 3 24 3 364 hc hf hy hr, ?_, ?_⟩
            · rw [show 146097 * a + 36524 * 3 + 1461 * 24 + 365 * 3 + 364 + 1 = 146097 * a + 146096 by omega]
              exact dateOf_last a
            have hl : leap ((400 * (a : Int) + 100 * (3 : Nat) + 4 * (24 : Nat) + (3 : Nat) - 300) + 1 + 1900) = true := by
              rw [leap_iff]; omega
            simp at hl
            simp [row_last, toDate, next_mk, monthLength, hl]
            omega

theorem dateOf_zero : dateOf 0 = .ok (-300, 2, 1) := by decide +kernel
theorem dateOf_epoch : dateOf 135080 = .ok (70, 0, 1) := by decide +kernel

/-- The code's date of day number `n` is `n` days after 1600-03-01. -/
theorem dateOf_after (n : Nat) : ∃ d, dateOf (n : Int) = .ok d ∧ toDate d = after ⟨1600, 3, 1⟩ n := by
  induction n with
  | zero => exact ⟨_, dateOf_zero, rfl⟩
  | succ n ih =>
    obtain ⟨d, hd, hda⟩ := ih
    obtain ⟨d', e, hd', he, hn⟩ := dateOf_step n
    rw [hd] at hd'
    simp only [Except.ok.injEq] at hd'
    subst hd'
    exact ⟨e, he, by rw [hn, hda]; rfl⟩

theorem after_add (d : Date) (m n : Nat) : after d (m + n) = after (after d m) n := by
  induction n with
  | zero => rfl
  | succ n ih => rw [Nat.add_succ]; simp only [after, ih]

theorem epoch_after : after ⟨1600, 3, 1⟩ 135080 = unixEpoch := by
  obtain ⟨d, hd, h⟩ := dateOf_after 135080
  have := dateOf_epoch
  simp only [Nat.cast_ofNat] at hd
  rw [this] at hd
  simp only [Except.ok.injEq] at hd
  rw [← h, ← hd]
  decide

theorem weekday_eq (n : Nat) : weekday n = (n + 4) % 7 := by
  induction n with
  | zero => rfl
  | succ n ih => simp only [weekday, ih]; split <;> omega

theorem valid_next {d : Date} (h : Valid d) : Valid (next d) := by
  obtain ⟨y, m, d⟩ := d
  simp only [Valid] at h
  obtain ⟨h1, h2, h3, h4⟩ := h
  have hml : ∀ y m, 28 ≤ monthLength y m := by
    intro y m; simp only [monthLength]; split_ifs <;> omega
  simp only [next]
  split
  · rename_i hlt; simp only [Valid] at hlt ⊢; exact ⟨h1, h2, by omega, by omega⟩
  · split
    · have := hml y (m + 1); simp only [Valid]; refine ⟨by omega, by omega, by omega, by omega⟩
    · have := hml (y + 1) 1; simp only [Valid]; refine ⟨by omega, by omega, by omega, by omega⟩

theorem valid_after {d : Date} (h : Valid d) (n : Nat) : Valid (after d n) := by
  induction n with
  | zero => exact h
  | succ n ih => exact valid_next ih

/-- Lexicographic order of dates. -/
def Before (a b : Date) : Prop :=
  a.year < b.year ∨ a.year = b.year ∧ (a.month < b.month ∨ a.month = b.month ∧ a.day < b.day)

theorem before_next (d : Date) : Before d (next d) := by
  simp only [next, Before]
  split
  · right; refine ⟨rfl, .inr ⟨rfl, ?_⟩⟩; simp
  · split
    · right; refine ⟨rfl, .inl ?_⟩; simp
    · left; simp

theorem before_trans {a b c : Date} (h : Before a b) (h' : Before b c) : Before a c := by
  simp only [Before] at *
  omega

theorem before_after (d : Date) (m n : Nat) (hmn : m < n) : Before (after d m) (after d n) := by
  obtain ⟨k, rfl⟩ : ∃ k, n = m + 1 + k := ⟨n - (m + 1), by omega⟩
  induction k with
  | zero => exact before_next _
  | succ k ih =>
    exact before_trans (ih (by omega)) (before_next _)

end Verif.Date
