import Verif.Props.Date

/-!
Property C125: `epoch_to_utc` keeps the order of times and reaches every second of every date.
-/

set_option autoImplicit false

namespace Verif.Date
open Verif.Spec.Date

/-- `t` is earlier than `u`, comparing the year, the month, the day, the hour, the minute and the second in this order. -/
def Tm.Earlier (t u : Tm) : Prop :=
  t.year < u.year ∨ t.year = u.year ∧ (t.mon < u.mon ∨ t.mon = u.mon ∧ (t.mday < u.mday ∨ t.mday = u.mday ∧
    (t.hour < u.hour ∨ t.hour = u.hour ∧ (t.min < u.min ∨ t.min = u.min ∧ t.sec < u.sec))))

/-- C125 (order). Of two time values the smaller yields the earlier time. -/
theorem epoch_to_utc_order (a b : Nat) (hb : b / 86400 + 135080 < 2 ^ 31) (h : a < b) :
    ∃ t u, epochToUtc a = .ok t ∧ epochToUtc b = .ok u ∧ t.Earlier u := by
  obtain ⟨t, ht, hd, hh, hm, hs, _, _⟩ := epochToUtc_nat a (by omega)
  obtain ⟨u, hu, hd', hh', hm', hs', _, _⟩ := epochToUtc_nat b hb
  refine ⟨t, u, ht, hu, ?_⟩
  rcases Nat.lt_or_ge (a / 86400) (b / 86400) with hl | hl
  · have := (calendar_dates_distinct unixEpoch _ _ hl).1
    rw [← hd, ← hd'] at this
    simp only [Before, Tm.date] at this
    unfold Tm.Earlier
    omega
  · have e : a / 86400 = b / 86400 := by omega
    rw [e, ← hd'] at hd
    simp only [Tm.date, Date.mk.injEq] at hd
    obtain ⟨h1, h2, h3⟩ := hd
    unfold Tm.Earlier
    refine .inr ⟨by omega, .inr ⟨by omega, .inr ⟨h3, ?_⟩⟩⟩
    rw [hh, hh', hm, hm', hs, hs']
    clear hh hh' hm hm' hs hs' h1 h2 h3 hb ht hu hd'
    omega

/-- Counting days within a month. -/
theorem after_day (y m : Int) (k : Nat) (h : (k : Int) < monthLength y m) : after ⟨y, m, 1⟩ k = ⟨y, m, 1 + k⟩ := by
  induction k with
  | zero => rfl
  | succ k ih =>
    have h' : ((k : Int) + 1) < monthLength y m := by exact_mod_cast h
    rw [after, ih (by omega)]
    simp only [next]
    rw [if_pos (by omega)]
    simp only [Date.mk.injEq, true_and]
    push_cast; omega

theorem monthLength_bounds (y m : Int) : 28 ≤ monthLength y m ∧ monthLength y m ≤ 31 := by
  unfold monthLength; split
  · split <;> omega
  · split <;> omega

/-- Counting the days of a month leads to the first of the next. -/
theorem after_month (y m : Int) (h : m < 12) : ∃ n : Nat, n ≤ 31 ∧ after ⟨y, m, 1⟩ n = ⟨y, m + 1, 1⟩ := by
  have hb := monthLength_bounds y m
  obtain ⟨k, hk⟩ : ∃ k : Nat, monthLength y m = k + 1 := ⟨(monthLength y m - 1).toNat, by omega⟩
  refine ⟨k + 1, by omega, ?_⟩
  rw [after, after_day y m k (by omega)]
  simp only [next]
  rw [if_neg (by omega), if_pos h]

theorem after_year (y : Int) : ∃ n : Nat, n ≤ 366 ∧ after ⟨y, 1, 1⟩ n = ⟨y + 1, 1, 1⟩ := by
  have step : ∀ {n : Nat} {a b c : Date} {k : Nat}, after a n = b → after b k = c → after a (n + k) = c := by
    intro n a b c k h1 h2; rw [after_add, h1, h2]
  have len : ∀ m : Int, m < 12 → after ⟨y, m, 1⟩ (monthLength y m).toNat = ⟨y, m + 1, 1⟩ := by
    intro m h
    have hb := monthLength_bounds y m
    obtain ⟨k, hk⟩ : ∃ k : Nat, monthLength y m = k + 1 := ⟨(monthLength y m - 1).toNat, by omega⟩
    rw [hk, show ((k : Int) + 1).toNat = k + 1 by omega, after, after_day y m k (by omega)]
    simp only [next]
    rw [if_neg (by omega), if_pos h]
  have last : after ⟨y, 12, 1⟩ 31 = ⟨y + 1, 1, 1⟩ := by
    rw [after, after_day y 12 30 (by unfold monthLength; norm_num)]
    simp only [next]
    rw [if_neg (by unfold monthLength; norm_num), if_neg (by omega)]
  have h := step (step (step (step (step (step (step (step (step (step (step (len 1 (by omega)) (len 2 (by omega))) (len 3 (by omega))) (len 4 (by omega)))
    (len 5 (by omega))) (len 6 (by omega))) (len 7 (by omega))) (len 8 (by omega))) (len 9 (by omega))) (len 10 (by omega))) (len 11 (by omega))) last
  refine ⟨_, ?_, h⟩
  cases hl : leap y <;> simp [monthLength, hl]

/-- Every date from 1970 on comes up in counting, after at most 366 days for each year. -/
theorem after_reaches (d : Date) (hv : Valid d) (h : 1970 ≤ d.year) :
    ∃ n : Nat, after unixEpoch n = d ∧ (n : Int) ≤ 366 * (d.year - 1970) + 31 * d.month + d.day := by
  have years : ∀ k : Nat, ∃ n : Nat, n ≤ 366 * k ∧ after unixEpoch n = ⟨1970 + k, 1, 1⟩ := by
    intro k
    induction k with
    | zero => exact ⟨0, by omega, rfl⟩
    | succ k ih =>
      obtain ⟨n, hn, e⟩ := ih
      obtain ⟨i, hi, e'⟩ := after_year (1970 + k)
      refine ⟨n + i, by omega, ?_⟩
      rw [after_add, e, e']
      simp only [Date.mk.injEq, and_true]
      push_cast; omega
  have months : ∀ (y : Int) (k : Nat), k < 12 → ∃ n : Nat, n ≤ 31 * k ∧ after ⟨y, 1, 1⟩ n = ⟨y, 1 + k, 1⟩ := by
    intro y k
    induction k with
    | zero => intro _; exact ⟨0, by omega, rfl⟩
    | succ k ih =>
      intro hk
      obtain ⟨n, hn, e⟩ := ih (by omega)
      obtain ⟨i, hi, e'⟩ := after_month y (1 + k) (by omega)
      refine ⟨n + i, by omega, ?_⟩
      rw [after_add, e, e']
      simp only [Date.mk.injEq, true_and, and_true]
      push_cast; omega
  obtain ⟨y, m, dd⟩ := d
  obtain ⟨v1, v2, v3, v4⟩ := hv
  simp only at v1 v2 v3 v4 h
  obtain ⟨a, ha, e1⟩ := years (y - 1970).toNat
  obtain ⟨b, hb, e2⟩ := months y (m - 1).toNat (by omega)
  have e3 := after_day y m (dd - 1).toNat (by omega)
  refine ⟨a + b + (dd - 1).toNat, ?_, ?_⟩
  · rw [after_add, after_add, e1, show (1970 + ((y - 1970).toNat : Int)) = y by omega, e2, show (1 + ((m - 1).toNat : Int)) = m by omega, e3]
    simp only [Date.mk.injEq, true_and]
    omega
  · push_cast; omega

/-- C125 (every second). For every date of the calendar from 1970 up to the year 4999999 and every time of day there is exactly one
non-negative time value that `epoch_to_utc` turns into it. -/
theorem epoch_to_utc_onto (d : Date) (hv : Valid d) (h0 : 1970 ≤ d.year) (h1 : d.year < 5000000) (hour min sec : Nat) (hh : hour < 24) (hm : min < 60)
    (hs : sec < 60) : ∃! epoch : Nat, epoch / 86400 + 135080 < 2 ^ 31 ∧
      ∃ t, epochToUtc epoch = .ok t ∧ t.date = d ∧ t.hour = hour ∧ t.min = min ∧ t.sec = sec := by
  obtain ⟨n, hn, hle⟩ := after_reaches d hv h0
  have hb : n + 135080 < 2 ^ 31 := by
    have := monthLength_bounds d.year d.month
    obtain ⟨v1, v2, v3, v4⟩ := hv
    omega
  have e0 : (86400 * n + 3600 * hour + 60 * min + sec) / 86400 = n := by omega
  obtain ⟨t, ht, hd, th, tm, ts, _, _⟩ := epochToUtc_nat (86400 * n + 3600 * hour + 60 * min + sec) (by rw [e0]; exact hb)
  refine ⟨86400 * n + 3600 * hour + 60 * min + sec, ⟨by rw [e0]; exact hb, t, ht, by rw [hd, e0, hn], ?_, ?_, ?_⟩, ?_⟩
  · rw [th]; clear th tm ts hb hle; omega
  · rw [tm]; clear th tm ts hb hle; omega
  · rw [ts]; clear th tm ts hb hle; omega
  · rintro e ⟨he, u, hu, ud, uh, um, us⟩
    have td : t.date = d := by rw [hd, e0, hn]
    have th' : t.hour = hour := by rw [th]; clear th tm ts hb hle; omega
    have tm' : t.min = min := by rw [tm]; clear th tm ts hb hle; omega
    have ts' : t.sec = sec := by rw [ts]; clear th tm ts hb hle; omega
    have same : ∀ a b : Tm, a.date = d → b.date = d → a.hour = hour → b.hour = hour → a.min = min → b.min = min → a.sec = sec → b.sec = sec →
        ¬ a.Earlier b := by
      intro a b h1 h2 h3 h4 h5 h6 h7 h8
      rw [← h2] at h1
      simp only [Tm.date, Date.mk.injEq] at h1
      unfold Tm.Earlier
      omega
    rcases Nat.lt_trichotomy e (86400 * n + 3600 * hour + 60 * min + sec) with hlt | heq | hlt
    · obtain ⟨x, y, hx, hy, hxy⟩ := epoch_to_utc_order _ _ (by rw [e0]; exact hb) hlt
      rw [hu] at hx; rw [ht] at hy; cases hx; cases hy
      exact absurd hxy (same _ _ ud td uh th' um tm' us ts')
    · exact heq
    · obtain ⟨x, y, hx, hy, hxy⟩ := epoch_to_utc_order _ _ he hlt
      rw [hu] at hy; rw [ht] at hx; cases hx; cases hy
      exact absurd hxy (same _ _ td ud th' uh tm' um ts' us)

example : Valid ⟨2024, 2, 29⟩ ∧ ∃ t u, epochToUtc 1709251199 = .ok t ∧ epochToUtc 1709251200 = .ok u ∧ t.date = ⟨2024, 2, 29⟩ ∧ t.sec = 59 ∧
    u.date = ⟨2024, 3, 1⟩ ∧ u.sec = 0 := by
  refine ⟨by unfold Valid; decide, ⟨59, 59, 23, 29, 1, 124, 4, -1, 0⟩, ⟨0, 0, 0, 1, 2, 124, 5, -1, 0⟩, ?_⟩
  decide +kernel

end Verif.Date
