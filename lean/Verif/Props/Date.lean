import Verif.Proofs.Date

/-! Properties C43 to C45: `date.c`. -/

namespace Verif.Date
open Verif.Spec.Date

/-- The calendar date in a `struct tm`. -/
def Tm.date (t : Tm) : Date := ⟨t.year + 1900, t.mon + 1, t.mday⟩

theorem toInt_small (q : Nat) (h : q < 2 ^ 31) : toInt (q : Int) = q := by
  simp only [toInt]; omega

theorem addInt_small (q c : Nat) (h : q + c < 2 ^ 31) : addInt (q : Int) (c : Int) = .ok ((q + c : Nat) : Int) := by
  simp only [addInt]; rw [if_pos (by omega)]; push_cast; rfl

theorem epochToUtc_eq {epoch s0 m0 s h m q d d4 d0 : Int} {r : Int × Int × Int} (h1 : epoch.tmod 86400 = s0) (h2 : s0.tdiv 60 = m0)
    (h3 : s0.tmod 60 = s) (h4 : m0.tdiv 60 = h) (h5 : m0.tmod 60 = m) (h6 : epoch.tdiv 86400 = q) (h7 : toInt q = d)
    (h8 : addInt d 4 = .ok d4) (h9 : addInt d 135080 = .ok d0) (h10 : dateOf d0 = .ok r) :
    epochToUtc epoch = .ok { sec := s, min := m, hour := h, mday := (r.2.2), mon := (r.2.1), year := (r.1),
                             wday := (d4.tmod 7), yday := -1, isdst := 0 } := by
  unfold epochToUtc
  simp only [h1, h2, h3, h4, h5, h6, h7, h8, h9, h10]

theorem epochToUtc_nat (epoch : Nat) (h : epoch / 86400 + 135080 < 2 ^ 31) :
    ∃ t, epochToUtc epoch = .ok t ∧ t.date = after unixEpoch (epoch / 86400) ∧
      t.hour = (epoch % 86400 / 3600 : Nat) ∧ t.min = (epoch % 3600 / 60 : Nat) ∧ t.sec = (epoch % 60 : Nat) ∧
      t.wday = ((epoch / 86400 + 4) % 7 : Nat) ∧ t.isdst = 0 := by
  have hi := toInt_small (epoch / 86400) (by omega)
  have ha := addInt_small (epoch / 86400) 4 (by omega)
  have hb := addInt_small (epoch / 86400) 135080 (by omega)
  have e1 : epoch % 86400 / 60 / 60 = epoch % 86400 / 3600 := by clear hi ha hb h; omega
  have e2 : epoch % 86400 / 60 % 60 = epoch % 3600 / 60 := by clear hi ha hb h e1; omega
  have e3 : epoch % 86400 % 60 = epoch % 60 := by clear hi ha hb h e1 e2; omega
  have h1 := tmod_nat epoch 86400
  have h2 := tdiv_nat (epoch % 86400) 60
  have h3 := tmod_nat (epoch % 86400) 60
  have h4 := tdiv_nat (epoch % 86400 / 60) 60
  have h5 := tmod_nat (epoch % 86400 / 60) 60
  have h6 := tdiv_nat epoch 86400
  have h7 := tmod_nat (epoch / 86400 + 4) 7
  rw [e1] at h4
  rw [e2] at h5
  rw [e3] at h3
  clear h e1 e2 e3
  rw [Nat.add_comm _ 135080] at hb
  simp only [Nat.cast_ofNat] at h1 h2 h3 h4 h5 h6 h7 ha hb
  obtain ⟨d, hd, hda⟩ := dateOf_after (135080 + epoch / 86400)
  refine ⟨_, epochToUtc_eq h1 h2 h3 h4 h5 h6 hi ha hb hd, ?_, rfl, rfl, rfl, h7, rfl⟩
  simp only [Tm.date]
  rw [after_add, epoch_after] at hda
  exact hda

/-- C43. For every non-negative time value whose day number fits the `int` used, `epoch_to_utc` has no undefined behaviour
and yields the date obtained by counting days from 1970-01-01 in the proleptic Gregorian calendar, and the time of day; every
field is in its range; together they denote the given second. -/
theorem epoch_to_utc_correct (epoch : Nat) (h : epoch / 86400 + 135080 < 2 ^ 31) :
    ∃ t n, epochToUtc epoch = .ok t ∧ t.date = after unixEpoch n ∧ Valid t.date ∧
      0 ≤ t.hour ∧ t.hour < 24 ∧ 0 ≤ t.min ∧ t.min < 60 ∧ 0 ≤ t.sec ∧ t.sec < 60 ∧
      (epoch : Int) = 86400 * n + 3600 * t.hour + 60 * t.min + t.sec := by
  obtain ⟨t, ht, hd, hh, hm, hs, _, _⟩ := epochToUtc_nat epoch h
  refine ⟨t, _, ht, hd, ?_, ?_⟩
  · rw [hd]; exact valid_after (by unfold Valid; decide) _
  · rw [hh, hm, hs]; omega

example : epochToUtc 1709210096 =
    .ok { sec := 56, min := 34, hour := 12, mday := 29, mon := 1, year := 124, wday := 4, yday := -1, isdst := 0 } := by
  decide +kernel

/-- C43 (uniqueness). Different day numbers are different dates, in calendar order: the date of C43 is the only one. -/
theorem calendar_dates_distinct (d : Date) (m n : Nat) (h : m < n) :
    Before (after d m) (after d n) ∧ after d m ≠ after d n := by
  have hb := before_after d m n h
  refine ⟨hb, fun he => ?_⟩
  rw [he] at hb
  simp only [Before] at hb
  omega

/-- C44. `tm_wday` is the day of the week, counting from Thursday 1970-01-01. -/
theorem epoch_to_utc_weekday (epoch : Nat) (h : epoch / 86400 + 135080 < 2 ^ 31) :
    ∃ t n, epochToUtc epoch = .ok t ∧ t.date = after unixEpoch n ∧ t.wday = weekday n := by
  obtain ⟨t, ht, hd, _, _, _, hw, _⟩ := epochToUtc_nat epoch h
  exact ⟨t, _, ht, hd, by rw [hw, weekday_eq]⟩

/-- C45 fails: one second before 1970 `epoch_to_utc` reports 1970-01-01 with `tm_sec = -1`. -/
theorem epoch_to_utc_negative_wrong : ∃ t, epochToUtc (-1) = .ok t ∧ t.sec = -1 ∧ t.date = unixEpoch :=
  ⟨{ sec := -1, min := 0, hour := 0, mday := 1, mon := 0, year := 70, wday := 4, yday := -1, isdst := 0 },
    by decide +kernel, rfl, by decide⟩

/-- C45 fails for the weekday too: 1969-12-25 (exactly seven days before 1970, a Thursday) gets `tm_wday = -3`. -/
theorem epoch_to_utc_negative_weekday_wrong : ∃ t, epochToUtc (-604800) = .ok t ∧ t.wday = -3 ∧ t.date = ⟨1969, 12, 25⟩ :=
  ⟨{ sec := 0, min := 0, hour := 0, mday := 25, mon := 11, year := 69, wday := -3, yday := -1, isdst := 0 },
    by decide +kernel, rfl, by decide⟩

theorem tmod_neg_nat (a b : Nat) : (-(a : Int)).tmod b = -((a % b : Nat) : Int) := by
  rw [Int.neg_tmod, tmod_nat]

theorem tdiv_neg_nat (a b : Nat) : (-(a : Int)).tdiv b = -((a / b : Nat) : Int) := by
  rw [Int.neg_tdiv, tdiv_nat]

/-- C45, what remains: back to 1600-03-01 there is no undefined behaviour, and the fields denote the given second if the time
of day is read as a negative offset from midnight of a valid date; the date is the right one, and the time of day is in its
range, exactly at midnights; the weekday is right modulo 7. Missing: the ranges of the fields at every other negative time. -/
theorem epoch_to_utc_negative_partial (k : Nat) (h : k / 86400 ≤ 135080) :
    ∃ t n, epochToUtc (-(k : Int)) = .ok t ∧ after t.date n = unixEpoch ∧ Valid t.date ∧
      -24 < t.hour ∧ t.hour ≤ 0 ∧ -60 < t.min ∧ t.min ≤ 0 ∧ -60 < t.sec ∧ t.sec ≤ 0 ∧
      -(k : Int) = -86400 * n + 3600 * t.hour + 60 * t.min + t.sec ∧
      (k % 86400 = 0 ↔ t.hour = 0 ∧ t.min = 0 ∧ t.sec = 0) ∧
      -7 < t.wday ∧ t.wday < 7 ∧ (t.wday + n) % 7 = weekday 0 := by
  have e1 : k % 86400 / 60 / 60 = k % 86400 / 3600 := by clear h; omega
  have e2 : k % 86400 / 60 % 60 = k % 3600 / 60 := by clear h e1; omega
  have e3 : k % 86400 % 60 = k % 60 := by clear h e1 e2; omega
  have h1 := tmod_neg_nat k 86400
  have h2 := tdiv_neg_nat (k % 86400) 60
  have h3 := tmod_neg_nat (k % 86400) 60
  have h4 := tdiv_neg_nat (k % 86400 / 60) 60
  have h5 := tmod_neg_nat (k % 86400 / 60) 60
  have h6 := tdiv_neg_nat k 86400
  rw [e1] at h4
  rw [e2] at h5
  rw [e3] at h3
  generalize hq : k / 86400 = q at h h6
  have hi : toInt (-(q : Int)) = -q := by simp only [toInt]; omega
  have ha : addInt (-(q : Int)) 4 = .ok (-q + 4) := by
    simp only [addInt]; rw [if_pos (by omega)]
  have hb : addInt (-(q : Int)) 135080 = .ok ((135080 - q : Nat) : Int) := by
    simp only [addInt]; rw [if_pos (by omega), Except.ok.injEq]; omega
  obtain ⟨d, hd, hda⟩ := dateOf_after (135080 - q)
  have htd : (⟨d.1 + 1900, d.2.1 + 1, d.2.2⟩ : Date) = after ⟨1600, 3, 1⟩ (135080 - q) := hda
  simp only [Nat.cast_ofNat] at h1 h2 h3 h4 h5 h6
  refine ⟨_, q, epochToUtc_eq h1 h2 h3 h4 h5 h6 hi ha hb hd, ?_, ?_, ?_⟩
  · simp only [Tm.date]
    rw [htd, ← after_add, Nat.sub_add_cancel h, epoch_after]
  · simp only [Tm.date]
    rw [htd]
    exact valid_after (by unfold Valid; decide) _
  · have hw := Int.tmod_lt_of_pos (-(q : Int) + 4) (show (0 : Int) < 7 by decide)
    have hw' := Int.lt_tmod_of_pos (-(q : Int) + 4) (show (0 : Int) < 7 by decide)
    have hm : ((-(q : Int) + 4).tmod 7 + q) % 7 = 4 := by
      have := Int.tmod_add_mul_tdiv (-(q : Int) + 4) 7
      omega
    have hw0 : weekday 0 = 4 := rfl
    have t1 : k % 86400 / 3600 < 24 := by clear * -; omega
    have t2 : k % 3600 / 60 < 60 := by clear * -; omega
    have t3 : k % 60 < 60 := Nat.mod_lt _ (by decide)
    have t4 : k = 86400 * q + (3600 * (k % 86400 / 3600) + 60 * (k % 3600 / 60) + k % 60) := by clear * - hq; omega
    have t5 : k % 86400 = 3600 * (k % 86400 / 3600) + 60 * (k % 3600 / 60) + k % 60 := by clear * -; omega
    dsimp only
    generalize k % 86400 / 3600 = x at *
    generalize k % 3600 / 60 = y at *
    generalize k % 60 = z at *
    generalize k % 86400 = r at *
    clear h1 h2 h3 h4 h5 h6 e1 e2 e3 hd hda htd ha hb hi hq
    refine ⟨?_, ?_, ?_, ?_, ?_, ?_, ?_, ?_, hw', hw, ?_⟩
    · omega
    · omega
    · omega
    · omega
    · omega
    · omega
    · omega
    · omega
    · rw [hw0]; exact hm

/-- C45 fails for memory safety: on a day more than 135080 days before 1970 (before 1600-03-01) `epoch_to_utc` reads
`YDAY_INFO` at a negative index, unless the day begins a year of the cycle used by the code, counted backwards. -/
theorem epoch_to_utc_before_1600_undefined (k n : Nat) (hn : k / 86400 = 135080 + n) (h : k / 86400 ≤ 2 ^ 31)
    (hr : n % 146097 % 36524 % 1461 % 365 ≠ 0) : epochToUtc (-(k : Int)) = .error .ub := by
  have h6 := tdiv_neg_nat k 86400
  rw [hn] at h h6
  simp only [Nat.cast_ofNat] at h6
  have hi : toInt (-((135080 + n : Nat) : Int)) = -((135080 + n : Nat) : Int) := by simp only [toInt]; omega
  have ha : addInt (-((135080 + n : Nat) : Int)) 4 = .ok (-((135080 + n : Nat) : Int) + 4) := by
    simp only [addInt]; rw [if_pos (by omega)]
  have hb : addInt (-((135080 + n : Nat) : Int)) 135080 = .ok (-(n : Int)) := by
    simp only [addInt]; rw [if_pos (by omega), Except.ok.injEq]; omega
  have g2 := tmod_neg_nat n 146097
  have g3 := tdiv_neg_nat (n % 146097) 36524
  have g4 := tmod_neg_nat (n % 146097) 36524
  have g6 := tmod_neg_nat (n % 146097 % 36524) 1461
  have g7 := tdiv_neg_nat (n % 146097 % 36524 % 1461) 365
  have g8 := tmod_neg_nat (n % 146097 % 36524 % 1461) 365
  simp only [Nat.cast_ofNat] at g2 g3 g4 g6 g7 g8
  have hd : dateOf (-(n : Int)) = .error .ub := by
    simp only [dateOf, dateTail]
    rw [g2, g3, g4, g6, g7, g8, if_neg (by omega), if_neg (by omega)]
    simp only [ydayRow]
    rw [if_pos (by omega)]
  simp only [epochToUtc, h6, hi, ha, hb, hd]

/-- The hypotheses hold of every second of 1600-02-29 (the last day before 1600-03-01), for example. -/
example (s : Nat) (h : s < 86400) : epochToUtc (-((86400 * 135081 + s : Nat) : Int)) = .error .ub :=
  epoch_to_utc_before_1600_undefined _ 1 (by omega) (by omega) (by decide)

theorem addInt_error {a b : Int} {e : Err} (h : addInt a b = .error e) : e = .ub := by
  unfold addInt at h
  split at h
  · nomatch h
  · cases h; rfl

theorem epochToUtc_ub {epoch q d : Int} (h6 : epoch.tdiv 86400 = q) (h7 : toInt q = d) (h9 : ∀ e, e = d → addInt e 135080 = .error .ub) :
    epochToUtc epoch = .error .ub := by
  unfold epochToUtc
  simp only [h6, h7, h9 d rfl]
  cases hc : addInt d 4 with
  | ok _ => rfl
  | error e => rw [addInt_error hc]

/-- C43, the limit of the day number is exact (2147348568 = 2^31 - 135080): from there on, as long as the day number is an `int`, the addition of
135080 overflows. -/
theorem epoch_to_utc_overflow (epoch : Nat) (h : 2147348568 ≤ epoch / 86400) (h' : epoch / 86400 < 2 ^ 31) :
    epochToUtc epoch = .error .ub := by
  have h6 := tdiv_nat epoch 86400
  simp only [Nat.cast_ofNat] at h6
  refine epochToUtc_ub h6 (toInt_small _ h') (fun q hq => ?_)
  have : ¬(q + 135080 < 2 ^ 31) := by omega
  exact if_neg fun hc => this hc.2

example : ∃ epoch : Nat, 2147348568 ≤ epoch / 86400 ∧ epoch / 86400 < 2 ^ 31 := ⟨185540000000000, by decide, by decide⟩

example : epochToUtc (-90061) =
    .ok { sec := -1, min := -1, hour := -1, mday := 31, mon := 11, year := 69, wday := 3, yday := -1, isdst := 0 } := by
  decide +kernel

example : epochToUtc (-86400) =
    .ok { sec := 0, min := 0, hour := 0, mday := 31, mon := 11, year := 69, wday := 3, yday := -1, isdst := 0 } := by
  decide +kernel

end Verif.Date
