import Verif.Proofs.SourceRun
import Verif.Props.Float
import Verif.Props.Date

/-!
Property C144: the text of `src/float.c` and `src/date.c`, read as C, does what C41 to C44 say. The text is the list of the lines of the file
(`Verif/Data/Source`, written by `tools/gen_source.py`); what it means is defined in `Verif/Spec/CSource.lean`. The model of these files is not part of the
statements.
-/

set_option autoImplicit false

namespace Verif.Source

open Verif.Spec.CSource Verif.Spec.Float64 Verif.Spec.Date

/-- C144. A call of `binary64_to_integer`, as the text of float.c says, with any bit pattern and a pointer to a `long long` of any content: the call returns,
the result is `true` exactly if the pattern denotes an integer in the range of `long long`, the integer is stored then, and else nothing is stored. No other
object changes. -/
theorem source_integer (v : UInt64) (w : V) (m : Mem) :
    ∃ b n, Returns (run limits float c!"binary64_to_integer" [(.int false 64, .num v.toNat), (.ptr (.int true 64), .ptr c!"*n" 0)] ((c!"*n", [[([], w)]]) :: m))
        ((.bool, .num b), (c!"*n", [[([], n)]]) :: m) ∧
      ((b = 1 ∧ ∃ k : Int, n = .num k ∧ IsInteger v k ∧ -(2 ^ 63) ≤ k ∧ k < 2 ^ 63) ∨
        (b = 0 ∧ n = w ∧ ∀ k : Int, ¬ (IsInteger v k ∧ -(2 ^ 63) ≤ k ∧ k < 2 ^ 63))) := by
  rw [run_integer]
  obtain ⟨r, hr, h⟩ := Float64.binary64_to_integer_exact v
  rw [hr]
  cases r with
  | none => exact ⟨0, w, (returns_pure _ _).mpr rfl, .inr ⟨rfl, rfl, fun k hk => nomatch (h k).mpr hk⟩⟩
  | some k => exact ⟨1, .num k, (returns_pure _ _).mpr rfl, .inl ⟨rfl, k, rfl, (h k).mp rfl⟩⟩

/-- C144. The same for `binary64_to_unsigned` and the range of `unsigned long long`. -/
theorem source_unsigned (v : UInt64) (w : V) (m : Mem) :
    ∃ b n, Returns (run limits float c!"binary64_to_unsigned" [(.int false 64, .num v.toNat), (.ptr (.int false 64), .ptr c!"*n" 0)] ((c!"*n", [[([], w)]]) :: m))
        ((.bool, .num b), (c!"*n", [[([], n)]]) :: m) ∧
      ((b = 1 ∧ ∃ k : Nat, n = .num k ∧ IsInteger v k ∧ k < 2 ^ 64) ∨ (b = 0 ∧ n = w ∧ ∀ k : Nat, ¬ (IsInteger v k ∧ k < 2 ^ 64))) := by
  rw [run_unsigned]
  obtain ⟨r, hr, h⟩ := Float64.binary64_to_unsigned_exact v
  rw [hr]
  cases r with
  | none => exact ⟨0, w, (returns_pure _ _).mpr rfl, .inr ⟨rfl, rfl, fun k hk => nomatch (h k).mpr hk⟩⟩
  | some k => exact ⟨1, .num k, (returns_pure _ _).mpr rfl, .inl ⟨rfl, k, rfl, (h k).mp rfl⟩⟩

theorem yday_eq {epoch : Int} {t : Verif.Date.Tm} (h : Verif.Date.epochToUtc epoch = .ok t) : t.yday = -1 := by
  unfold Verif.Date.epochToUtc at h
  dsimp only at h
  generalize Verif.Date.toInt (epoch.tdiv 86400) = d at h
  split at h
  · nomatch h
  · split at h
    · nomatch h
    · split at h
      · nomatch h
      · injection h with h
        rw [← h]

theorem find_tm (row : Row) (m : Mem) : find c!"*tm" (dateMem row m) = some [row] := by
  simp [dateMem, find]

/-- C144. A call of `epoch_to_utc`, as the text of date.c says, with any time from 1970 on whose day number fits, and a pointer to a `struct tm` of any content:
the call returns the pointer, and the members of the structure are the date that many days after 1970-01-01 in the Gregorian calendar, the time of day and the
day of the week. Nothing else changes. -/
theorem source_date (epoch : Nat) (h : epoch / 86400 + 135080 < 2 ^ 31) (v1 v2 v3 v4 v5 v6 v7 v8 v9 : V) (rest : Row) (m : Mem) :
    ∃ (year mon mday : Int), ∃ t, Returns (run timeHeaders date c!"epoch_to_utc" [(.int true 64, .num epoch), (.ptr (.struct c!"tm"), .ptr c!"*tm" 0)]
        ((c!"*tm", [tmRow v1 v2 v3 v4 v5 v6 v7 v8 v9 rest]) :: m)) ((.ptr (.struct c!"tm"), .ptr c!"*tm" 0), t) ∧
      find c!"*tm" t = some [tmRow (.num (epoch % 60 : Nat)) (.num (epoch % 3600 / 60 : Nat)) (.num (epoch % 86400 / 3600 : Nat)) (.num mday) (.num mon) (.num year)
        (.num (weekday (epoch / 86400))) (.num (-1)) (.num 0) rest] ∧
      (⟨year + 1900, mon + 1, mday⟩ : Date) = after unixEpoch (epoch / 86400) := by
  obtain ⟨t, ht, hd, hh, hm, hs, hw, hi⟩ := Date.epochToUtc_nat epoch h
  have hy := yday_eq ht
  rw [run_date (epoch : Int) (by omega) (by omega), ht]
  refine ⟨t.year, t.mon, t.mday, _, (returns_pure _ _).mpr rfl, ?_, hd⟩
  rw [find_tm, hs, hm, hh, hw, hy, hi, Date.weekday_eq]

/-- The bits of -42.0; the 29th of February 2024. -/
example (w : V) (m : Mem) :
    Returns (run limits float c!"binary64_to_integer" [(.int false 64, .num (0xC045000000000000 : UInt64).toNat), (.ptr (.int true 64), .ptr c!"*n" 0)] ((c!"*n", [[([], w)]]) :: m))
      ((.bool, .num 1), (c!"*n", [[([], .num (-42))]]) :: m) := by
  rw [run_integer, show Float64.toInteger 0xC045000000000000 = .ok (some (-42)) by decide +kernel]
  exact (returns_pure _ _).mpr rfl

example (rest : Row) (m : Mem) :
    Returns (run timeHeaders date c!"epoch_to_utc" [(.int true 64, .num 1709210096), (.ptr (.struct c!"tm"), .ptr c!"*tm" 0)]
        ((c!"*tm", [tmRow .null .null .null .null .null .null .null .null .null rest]) :: m))
      ((.ptr (.struct c!"tm"), .ptr c!"*tm" 0), dateMem (tmRow (.num 56) (.num 34) (.num 12) (.num 29) (.num 1) (.num 124) (.num 4) (.num (-1)) (.num 0) rest) m) := by
  rw [run_date 1709210096 (by decide) (by decide)]
  rw [show Verif.Date.epochToUtc 1709210096 =
    .ok { sec := 56, min := 34, hour := 12, mday := 29, mon := 1, year := 124, wday := 4, yday := -1, isdst := 0 } by decide +kernel]
  exact (returns_pure _ _).mpr rfl

end Verif.Source
