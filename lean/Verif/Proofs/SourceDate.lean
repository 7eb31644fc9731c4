import Verif.Proofs.Source
import Verif.Data.Source.Date
import Verif.Model.Date

/-! The text of `/repo/src/date.c` means the model. -/

set_option autoImplicit false

namespace Verif.Source

open Verif.Spec.CSource Verif.Date

/-- What the parser makes of date.c:53-57. -/
def dateInfo : S :=
  .seq (.decl (.ptr (.struct c!"yday_info_t")) c!"info" (some (.unary c!"&" (.index (.var c!"YDAY_INFO") (.var c!"days"))))) (.seq (.expr (.assign
    c!"+" (.field (.unary c!"*" (.var c!"tm")) c!"tm_year") (.field (.unary c!"*" (.var c!"info")) c!"year_offset"))) (.seq (.expr (.assign [] (.field
    (.unary c!"*" (.var c!"tm")) c!"tm_mon") (.field (.unary c!"*" (.var c!"info")) c!"month"))) (.seq (.expr (.assign [] (.field (.unary c!"*" (.var
    c!"tm")) c!"tm_mday") (.field (.unary c!"*" (.var c!"info")) c!"mday"))) (.seq (.ret (.var c!"tm")) .skip))))

/-- What the parser makes of date.c:42-58. -/
def dateEnd : S :=
  .seq (.expr (.assign c!"%" (.var c!"days") (.var c!"CENTURY"))) (.seq (.expr (.assign c!"+" (.field (.unary c!"*" (.var c!"tm")) c!"tm_year") (.bin
    c!"*" (.bin c!"/" (.var c!"days") (.var c!"_4_YEARS")) (.num 4 false false)))) (.seq (.expr (.assign c!"%" (.var c!"days") (.var c!"_4_YEARS")))
    (.seq (.decl (.int true 32) c!"years" (some (.bin c!"/" (.var c!"days") (.var c!"YEAR")))) (.seq (.expr (.assign c!"+" (.field (.unary c!"*" (.var
    c!"tm")) c!"tm_year") (.var c!"years"))) (.seq (.ite (.bin c!"==" (.var c!"years") (.num 4 false false)) (.seq (.expr (.assign [] (.field (.unary
    c!"*" (.var c!"tm")) c!"tm_mon") (.var c!"FEBRUARY"))) (.seq (.expr (.assign [] (.field (.unary c!"*" (.var c!"tm")) c!"tm_mday") (.num 29 false
    false))) (.seq (.ret (.var c!"tm")) .skip))) .skip) (.seq (.expr (.assign c!"%" (.var c!"days") (.var c!"YEAR"))) dateInfo))))))

/-- What the parser makes of date.c:33-58. -/
def dateMiddle : S :=
  .seq (.expr (.assign [] (.field (.unary c!"*" (.var c!"tm")) c!"tm_year") (.bin c!"-" (.bin c!"+" (.num 1600 false false) (.bin c!"*" (.bin c!"/"
    (.var c!"days") (.var c!"_400_YEARS")) (.num 400 false false))) (.num 1900 false false)))) (.seq (.expr (.assign c!"%" (.var c!"days") (.var
    c!"_400_YEARS"))) (.seq (.decl (.int true 32) c!"centuries" (some (.bin c!"/" (.var c!"days") (.var c!"CENTURY")))) (.seq (.expr (.assign c!"+"
    (.field (.unary c!"*" (.var c!"tm")) c!"tm_year") (.bin c!"*" (.var c!"centuries") (.num 100 false false)))) (.seq (.ite (.bin c!"==" (.var
    c!"centuries") (.num 4 false false)) (.seq (.expr (.assign [] (.field (.unary c!"*" (.var c!"tm")) c!"tm_mon") (.var c!"FEBRUARY"))) (.seq (.expr
    (.assign [] (.field (.unary c!"*" (.var c!"tm")) c!"tm_mday") (.num 29 false false))) (.seq (.ret (.var c!"tm")) .skip))) .skip) dateEnd))))

/-- What the parser makes of date.c:13-58. -/
def dateBody : S :=
  .seq (.seq (.decl (.int true 32) c!"SECONDS_PER_DAY" (some (.num 86400 false false))) (.seq (.decl (.int true 32) c!"FROM_1600_03_01" (some (.num
    135080 false false))) (.seq (.decl (.int true 32) c!"YEAR" (some (.num 365 false false))) (.seq (.decl (.int true 32) c!"CENTURY" (some (.bin
    c!"+" (.bin c!"*" (.num 100 false false) (.var c!"YEAR")) (.num 24 false false)))) (.seq (.decl (.int true 32) c!"_400_YEARS" (some (.bin c!"+"
    (.bin c!"*" (.num 4 false false) (.var c!"CENTURY")) (.num 1 false false)))) (.seq (.decl (.int true 32) c!"_4_YEARS" (some (.bin c!"+" (.bin
    c!"*" (.num 4 false false) (.var c!"YEAR")) (.num 1 false false)))) (.decl (.int true 32) c!"FEBRUARY" (some (.num 1 false false))))))))) (.seq
    (.expr (.assign [] (.field (.unary c!"*" (.var c!"tm")) c!"tm_sec") (.bin c!"%" (.var c!"epoch") (.var c!"SECONDS_PER_DAY")))) (.seq (.expr
    (.assign [] (.field (.unary c!"*" (.var c!"tm")) c!"tm_min") (.bin c!"/" (.field (.unary c!"*" (.var c!"tm")) c!"tm_sec") (.num 60 false false))))
    (.seq (.expr (.assign c!"%" (.field (.unary c!"*" (.var c!"tm")) c!"tm_sec") (.num 60 false false))) (.seq (.expr (.assign [] (.field (.unary
    c!"*" (.var c!"tm")) c!"tm_hour") (.bin c!"/" (.field (.unary c!"*" (.var c!"tm")) c!"tm_min") (.num 60 false false)))) (.seq (.expr (.assign
    c!"%" (.field (.unary c!"*" (.var c!"tm")) c!"tm_min") (.num 60 false false))) (.seq (.expr (.assign [] (.field (.unary c!"*" (.var c!"tm"))
    c!"tm_yday") (.unary c!"-" (.num 1 false false)))) (.seq (.expr (.assign [] (.field (.unary c!"*" (.var c!"tm")) c!"tm_isdst") (.num 0 false
    false))) (.seq (.decl (.int true 32) c!"days" (some (.bin c!"/" (.var c!"epoch") (.var c!"SECONDS_PER_DAY")))) (.seq (.expr (.assign [] (.field
    (.unary c!"*" (.var c!"tm")) c!"tm_wday") (.bin c!"%" (.bin c!"+" (.var c!"days") (.num 4 false false)) (.num 7 false false)))) (.seq (.expr
    (.assign c!"+" (.var c!"days") (.var c!"FROM_1600_03_01"))) dateMiddle))))))))))

/-- The members of `yday_info_t` (date.c:4-8). -/
def ydayMembers : List (T × Str) := [(.int true 32, c!"year_offset"), (.int true 32, c!"month"), (.int true 32, c!"mday")]

/-- What the parser makes of date.c. -/
def dateDecls : List Decl := [.struct c!"yday_info_t" ydayMembers, .nothing,
  .func (.ptr (.struct c!"tm")) c!"epoch_to_utc" [(.int true 64, c!"epoch"), (.ptr (.struct c!"tm"), c!"tm")] dateBody,
  .array (.struct c!"yday_info_t") c!"YDAY_INFO" none (ydayInfo.map fun r => [.num r.1.toNat false false, .num r.2.1.toNat false false, .num r.2.2.toNat false false])]

theorem date_parses : (lex date).bind parse = some dateDecls := by decide +kernel

/-! ## Arithmetic of `int` -/

/-- In the range of `int`. -/
def InR (n : Int) : Prop := -2147483648 ≤ n ∧ n < 2147483648

instance (n : Int) : Decidable (InR n) := inferInstanceAs (Decidable (_ ∧ _))

theorem InR.bmod {n : Int} (h : InR n) : Int.bmod n 4294967296 = n := bmod32 h.1 h.2

theorem conv_i32 {n : Int} (h : InR n) : conv (.int true 32) n = n := h.bmod

theorem convert_i32 {n : Int} (h : InR n) : convert (.int true 32) (.num n) = .ok (.num n) := by
  simp only [convert, conv_i32 h]

theorem result_i32 (n : Int) : result (.int true 32) n = if InR n then .ok (.int true 32, .num n) else .error .ub := rfl

section
variable {M : Mem} {a b : Int}

theorem bin_add (ha : InR a) (hb : InR b) :
    binary M c!"+" (.int true 32, .num a) (.int true 32, .num b) = if InR (a + b) then .ok (.int true 32, .num (a + b)) else .error .ub := by
  simp [binary, isInt, arith, promote, usual, conv_i32 ha, conv_i32 hb, result_i32]

theorem bin_sub (ha : InR a) (hb : InR b) :
    binary M c!"-" (.int true 32, .num a) (.int true 32, .num b) = if InR (a - b) then .ok (.int true 32, .num (a - b)) else .error .ub := by
  simp [binary, isInt, arith, promote, usual, conv_i32 ha, conv_i32 hb, result_i32]

theorem bin_mul (ha : InR a) (hb : InR b) :
    binary M c!"*" (.int true 32, .num a) (.int true 32, .num b) = if InR (a * b) then .ok (.int true 32, .num (a * b)) else .error .ub := by
  simp [binary, isInt, arith, promote, usual, conv_i32 ha, conv_i32 hb, result_i32]

theorem bin_div (ha : InR a) (hb : InR b) (h0 : b ≠ 0) :
    binary M c!"/" (.int true 32, .num a) (.int true 32, .num b) = if InR (a.tdiv b) then .ok (.int true 32, .num (a.tdiv b)) else .error .ub := by
  simp [binary, isInt, arith, promote, usual, conv_i32 ha, conv_i32 hb, result_i32, h0]

theorem bin_mod (ha : InR a) (hb : InR b) (h0 : b ≠ 0) :
    binary M c!"%" (.int true 32, .num a) (.int true 32, .num b) = if InR (a.tmod b) then .ok (.int true 32, .num (a.tmod b)) else .error .ub := by
  simp [binary, isInt, arith, promote, usual, conv_i32 ha, conv_i32 hb, result_i32, h0]

theorem bin_eq (ha : InR a) (hb : InR b) :
    binary M c!"==" (.int true 32, .num a) (.int true 32, .num b) = .ok (flag (decide (a = b))) := by
  simp [binary, isInt, arith, promote, usual, conv_i32 ha, conv_i32 hb]

end

theorem tdiv_bounds (a : Int) {b : Int} (h : 0 < b) : a = a.tmod b + b * a.tdiv b ∧ -b < a.tmod b ∧ a.tmod b < b ∧ (0 ≤ a → 0 ≤ a.tmod b) ∧ (a ≤ 0 → a.tmod b ≤ 0) := by
  refine ⟨(Int.tmod_add_mul_tdiv a b).symm, Int.lt_tmod_of_pos a h, Int.tmod_lt_of_pos a h, fun h' => Int.tmod_nonneg b h', fun h' => ?_⟩
  have := Int.tmod_nonneg b (a := -a) (by omega)
  rw [Int.neg_tmod] at this
  omega

/-! ## Execution -/

/-- `struct tm` begins with nine members of type `int` (7.27.1), in this order in glibc; `rest` are the others. -/
def tmRow (sec min hour mday mon year wday yday isdst : V) (rest : Row) : Row :=
  [(c!"tm_sec", sec), (c!"tm_min", min), (c!"tm_hour", hour), (c!"tm_mday", mday), (c!"tm_mon", mon), (c!"tm_year", year), (c!"tm_wday", wday), (c!"tm_yday", yday),
    (c!"tm_isdst", isdst)] ++ rest

/-- The members of `struct tm` that the C standard names. -/
def tmMembers : List (T × Str) := [(.int true 32, c!"tm_sec"), (.int true 32, c!"tm_min"), (.int true 32, c!"tm_hour"), (.int true 32, c!"tm_mday"), (.int true 32, c!"tm_mon"),
  (.int true 32, c!"tm_year"), (.int true 32, c!"tm_wday"), (.int true 32, c!"tm_yday"), (.int true 32, c!"tm_isdst")]

/-- What `<time.h>` defines. -/
def timeHeaders : Headers where
  const _ := none
  struct x := if x = c!"tm" then some tmMembers else none

/-- The elements of `YDAY_INFO`. -/
def ydayRows : List Row := ydayInfo.map fun r => [(c!"year_offset", .num r.1), (c!"month", .num r.2.1), (c!"mday", .num r.2.2)]

/-- The parameters and the enumeration constants of `epoch_to_utc`. -/
def dateVars (epoch : Int) : List (Str × T × V) :=
  [(c!"FEBRUARY", .int true 32, .num 1), (c!"_4_YEARS", .int true 32, .num 1461), (c!"_400_YEARS", .int true 32, .num 146097), (c!"CENTURY", .int true 32, .num 36524),
    (c!"YEAR", .int true 32, .num 365), (c!"FROM_1600_03_01", .int true 32, .num 135080), (c!"SECONDS_PER_DAY", .int true 32, .num 86400),
    (c!"epoch", .int true 64, .num epoch), (c!"tm", .ptr (.struct c!"tm"), .ptr c!"*tm" 0)]

/-- The memory. -/
def dateMem (row : Row) (m : Mem) : Mem := (c!"YDAY_INFO", ydayRows) :: (c!"*tm", [row]) :: m

/-- The types of the arrays of the file. -/
def dateTypes (x : Str) : Option T := if x = c!"YDAY_INFO" then some (.struct c!"yday_info_t") else none

/-- How the body ends, given the year, month and day. -/
def dateEnding (sec min hour wday : Int) (rest : Row) (m : Mem) : C (Int × Int × Int) → D Res
  | .error e => liftC (.error e)
  | .ok (year, mon, mday) => pure (.ret (.ptr (.struct c!"tm"), .ptr c!"*tm" 0)
      (dateMem (tmRow (.num sec) (.num min) (.num hour) (.num mday) (.num mon) (.num year) (.num wday) (.num (-1)) (.num 0) rest) m))

attribute [local simp] load S.exec E.eval E.place liftC_ok liftC_err map_liftC_ok map_liftC_err find truth flag constType target put Spec.CSource.get replace outer
  element address member memberType

theorem yday_small : ∀ r ∈ ydayInfo, (0 ≤ r.1 ∧ r.1 ≤ 1) ∧ (0 ≤ r.2.1 ∧ r.2.1 ≤ 11) ∧ (0 ≤ r.2.2 ∧ r.2.2 ≤ 31) := by decide +kernel

theorem yday_length : 365 ≤ ydayRows.length := by decide +kernel

set_option maxHeartbeats 4000000 in
theorem date_info {c : Ctx} (hh : c.headers = timeHeaders) (hs : c.structs = [(c!"yday_info_t", ydayMembers)]) (l : List (Str × T × V)) (d year : Int) (hd : d < 365)
    (hl : find c!"days" l = some (.int true 32, .num d)) (ht : find c!"tm" l = some (.ptr (.struct c!"tm"), .ptr c!"*tm" 0)) (hn : find c!"YDAY_INFO" l = none)
    (hy : -10000000 ≤ year ∧ year ≤ 10000000) (sec min hour wday : Int) (mday mon : V) (rest : Row) (m : Mem) :
    dateInfo.exec c dateTypes ⟨l, dateMem (tmRow (.num sec) (.num min) (.num hour) mday mon (.num year) (.num wday) (.num (-1)) (.num 0) rest) m⟩ =
      dateEnding sec min hour wday rest m (match ydayRow d with
        | .error e => .error e
        | .ok (off, mon, mday) => .ok (year + off, mon, mday)) := by
  unfold dateInfo ydayRow
  have hlen := yday_length
  by_cases h : d < 0
  · have h' : ¬ 0 ≤ d := by omega
    rw [if_pos h, seq_err (e := .ub) (by simp [hl, hn, dateMem, dateTypes, h'])]
    rfl
  rw [if_neg h]
  have h' : 0 ≤ d := by omega
  have h'' : d ≤ (ydayRows.length : Int) := by omega
  have hi : d.toNat < ydayInfo.length := by
    have : ydayRows.length = ydayInfo.length := by simp [ydayRows]
    omega
  rw [List.getElem?_eq_getElem hi]
  obtain ⟨⟨o1, o2⟩, ⟨m1, m2⟩, ⟨k1, k2⟩⟩ := yday_small _ (List.getElem_mem hi)
  have hr : ydayRows[d.toNat]? = some [(c!"year_offset", .num ydayInfo[d.toNat].1), (c!"month", .num ydayInfo[d.toNat].2.1), (c!"mday", .num ydayInfo[d.toNat].2.2)] := by
    simp [ydayRows, hi]
  generalize ydayInfo[d.toNat] = r at *
  obtain ⟨off, mo, md⟩ := r
  have i1 : InR year := by unfold InR; omega
  have i2 : InR off := by unfold InR; dsimp only at o1 o2; omega
  have i3 : InR (year + off) := by unfold InR; dsimp only at o1 o2; omega
  have i4 : InR mo := by unfold InR; dsimp only at m1 m2; omega
  have i5 : InR md := by unfold InR; dsimp only at k1 k2; omega
  rw [seq_next (s' := ⟨(c!"info", .ptr (.struct c!"yday_info_t"), .ptr c!"YDAY_INFO" d) :: l, _⟩) (by simp [hl, hn, dateMem, dateTypes, h', h'', convert]; rfl),
    seq_next (s' := ⟨(c!"info", .ptr (.struct c!"yday_info_t"), .ptr c!"YDAY_INFO" d) :: l,
      dateMem (tmRow (.num sec) (.num min) (.num hour) mday mon (.num (year + off)) (.num wday) (.num (-1)) (.num 0) rest) m⟩)
      (by simp [hh, hs, ht, timeHeaders, tmMembers, ydayMembers, dateMem, tmRow, h, hr, bin_add, convert_i32, i1, i2, i3]),
    seq_next (s' := ⟨(c!"info", .ptr (.struct c!"yday_info_t"), .ptr c!"YDAY_INFO" d) :: l,
      dateMem (tmRow (.num sec) (.num min) (.num hour) mday (.num mo) (.num (year + off)) (.num wday) (.num (-1)) (.num 0) rest) m⟩)
      (by simp [hh, hs, ht, timeHeaders, tmMembers, ydayMembers, dateMem, tmRow, h, hr, convert_i32, i4]),
    seq_next (s' := ⟨(c!"info", .ptr (.struct c!"yday_info_t"), .ptr c!"YDAY_INFO" d) :: l,
      dateMem (tmRow (.num sec) (.num min) (.num hour) (.num md) (.num mo) (.num (year + off)) (.num wday) (.num (-1)) (.num 0) rest) m⟩)
      (by simp [hh, hs, ht, timeHeaders, tmMembers, ydayMembers, dateMem, tmRow, h, hr, convert_i32, i5]),
    seq_ret (by simp [ht]; rfl)]
  rfl

set_option maxHeartbeats 4000000 in
theorem date_end {c : Ctx} (hh : c.headers = timeHeaders) (hs : c.structs = [(c!"yday_info_t", ydayMembers)]) (epoch d year cent : Int) (hd : InR d)
    (hy : -9000000 ≤ year ∧ year ≤ 9000000) (sec min hour wday : Int) (mday mon : V) (rest : Row) (m : Mem) :
    dateEnd.exec c dateTypes ⟨(c!"centuries", .int true 32, .num cent) :: (c!"days", .int true 32, .num d) :: dateVars epoch,
      dateMem (tmRow (.num sec) (.num min) (.num hour) mday mon (.num year) (.num wday) (.num (-1)) (.num 0) rest) m⟩ =
      dateEnding sec min hour wday rest m (dateTail d year) := by
  have l1 : InR 36524 := by decide
  have l2 : InR 1461 := by decide
  have l3 : InR 365 := by decide
  have l4 : InR 4 := by decide
  have l5 : InR 29 := by decide
  have l6 : InR 1 := by decide
  unfold dateEnd dateTail
  obtain ⟨b1, b2, b3, b4, b5⟩ := tdiv_bounds d (b := 36524) (by decide)
  have i1 : InR (d.tmod 36524) := by unfold InR; omega
  rw [seq_next (s' := ⟨(c!"centuries", .int true 32, .num cent) :: (c!"days", .int true 32, .num (d.tmod 36524)) :: dateVars epoch, _⟩)
    (by simp [dateVars, bin_mod, convert_i32, hd, l1, i1]; rfl)]
  generalize d.tmod 36524 = d1 at *
  obtain ⟨e1, e2, e3, e4, e5⟩ := tdiv_bounds d1 (b := 1461) (by decide)
  have i2 : InR (d1.tdiv 1461) := by unfold InR; omega
  have i3 : InR (d1.tdiv 1461 * 4) := by unfold InR; omega
  have i4 : InR (year + d1.tdiv 1461 * 4) := by unfold InR; omega
  have i5 : InR year := by unfold InR; omega
  have i6 : InR (d1.tmod 1461) := by unfold InR; omega
  rw [seq_next (s' := ⟨(c!"centuries", .int true 32, .num cent) :: (c!"days", .int true 32, .num d1) :: dateVars epoch,
      dateMem (tmRow (.num sec) (.num min) (.num hour) mday mon (.num (year + d1.tdiv 1461 * 4)) (.num wday) (.num (-1)) (.num 0) rest) m⟩)
      (by simp [dateVars, hh, hs, timeHeaders, tmMembers, dateMem, tmRow, bin_div, bin_mul, bin_add, convert_i32, l2, l4, i1, i2, i3, i4, i5]),
    seq_next (s' := ⟨(c!"centuries", .int true 32, .num cent) :: (c!"days", .int true 32, .num (d1.tmod 1461)) :: dateVars epoch, _⟩)
      (by simp [dateVars, bin_mod, convert_i32, i1, l2, i6]; rfl)]
  have hy1 : -9000200 ≤ year + d1.tdiv 1461 * 4 ∧ year + d1.tdiv 1461 * 4 ≤ 9000200 := by omega
  dsimp only
  generalize year + d1.tdiv 1461 * 4 = y1 at *
  generalize d1.tmod 1461 = d2 at *
  obtain ⟨f1, f2, f3, f4, f5⟩ := tdiv_bounds d2 (b := 365) (by decide)
  have j1 : InR (d2.tdiv 365) := by unfold InR; omega
  have j2 : InR (y1 + d2.tdiv 365) := by unfold InR; omega
  have j3 : InR (d2.tmod 365) := by unfold InR; omega
  rw [seq_next (s' := ⟨(c!"years", .int true 32, .num (d2.tdiv 365)) :: (c!"centuries", .int true 32, .num cent) :: (c!"days", .int true 32, .num d2) :: dateVars epoch, _⟩)
      (by simp [dateVars, bin_div, convert_i32, i6, l3, j1]; rfl),
    seq_next (s' := ⟨(c!"years", .int true 32, .num (d2.tdiv 365)) :: (c!"centuries", .int true 32, .num cent) :: (c!"days", .int true 32, .num d2) :: dateVars epoch,
      dateMem (tmRow (.num sec) (.num min) (.num hour) mday mon (.num (y1 + d2.tdiv 365)) (.num wday) (.num (-1)) (.num 0) rest) m⟩)
      (by simp [dateVars, hh, hs, timeHeaders, tmMembers, dateMem, tmRow, bin_add, convert_i32, i4, j1, j2])]
  have hy2 : -10000000 ≤ y1 + d2.tdiv 365 ∧ y1 + d2.tdiv 365 ≤ 10000000 := by omega
  generalize y1 + d2.tdiv 365 = y2 at *
  by_cases h : d2.tdiv 365 = 4
  · rw [if_pos h, h, seq_ret (v := (.ptr (.struct c!"tm"), .ptr c!"*tm" 0))
      (m := dateMem (tmRow (.num sec) (.num min) (.num hour) (.num 29) (.num 1) (.num y2) (.num wday) (.num (-1)) (.num 0) rest) m)
      (by simp [dateVars, hh, hs, timeHeaders, tmMembers, dateMem, tmRow, bin_eq, convert_i32, l4, l5, l6])]
    rfl
  rw [if_neg h, seq_next (s' := ⟨(c!"years", .int true 32, .num (d2.tdiv 365)) :: (c!"centuries", .int true 32, .num cent) :: (c!"days", .int true 32, .num d2) :: dateVars epoch, _⟩)
      (by simp [dateVars, bin_eq, h, j1, l4]; rfl),
    seq_next (s' := ⟨(c!"years", .int true 32, .num (d2.tdiv 365)) :: (c!"centuries", .int true 32, .num cent) :: (c!"days", .int true 32, .num (d2.tmod 365)) :: dateVars epoch, _⟩)
      (by simp [dateVars, bin_mod, convert_i32, i6, l3, j3]; rfl)]
  exact date_info hh hs _ (d2.tmod 365) y2 f3 (by simp [dateVars]) (by simp [dateVars]) (by simp [dateVars]) hy2 sec min hour wday mday mon rest m

set_option maxHeartbeats 4000000 in
theorem date_middle {c : Ctx} (hh : c.headers = timeHeaders) (hs : c.structs = [(c!"yday_info_t", ydayMembers)]) (epoch d : Int) (hd : InR d)
    (sec min hour wday : Int) (mday mon year : V) (rest : Row) (m : Mem) :
    dateMiddle.exec c dateTypes ⟨(c!"days", .int true 32, .num d) :: dateVars epoch,
      dateMem (tmRow (.num sec) (.num min) (.num hour) mday mon year (.num wday) (.num (-1)) (.num 0) rest) m⟩ =
      dateEnding sec min hour wday rest m (dateOf d) := by
  have l1 : InR 146097 := by decide
  have l2 : InR 400 := by decide
  have l3 : InR 1600 := by decide
  have l4 : InR 1900 := by decide
  have l5 : InR 36524 := by decide
  have l6 : InR 100 := by decide
  have l7 : InR 4 := by decide
  have l8 : InR 29 := by decide
  have l9 : InR 1 := by decide
  unfold dateMiddle dateOf
  obtain ⟨b1, b2, b3, b4, b5⟩ := tdiv_bounds d (b := 146097) (by decide)
  have i1 : InR (d.tdiv 146097) := by unfold InR at hd ⊢; omega
  have i2 : InR (d.tdiv 146097 * 400) := by unfold InR at hd ⊢; omega
  have i3 : InR (1600 + d.tdiv 146097 * 400) := by unfold InR at hd ⊢; omega
  have i4 : InR (1600 + d.tdiv 146097 * 400 - 1900) := by unfold InR at hd ⊢; omega
  have i5 : InR (d.tmod 146097) := by unfold InR; omega
  rw [seq_next (s' := ⟨(c!"days", .int true 32, .num d) :: dateVars epoch,
      dateMem (tmRow (.num sec) (.num min) (.num hour) mday mon (.num (1600 + d.tdiv 146097 * 400 - 1900)) (.num wday) (.num (-1)) (.num 0) rest) m⟩)
      (by simp [dateVars, hh, hs, timeHeaders, tmMembers, dateMem, tmRow, bin_div, bin_mul, bin_add, bin_sub, convert_i32, hd, l1, l2, l3, l4, i1, i2, i3, i4]),
    seq_next (s' := ⟨(c!"days", .int true 32, .num (d.tmod 146097)) :: dateVars epoch, _⟩)
      (by simp [dateVars, bin_mod, convert_i32, hd, l1, i5]; rfl)]
  have hy : -6000000 ≤ 1600 + d.tdiv 146097 * 400 - 1900 ∧ 1600 + d.tdiv 146097 * 400 - 1900 ≤ 6000000 := by unfold InR at hd; omega
  dsimp only
  generalize 1600 + d.tdiv 146097 * 400 - 1900 = y at *
  generalize d.tmod 146097 = d1 at *
  obtain ⟨e1, e2, e3, e4, e5⟩ := tdiv_bounds d1 (b := 36524) (by decide)
  have j1 : InR (d1.tdiv 36524) := by unfold InR; omega
  have j2 : InR (d1.tdiv 36524 * 100) := by unfold InR; omega
  have j3 : InR (y + d1.tdiv 36524 * 100) := by unfold InR; omega
  rw [seq_next (s' := ⟨(c!"centuries", .int true 32, .num (d1.tdiv 36524)) :: (c!"days", .int true 32, .num d1) :: dateVars epoch, _⟩)
      (by simp [dateVars, bin_div, convert_i32, i5, l5, j1]; rfl),
    seq_next (s' := ⟨(c!"centuries", .int true 32, .num (d1.tdiv 36524)) :: (c!"days", .int true 32, .num d1) :: dateVars epoch,
      dateMem (tmRow (.num sec) (.num min) (.num hour) mday mon (.num (y + d1.tdiv 36524 * 100)) (.num wday) (.num (-1)) (.num 0) rest) m⟩)
      (by simp [dateVars, hh, hs, timeHeaders, tmMembers, dateMem, tmRow, bin_add, bin_mul, convert_i32, i4, j1, j2, j3, l6])]
  have hy2 : -9000000 ≤ y + d1.tdiv 36524 * 100 ∧ y + d1.tdiv 36524 * 100 ≤ 9000000 := by omega
  generalize y + d1.tdiv 36524 * 100 = y2 at *
  by_cases h : d1.tdiv 36524 = 4
  · rw [if_pos h, h, seq_ret (v := (.ptr (.struct c!"tm"), .ptr c!"*tm" 0))
      (m := dateMem (tmRow (.num sec) (.num min) (.num hour) (.num 29) (.num 1) (.num y2) (.num wday) (.num (-1)) (.num 0) rest) m)
      (by simp [dateVars, hh, hs, timeHeaders, tmMembers, dateMem, tmRow, bin_eq, convert_i32, l7, l8, l9])]
    rfl
  rw [if_neg h, seq_next (s' := ⟨(c!"centuries", .int true 32, .num (d1.tdiv 36524)) :: (c!"days", .int true 32, .num d1) :: dateVars epoch, _⟩)
      (by simp [dateVars, bin_eq, h, j1, l7]; rfl)]
  exact date_end hh hs epoch d1 y2 _ i5 hy2 sec min hour wday mday mon rest m

section
variable {M : Mem} {a : Int}

theorem bin_div_64 (ha : -9223372036854775808 ≤ a) (hb : a < 9223372036854775808) :
    binary M c!"/" (.int true 64, .num a) (.int true 32, .num 86400) = .ok (.int true 64, .num (a.tdiv 86400)) := by
  obtain ⟨b1, b2, b3, b4, b5⟩ := tdiv_bounds a (b := 86400) (by decide)
  have r : -9223372036854775808 ≤ a.tdiv 86400 ∧ a.tdiv 86400 < 9223372036854775808 := by omega
  simp [binary, isInt, arith, promote, usual, conv, bmod64 ha hb, result, r]

theorem bin_mod_64 (ha : -9223372036854775808 ≤ a) (hb : a < 9223372036854775808) :
    binary M c!"%" (.int true 64, .num a) (.int true 32, .num 86400) = .ok (.int true 64, .num (a.tmod 86400)) := by
  obtain ⟨b1, b2, b3, b4, b5⟩ := tdiv_bounds a (b := 86400) (by decide)
  have r : -9223372036854775808 ≤ a.tmod 86400 ∧ a.tmod 86400 < 9223372036854775808 := by omega
  simp [binary, isInt, arith, promote, usual, conv, bmod64 ha hb, result, r]

theorem convert_toInt (n : Int) : convert (.int true 32) (.num n) = .ok (.num (toInt n)) := by
  simp only [convert, conv, toInt, Int.bmod_def]
  congr 2
  omega

theorem toInt_range (n : Int) : InR (toInt n) := by
  unfold InR toInt
  omega

theorem unary_minus_one : unaryOp c!"-" (.int true 32, .num 1) = .ok (.int true 32, .num (-1)) := by simp [unaryOp, promote, result]

end

/-- How the body ends. -/
def utcEnding (rest : Row) (m : Mem) : C Tm → D Res
  | .error e => liftC (.error e)
  | .ok t => pure (.ret (.ptr (.struct c!"tm"), .ptr c!"*tm" 0)
      (dateMem (tmRow (.num t.sec) (.num t.min) (.num t.hour) (.num t.mday) (.num t.mon) (.num t.year) (.num t.wday) (.num t.yday) (.num t.isdst) rest) m))

set_option maxHeartbeats 4000000 in
theorem date_exec {c : Ctx} (hh : c.headers = timeHeaders) (hs : c.structs = [(c!"yday_info_t", ydayMembers)]) (epoch : Int)
    (ha : -9223372036854775808 ≤ epoch) (hb : epoch < 9223372036854775808) (v1 v2 v3 v4 v5 v6 v7 v8 v9 : V) (rest : Row) (m : Mem) :
    dateBody.exec c dateTypes ⟨[(c!"epoch", .int true 64, .num epoch), (c!"tm", .ptr (.struct c!"tm"), .ptr c!"*tm" 0)],
      dateMem (tmRow v1 v2 v3 v4 v5 v6 v7 v8 v9 rest) m⟩ = utcEnding rest m (epochToUtc epoch) := by
  have l1 : InR 60 := by decide
  have l2 : InR 4 := by decide
  have l3 : InR 7 := by decide
  have l4 : InR 135080 := by decide
  have l5 : InR (-1) := by decide
  have l6 : InR 0 := by decide
  have l7 : InR 365 := by decide
  have l8 : InR 100 := by decide
  have l9 : InR 36500 := by decide
  have l10 : InR 24 := by decide
  have l11 : InR 36524 := by decide
  have l12 : InR 146096 := by decide
  have l13 : InR 1 := by decide
  have l14 : InR 146097 := by decide
  have l15 : InR 1460 := by decide
  have l16 : InR 1461 := by decide
  have l17 : InR 86400 := by decide
  unfold dateBody epochToUtc
  rw [seq_next (s' := ⟨dateVars epoch, _⟩) (by simp [dateVars, bin_mul, bin_add, convert_i32, l2, l4, l7, l8, l9, l10, l11, l12, l13, l14, l15, l16, l17]; rfl)]
  obtain ⟨b1, b2, b3, b4, b5⟩ := tdiv_bounds epoch (b := 86400) (by decide)
  have i1 : InR (epoch.tmod 86400) := by unfold InR; omega
  rw [seq_next (s' := ⟨dateVars epoch, dateMem (tmRow (.num (epoch.tmod 86400)) v2 v3 v4 v5 v6 v7 v8 v9 rest) m⟩)
    (by simp [dateVars, hh, hs, timeHeaders, tmMembers, dateMem, tmRow, bin_mod_64 ha hb, convert_i32, i1])]
  dsimp only
  generalize epoch.tmod 86400 = s0 at *
  obtain ⟨c1, c2, c3, c4, c5⟩ := tdiv_bounds s0 (b := 60) (by decide)
  have i2 : InR (s0.tdiv 60) := by unfold InR; omega
  have i3 : InR (s0.tmod 60) := by unfold InR; omega
  rw [seq_next (s' := ⟨dateVars epoch, dateMem (tmRow (.num s0) (.num (s0.tdiv 60)) v3 v4 v5 v6 v7 v8 v9 rest) m⟩)
      (by simp [dateVars, hh, hs, timeHeaders, tmMembers, dateMem, tmRow, bin_div, convert_i32, i1, i2, l1]),
    seq_next (s' := ⟨dateVars epoch, dateMem (tmRow (.num (s0.tmod 60)) (.num (s0.tdiv 60)) v3 v4 v5 v6 v7 v8 v9 rest) m⟩)
      (by simp [dateVars, hh, hs, timeHeaders, tmMembers, dateMem, tmRow, bin_mod, convert_i32, i1, i3, l1])]
  generalize s0.tmod 60 = s1 at *
  generalize s0.tdiv 60 = m0 at *
  obtain ⟨d1, d2, d3, d4, d5⟩ := tdiv_bounds m0 (b := 60) (by decide)
  have i4 : InR (m0.tdiv 60) := by unfold InR; omega
  have i5 : InR (m0.tmod 60) := by unfold InR; omega
  rw [seq_next (s' := ⟨dateVars epoch, dateMem (tmRow (.num s1) (.num m0) (.num (m0.tdiv 60)) v4 v5 v6 v7 v8 v9 rest) m⟩)
      (by simp [dateVars, hh, hs, timeHeaders, tmMembers, dateMem, tmRow, bin_div, convert_i32, i2, i4, l1]),
    seq_next (s' := ⟨dateVars epoch, dateMem (tmRow (.num s1) (.num (m0.tmod 60)) (.num (m0.tdiv 60)) v4 v5 v6 v7 v8 v9 rest) m⟩)
      (by simp [dateVars, hh, hs, timeHeaders, tmMembers, dateMem, tmRow, bin_mod, convert_i32, i2, i5, l1])]
  generalize m0.tmod 60 = m1 at *
  generalize m0.tdiv 60 = h0 at *
  rw [seq_next (s' := ⟨dateVars epoch, dateMem (tmRow (.num s1) (.num m1) (.num h0) v4 v5 v6 v7 (.num (-1)) v9 rest) m⟩)
      (by simp [dateVars, hh, hs, timeHeaders, tmMembers, dateMem, tmRow, unary_minus_one, convert_i32, l5]),
    seq_next (s' := ⟨dateVars epoch, dateMem (tmRow (.num s1) (.num m1) (.num h0) v4 v5 v6 v7 (.num (-1)) (.num 0) rest) m⟩)
      (by simp [dateVars, hh, hs, timeHeaders, tmMembers, dateMem, tmRow, convert_i32, l6]),
    seq_next (s' := ⟨(c!"days", .int true 32, .num (toInt (epoch.tdiv 86400))) :: dateVars epoch, _⟩)
      (by simp [dateVars, bin_div_64 ha hb, convert_toInt]; rfl)]
  have hr := toInt_range (epoch.tdiv 86400)
  generalize toInt (epoch.tdiv 86400) = d at *
  have e4 : addInt d 4 = if InR (d + 4) then .ok (d + 4) else .error .ub := rfl
  have e5 : addInt d 135080 = if InR (d + 135080) then .ok (d + 135080) else .error .ub := rfl
  rw [e4, e5]
  by_cases h4 : ¬ InR (d + 4)
  · rw [if_neg h4, seq_err (e := .ub) (by simp [dateVars, bin_add, hr, l2, h4])]
    rfl
  replace h4 := Decidable.not_not.mp h4
  rw [if_pos h4]
  obtain ⟨f1, f2, f3, f4, f5⟩ := tdiv_bounds (d + 4) (b := 7) (by decide)
  have i6 : InR ((d + 4).tmod 7) := by unfold InR; omega
  rw [seq_next (s' := ⟨(c!"days", .int true 32, .num d) :: dateVars epoch,
      dateMem (tmRow (.num s1) (.num m1) (.num h0) v4 v5 v6 (.num ((d + 4).tmod 7)) (.num (-1)) (.num 0) rest) m⟩)
      (by simp [dateVars, hh, hs, timeHeaders, tmMembers, dateMem, tmRow, bin_add, bin_mod, convert_i32, hr, l2, l3, h4, i6])]
  by_cases h5 : ¬ InR (d + 135080)
  · rw [if_neg h5, seq_err (e := .ub) (by simp [dateVars, bin_add, hr, l4, h5])]
    rfl
  replace h5 := Decidable.not_not.mp h5
  rw [if_pos h5, seq_next (s' := ⟨(c!"days", .int true 32, .num (d + 135080)) :: dateVars epoch, _⟩)
    (by simp [dateVars, bin_add, convert_i32, hr, l4, h5]; rfl), date_middle hh hs epoch _ h5]
  dsimp only
  cases dateOf (d + 135080) <;> rfl

end Verif.Source
