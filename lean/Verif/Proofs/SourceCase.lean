import Verif.Proofs.SourceCalls
import Verif.Proofs.SourceEncode
import Verif.Data.Source.Case

/-! src/charstr.c:344-376: what the text parses to, and the execution of the conversions in place. -/

set_option autoImplicit false

namespace Verif.Source

open Verif.Spec.CSource Verif.Charstr

/-- `*p = f(*p);` -/
def convertP (f : Str) : S := .expr (.assign [] (.unary c!"*" (.var c!"p")) (.call1 f (.unary c!"*" (.var c!"p"))))

/-- `for (p = s; cond; p++) *p = f(*p); return s;` -/
def convertBody (cond : E) (f : Str) : S :=
  .seq (.decl strT c!"p" none) (.seq (.seq (.expr (.assign [] (.var c!"p") (.var c!"s"))) (.for cond (.incr 1 (.var c!"p")) (convertP f))) (.seq (.ret (.var c!"s")) .skip))

def untilNul : E := .unary c!"*" (.var c!"p")

def untilEnd : E := .bin c!"!=" (.var c!"p") (.var c!"end")

def caseDecls : List Decl := [
  .func strT c!"charstr_lcase_str" [(strT, c!"s")] (convertBody untilNul c!"charstr_lcase_char"),
  .func strT c!"charstr_lcase_substr" [(strT, c!"s"), (strT, c!"end")] (convertBody untilEnd c!"charstr_lcase_char"),
  .func strT c!"charstr_ucase_str" [(strT, c!"s")] (convertBody untilNul c!"charstr_ucase_char"),
  .func strT c!"charstr_ucase_substr" [(strT, c!"s"), (strT, c!"end")] (convertBody untilEnd c!"charstr_ucase_char")]

/-- charstr.c:8-324, 344-376. -/
def caseText : List Str := charstr ++ caseStrings

theorem case_parses : (lex caseText).bind parse = some (charstrDecls ++ caseDecls) := by decide +kernel

/-- What the functions behind the first `k` declarations see. -/
def caseAt (k : Nat) : Ctx := functions fileTypes ⟨charstrHeaders, charstrStructs, []⟩ ((charstrDecls ++ caseDecls).take k)

theorem case_objects : objects ⟨⟨charstrHeaders, [], []⟩, [], []⟩ (charstrDecls ++ caseDecls) = .ok ⟨⟨charstrHeaders, charstrStructs, []⟩, charstrTypes, charstrMem⟩ := by
  have h1 : rows ⟨charstrHeaders, [(c!"case_table", caseMembers)], []⟩ caseMembers caseInits = .ok caseRows := case_rows
  have h2 : rows ⟨charstrHeaders, [(c!"case_table", caseMembers)], []⟩ [(.int false 64, [])] classInits = .ok (classRows.take 128) := class_rows
  have h3 : rows ⟨charstrHeaders, [(c!"case_table", caseMembers)], []⟩ [(charT, [])] digitInits = .ok digitRows := digit_rows
  simp only [objects, charstrDecls, caseDecls, List.cons_append, List.nil_append, members, find, ↓reduceIte, h1, case_pad, h2, class_pad, h3, digit_pad]
  rfl

theorem case_compiles : compile charstrHeaders (charstrDecls ++ caseDecls) = .ok ⟨caseAt 19, charstrTypes, charstrMem⟩ := by
  simp only [compile, case_objects]
  rfl

theorem run_case {f : Str} {g : List (T × V) → Mem → D ((T × V) × Mem)} (h : find f (caseAt 19).funcs = some g) (args : List (T × V)) (m : Mem) :
    run charstrHeaders caseText f args m = g args (charstrMem ++ m) := run_eq case_parses case_compiles h args m

/-! ## The loops -/

/-- The local variables inside the loop; `r` is what follows `s`. -/
def convertVars (o : Str) (i j : Nat) (r : List (Str × T × V)) : List (Str × T × V) := (c!"p", strT, .ptr o (j : Int)) :: (c!"s", strT, .ptr o (i : Int)) :: r

/-- How a conversion ends. -/
def convertedS (o : Str) (i : Nat) (pre : List UInt8) (M : Mem) : C (List UInt8) → D Res
  | .error e => liftC (.error e)
  | .ok r => pure (.ret (strT, .ptr o (i : Int)) (withObj o (bytes (pre ++ r)) M))

section
variable {c : Ctx} {o f : Str} {M : Mem} {rows : List Row} {i : Nat} {r : List (Str × T × V)} {F : UInt8 → UInt8}

/-- `*p = f(*p);` where there is a byte. -/
theorem convert_byte {g : List (T × V) → Mem → D ((T × V) × Mem)} (ho : find o M = some rows) (hf : find f c.funcs = some g)
    (hg : ∀ b buf, g [(charT, .num (schar b))] (withObj o (bytes buf) M) = pure ((charT, .num (schar (F b))), withObj o (bytes buf) M))
    {buf ds : List UInt8} {j : Nat} {d : UInt8} (hd : buf.drop j = d :: ds) :
    (convertP f).exec c fileTypes ⟨convertVars o i j r, withObj o (bytes buf) M⟩ = pure (.next ⟨convertVars o i j r, withObj o (bytes (buf.set j (F d))) M⟩) := by
  have hp : find c!"p" (convertVars o i j r) = some (strT, .ptr o (j : Int)) := by simp [convertVars, find]
  have hr := read_var (c := c) (ty := fileTypes) hp (find_withObj ho) hd
  exact expr_eq (assign_place (call1_eq hr hf (hg d buf)) (deref_place (local_eq hp) rfl) (convert_char _) (put_byte ho hd))

theorem assign_err {ty : Str → Option T} {a e : E} {s : Store} {x : Err} (h : e.eval c ty s = liftC (.error x)) : (S.expr (.assign [] a e)).exec c ty s = liftC (.error x) := by
  simp [S.exec, E.eval, h, liftC_err, map_liftC_err]

theorem convert_byte_ub (ho : find o M = some rows) {buf : List UInt8} {j : Nat} (hd : buf.drop j = []) :
    (convertP f).exec c fileTypes ⟨convertVars o i j r, withObj o (bytes buf) M⟩ = liftC (.error .ub) := by
  have hp : find c!"p" (convertVars o i j r) = some (strT, .ptr o (j : Int)) := by simp [convertVars, find]
  exact assign_err (call1_err (read_var_ub hp (find_withObj ho) hd))

theorem step_p (ho : find o M = some rows) {buf ds : List UInt8} {j : Nat} {d : UInt8} (hd : buf.drop j = d :: ds) :
    (E.incr 1 (.var c!"p")).eval c fileTypes ⟨convertVars o i j r, withObj o (bytes buf) M⟩ = pure ((strT, .ptr o (j : Int)), ⟨convertVars o i (j + 1) r, withObj o (bytes buf) M⟩) :=
  move_var (by simp [convertVars, find]) (find_withObj ho) hd (by simp [convertVars, replace])

theorem set_drop {buf ds : List UInt8} {j : Nat} {d : UInt8} (hd : buf.drop j = d :: ds) (b : UInt8) :
    (buf.set j b).drop j = b :: ds ∧ (buf.set j b).drop (j + 1) = ds ∧ (buf.set j b).take (j + 1) = buf.take j ++ [b] := by
  have hj := drop_lt hd
  have h1 : (buf.set j b).drop j = b :: ds := by
    rw [List.drop_set, if_neg (Nat.lt_irrefl j), Nat.sub_self, hd]
    rfl
  refine ⟨h1, drop_next h1, ?_⟩
  rw [List.take_set, List.take_succ_eq_append_getElem hj, List.set_append_right _ _ (by simp)]
  simp [Nat.min_eq_left (Nat.le_of_lt hj)]

theorem return_s (st : Mem) (j : Nat) : (S.seq (.ret (.var c!"s")) .skip).exec c fileTypes ⟨convertVars o i j r, st⟩ = pure (.ret (strT, .ptr o (i : Int)) st) :=
  seq_ret (ret_eq (local_eq (by simp [convertVars, find])))

/-- The loops of charstr.c:347-348, 364-365. -/
theorem str_loop {g : List (T × V) → Mem → D ((T × V) × Mem)} (ho : find o M = some rows) (hf : find f c.funcs = some g)
    (hg : ∀ b buf, g [(charT, .num (schar b))] (withObj o (bytes buf) M) = pure ((charT, .num (schar (F b))), withObj o (bytes buf) M)) :
    ∀ (ds buf : List UInt8) (j : Nat), buf.drop j = ds →
      (S.seq (.for untilNul (.incr 1 (.var c!"p")) (convertP f)) (.seq (.ret (.var c!"s")) .skip)).exec c fileTypes ⟨convertVars o i j r, withObj o (bytes buf) M⟩ =
        convertedS o i (buf.take j) M (mapStr F ds)
  | [], buf, j, hd => for_err (read_var_ub (by simp [convertVars, find]) (find_withObj ho) hd)
  | d :: ds, buf, j, hd => by
    have hc := read_var (c := c) (ty := fileTypes) (l := convertVars o i j r) (x := c!"p") (by simp [convertVars, find]) (find_withObj (r := bytes buf) ho) hd
    by_cases h0 : d = 0
    · have hv : truth (.num (schar d)) = false := by rw [char_truth]; simp [h0]
      rw [show untilNul = E.unary c!"*" (.var c!"p") from rfl, for_done hc hv, return_s]
      simp [mapStr, h0, convertedS]
      rw [← h0, ← hd, List.take_append_drop]
    · have hv : truth (.num (schar d)) = true := by rw [char_truth]; simp [h0]
      obtain ⟨s1, s2, s3⟩ := set_drop hd (F d)
      have ih := str_loop ho hf hg ds (buf.set j (F d)) (j + 1) s2
      have hb := convert_byte (i := i) (r := r) ho hf hg hd
      unfold untilNul at ih ⊢
      rw [for_round hc hv hb (by rw [leave_same (by rfl)]; exact step_p ho s1), ih, s3]
      simp only [mapStr, h0, if_false]
      cases mapStr F ds <;> simp [convertedS]

/-- The loops of charstr.c:355-356, 372-373. -/
theorem substr_loop {g : List (T × V) → Mem → D ((T × V) × Mem)} (ho : find o M = some rows) (hf : find f c.funcs = some g)
    (hg : ∀ b buf, g [(charT, .num (schar b))] (withObj o (bytes buf) M) = pure ((charT, .num (schar (F b))), withObj o (bytes buf) M)) :
    ∀ (n : Nat) (ds buf : List UInt8) (j : Nat), buf.drop j = ds → find c!"end" r = some (strT, .ptr o ((j + n : Nat) : Int)) →
      (S.seq (.for untilEnd (.incr 1 (.var c!"p")) (convertP f)) (.seq (.ret (.var c!"s")) .skip)).exec c fileTypes ⟨convertVars o i j r, withObj o (bytes buf) M⟩ =
        convertedS o i (buf.take j) M (mapSubstr F ds n)
  | n, ds, buf, j, hd, he => by
    have hp : find c!"p" (convertVars o i j r) = some (strT, .ptr o (j : Int)) := by simp [convertVars, find]
    have he' : find c!"end" (convertVars o i j r) = some (strT, .ptr o ((j + n : Nat) : Int)) := by simp [convertVars, find, he]
    have hcmp : binary (withObj o (bytes buf) M) c!"!=" (strT, .ptr o (j : Int)) (strT, .ptr o ((j + n : Nat) : Int)) = .ok (flag (decide (n ≠ 0))) := by
      simp [binary]
    have hc := bin_ne (local_eq (c := c) (ty := fileTypes) (M := withObj o (bytes buf) M) hp) (local_eq he') hcmp
    match n, ds with
    | 0, ds =>
      rw [show untilEnd = E.bin c!"!=" (.var c!"p") (.var c!"end") from rfl, for_done hc rfl, return_s]
      simp [mapSubstr, convertedS, ← hd]
    | n + 1, [] =>
      rw [show untilEnd = E.bin c!"!=" (.var c!"p") (.var c!"end") from rfl, for_fail hc rfl (convert_byte_ub ho hd)]
      rfl
    | n + 1, d :: ds =>
      obtain ⟨s1, s2, s3⟩ := set_drop hd (F d)
      have ih := substr_loop ho hf hg n ds (buf.set j (F d)) (j + 1) s2 (by rw [he]; congr 4; omega)
      have hb := convert_byte (i := i) (r := r) ho hf hg hd
      unfold untilEnd at ih ⊢
      rw [for_round hc rfl hb (by rw [leave_same (by rfl)]; exact step_p ho s1), ih, s3]
      simp only [mapSubstr]
      cases mapSubstr F ds n <;> simp [convertedS]

/-- The beginning of a function: `p` gets its value. -/
theorem convert_start (cond : E) (buf : Mem) : (convertBody cond f).exec c fileTypes ⟨(c!"s", strT, .ptr o (i : Int)) :: r, buf⟩ =
    (S.seq (.for cond (.incr 1 (.var c!"p")) (convertP f)) (.seq (.ret (.var c!"s")) .skip)).exec c fileTypes ⟨convertVars o i i r, buf⟩ := by
  unfold convertBody
  rw [seq_next (s' := ⟨(c!"p", strT, .undef) :: (c!"s", strT, .ptr o (i : Int)) :: r, buf⟩) rfl, seq_assoc]
  exact seq_next (expr_eq (assign_local (t := strT) (old := .undef) (w := .ptr o (i : Int)) (local_eq (x := c!"s") (t := strT) (v := .ptr o (i : Int)) (by simp [find])) (by simp [find]) rfl (by simp [replace, convertVars])))

end

/-! ## Calls -/

theorem withObj_append {o : Str} {rows : List Row} : ∀ {M m : Mem}, find o M = none → withObj o rows (M ++ m) = M ++ withObj o rows m
  | [], _, _ => rfl
  | (x, v) :: M, m, h => by
    by_cases hx : o = x
    · simp [find, hx] at h
    · simp only [find, hx, if_false] at h
      have ih := withObj_append (rows := rows) (m := m) h
      simp only [withObj, List.cons_append, replace, hx, if_false] at ih ⊢
      cases hr : replace o rows (M ++ m) <;> simp [hr] at ih ⊢ <;> exact ih

/-- The result of a call and the memory after it. -/
def converted (o : Str) (i : Nat) (pre : List UInt8) (m : Mem) : C (List UInt8) → D ((T × V) × Mem)
  | .error e => liftC (.error e)
  | .ok r => pure ((strT, .ptr o (i : Int)), charstrMem ++ withObj o (bytes (pre ++ r)) m)

theorem invoke_converted {c : Ctx} {s : S} {ps : List (T × Str)} {vs : List (T × V)} {l : List (Str × T × V)} {o : Str} {i : Nat} {pre : List UInt8} {m : Mem} {r : C (List UInt8)}
    (ho : find o charstrMem = none) (hb : bindArgs ps vs = .ok l) (he : s.exec c fileTypes ⟨l, charstrMem ++ m⟩ = convertedS o i pre (charstrMem ++ m) r) :
    invoke c fileTypes strT ps s vs (charstrMem ++ m) = converted o i pre m r := by
  rcases r with e | r
  · exact invoke_err hb he
  · simp only [convertedS, withObj_append ho] at he
    exact invoke_ret hb he rfl

theorem lower_at (k : Nat) (hk : 15 ≤ k) : find c!"charstr_lcase_char" (caseAt k).funcs = some (invoke (ctxAt 6) fileTypes charT cParams (caseBody c!"lower")) ∧
    find c!"charstr_ucase_char" (caseAt k).funcs = some (invoke (ctxAt 7) fileTypes charT cParams (caseBody c!"upper")) := by
  obtain ⟨k, rfl⟩ := Nat.exists_eq_add_of_le' hk
  rcases k with _ | _ | _ | _ | k <;> simp [caseAt, ctxAt, functions, charstrDecls, caseDecls, find]

section
variable {o : Str} {m : Mem} {s : List UInt8} {i : Nat}

theorem converts (ho : find o charstrMem = none) (b : UInt8) (buf : List UInt8) :
    invoke (ctxAt 6) fileTypes charT cParams (caseBody c!"lower") [(charT, .num (schar b))] (withObj o (bytes buf) (charstrMem ++ m)) =
      pure ((charT, .num (schar (lcaseChar b))), withObj o (bytes buf) (charstrMem ++ m)) ∧
    invoke (ctxAt 7) fileTypes charT cParams (caseBody c!"upper") [(charT, .num (schar b))] (withObj o (bytes buf) (charstrMem ++ m)) =
      pure ((charT, .num (schar (ucaseChar b))), withObj o (bytes buf) (charstrMem ++ m)) := by
  rw [withObj_append ho]
  exact ⟨lcase_call rfl (tables _) _ _, ucase_call rfl (tables _) _ _⟩

theorem run_lcase_str (ho : find o charstrMem = none) (hs : find o m = some (bytes s)) :
    run charstrHeaders caseText c!"charstr_lcase_str" [(strT, .ptr o (i : Int))] m = converted o i (s.take i) m (lcaseStr (s.drop i)) := by
  rw [run_case (g := invoke (caseAt 15) fileTypes strT [(strT, c!"s")] (convertBody untilNul c!"charstr_lcase_char")) (by simp [caseAt, functions, charstrDecls, caseDecls, find])]
  have hM : find o (charstrMem ++ m) = some (bytes s) := by rw [find_append ho, hs]
  have hl := str_loop (i := i) (r := []) hM (lower_at 15 (by decide)).1 (fun b buf => (converts (m := m) ho b buf).1) _ s i rfl
  rw [withObj_same hM] at hl
  exact invoke_converted ho rfl ((convert_start _ _).trans hl)

theorem run_ucase_str (ho : find o charstrMem = none) (hs : find o m = some (bytes s)) :
    run charstrHeaders caseText c!"charstr_ucase_str" [(strT, .ptr o (i : Int))] m = converted o i (s.take i) m (ucaseStr (s.drop i)) := by
  rw [run_case (g := invoke (caseAt 17) fileTypes strT [(strT, c!"s")] (convertBody untilNul c!"charstr_ucase_char")) (by simp [caseAt, functions, charstrDecls, caseDecls, find])]
  have hM : find o (charstrMem ++ m) = some (bytes s) := by rw [find_append ho, hs]
  have hl := str_loop (i := i) (r := []) hM (lower_at 17 (by decide)).2 (fun b buf => (converts (m := m) ho b buf).2) _ s i rfl
  rw [withObj_same hM] at hl
  exact invoke_converted ho rfl ((convert_start _ _).trans hl)

theorem run_lcase_substr (ho : find o charstrMem = none) (hs : find o m = some (bytes s)) (n : Nat) :
    run charstrHeaders caseText c!"charstr_lcase_substr" [(strT, .ptr o (i : Int)), (strT, .ptr o ((i + n : Nat) : Int))] m =
      converted o i (s.take i) m (lcaseSubstr (s.drop i) n) := by
  rw [run_case (g := invoke (caseAt 16) fileTypes strT [(strT, c!"s"), (strT, c!"end")] (convertBody untilEnd c!"charstr_lcase_char"))
    (by simp [caseAt, functions, charstrDecls, caseDecls, find])]
  have hM : find o (charstrMem ++ m) = some (bytes s) := by rw [find_append ho, hs]
  have hl := substr_loop (i := i) (r := [(c!"end", strT, .ptr o ((i + n : Nat) : Int))]) hM (lower_at 16 (by decide)).1 (fun b buf => (converts (m := m) ho b buf).1) n _ s i rfl (by simp [find])
  rw [withObj_same hM] at hl
  exact invoke_converted ho rfl ((convert_start _ _).trans hl)

theorem run_ucase_substr (ho : find o charstrMem = none) (hs : find o m = some (bytes s)) (n : Nat) :
    run charstrHeaders caseText c!"charstr_ucase_substr" [(strT, .ptr o (i : Int)), (strT, .ptr o ((i + n : Nat) : Int))] m =
      converted o i (s.take i) m (ucaseSubstr (s.drop i) n) := by
  rw [run_case (g := invoke (caseAt 18) fileTypes strT [(strT, c!"s"), (strT, c!"end")] (convertBody untilEnd c!"charstr_ucase_char"))
    (by simp [caseAt, functions, charstrDecls, caseDecls, find])]
  have hM : find o (charstrMem ++ m) = some (bytes s) := by rw [find_append ho, hs]
  have hl := substr_loop (i := i) (r := [(c!"end", strT, .ptr o ((i + n : Nat) : Int))]) hM (lower_at 18 (by decide)).2 (fun b buf => (converts (m := m) ho b buf).2) n _ s i rfl (by simp [find])
  rw [withObj_same hM] at hl
  exact invoke_converted ho rfl ((convert_start _ _).trans hl)

end

end Verif.Source
