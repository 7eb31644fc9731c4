import Verif.Proofs.SourceLoops
import Verif.Proofs.SourceRun

/-! Calls of the functions of charstr.c:8-324. -/

set_option autoImplicit false

namespace Verif.Source

open Verif.Spec.CSource Verif.Charstr

/-- What a function sees of the file, after the first `k` declarations. -/
def ctxAt (k : Nat) : Ctx := functions fileTypes ⟨charstrHeaders, charstrStructs, []⟩ (charstrDecls.take k)

theorem charstr_compiles : compile charstrHeaders charstrDecls = .ok ⟨ctxAt 15, charstrTypes, charstrMem⟩ := by
  simp only [compile, charstr_objects]
  rfl

theorem run_charstr {f : Str} {g : List (T × V) → Mem → D ((T × V) × Mem)} (h : find f (ctxAt 15).funcs = some g) (args : List (T × V)) (m : Mem) :
    run charstrHeaders charstr f args m = g args (charstrMem ++ m) := run_eq charstr_parses charstr_compiles h args m

theorem find_append {α : Type} {o : Str} : ∀ {M m : List (Str × α)}, find o M = none → find o (M ++ m) = find o m
  | [], _, _ => rfl
  | (x, a) :: M, m, h => by
    simp only [find] at h
    by_cases hx : o = x
    · simp [hx] at h
    · simp only [hx, if_false] at h
      simp only [List.cons_append, find, hx, if_false]
      exact find_append h

theorem tables (m : Mem) : Tables (charstrMem ++ m) := ⟨by simp [charstrMem, find], by simp [charstrMem, find], by simp [charstrMem, find]⟩

theorem f_cmp : find c!"charstr_case_cmp" (ctxAt 15).funcs = some (invoke (ctxAt 2) fileTypes (.int true 32) [(strT, c!"a"), (strT, c!"b")] cmpBody) := by
  simp [ctxAt, functions, charstrDecls, find]

theorem f_ncmp : find c!"charstr_ncase_cmp" (ctxAt 15).funcs =
    some (invoke (ctxAt 3) fileTypes (.int true 32) [(strT, c!"a"), (strT, c!"b"), (.int false 64, c!"n")] ncmpBody) := by
  simp [ctxAt, functions, charstrDecls, find]

theorem f_class : find c!"charstr_char_class" (ctxAt 15).funcs = some (invoke (ctxAt 5) fileTypes (.int false 64) cParams (tableBody c!"char_class")) := by
  simp [ctxAt, functions, charstrDecls, find]

theorem f_lcase : find c!"charstr_lcase_char" (ctxAt 15).funcs = some (invoke (ctxAt 6) fileTypes charT cParams (caseBody c!"lower")) := by
  simp [ctxAt, functions, charstrDecls, find]

theorem f_ucase : find c!"charstr_ucase_char" (ctxAt 15).funcs = some (invoke (ctxAt 7) fileTypes charT cParams (caseBody c!"upper")) := by
  simp [ctxAt, functions, charstrDecls, find]

theorem f_skip : find c!"charstr_skip_prefix" (ctxAt 15).funcs = some (invoke (ctxAt 8) fileTypes strT prefixParams skipBody) := by
  simp [ctxAt, functions, charstrDecls, find]

theorem f_starts : find c!"charstr_case_starts_with" (ctxAt 15).funcs = some (invoke (ctxAt 9) fileTypes strT prefixParams (twice c!"charstr_skip_prefix")) := by
  simp [ctxAt, functions, charstrDecls, find]

theorem f_caseSkip : find c!"charstr_case_skip_prefix" (ctxAt 15).funcs = some (invoke (ctxAt 10) fileTypes strT prefixParams caseSkipBody) := by
  simp [ctxAt, functions, charstrDecls, find]

theorem f_caseStarts : find c!"charstr_ncase_starts_with" (ctxAt 15).funcs =
    some (invoke (ctxAt 11) fileTypes strT prefixParams (twice c!"charstr_case_skip_prefix")) := by
  simp [ctxAt, functions, charstrDecls, find]

theorem f_digit : find c!"charstr_digit_value" (ctxAt 15).funcs = some (invoke (ctxAt 14) fileTypes (.int false 32) cParams (tableBody c!"digit_value")) := by
  simp [ctxAt, functions, charstrDecls, find]

theorem f_lcase_then : find c!"charstr_lcase_char" (ctxAt 10).funcs = some (invoke (ctxAt 6) fileTypes charT cParams (caseBody c!"lower")) := by
  simp [ctxAt, functions, charstrDecls, find]

theorem f_skip_then : find c!"charstr_skip_prefix" (ctxAt 9).funcs = some (invoke (ctxAt 8) fileTypes strT prefixParams skipBody) := by
  simp [ctxAt, functions, charstrDecls, find]

theorem f_caseSkip_then : find c!"charstr_case_skip_prefix" (ctxAt 11).funcs = some (invoke (ctxAt 10) fileTypes strT prefixParams caseSkipBody) := by
  simp [ctxAt, functions, charstrDecls, find]

/-! ## Results -/

/-- The result of a call that searches for a prefix. -/
def pointer (o : Str) (n : Nat) (M : Mem) : C (Option (List UInt8)) → D ((T × V) × Mem)
  | .error e => liftC (.error e)
  | .ok none => pure ((strT, .null), M)
  | .ok (some r) => pure ((strT, .ptr o ((n - r.length : Nat) : Int)), M)

/-- The result of a comparison. -/
def sign (M : Mem) : C Int → D ((T × V) × Mem)
  | .error e => liftC (.error e)
  | .ok n => pure ((.int true 32, .num n), M)

theorem bind_prefix (o o' : Str) (i j : Nat) (t t' : T) : bindArgs prefixParams [(t, .ptr o (i : Int)), (t', .ptr o' (j : Int))] = .ok (prefixVars o i o' j) := rfl

theorem invoke_found {c : Ctx} {ty : Str → Option T} {s : S} {o o' : Str} {i j n : Nat} {t t' : T} {M : Mem} {r : C (Option (List UInt8))}
    (he : s.exec c ty ⟨prefixVars o i o' j, M⟩ = found o n M r) :
    invoke c ty strT prefixParams s [(t, .ptr o (i : Int)), (t', .ptr o' (j : Int))] M = pointer o n M r := by
  rcases r with e | _ | r
  · exact invoke_err (bind_prefix o o' i j t t') he
  · exact invoke_ret (bind_prefix o o' i j t t') he rfl
  · exact invoke_ret (bind_prefix o o' i j t t') he rfl

theorem invoke_compared {c : Ctx} {ty : Str → Option T} {s : S} {ps : List (T × Str)} {vs : List (T × V)} {l : List (Str × T × V)} {M : Mem} {r : C Int}
    (hb : bindArgs ps vs = .ok l) (hr : ∀ n, r = .ok n → -1 ≤ n ∧ n ≤ 1) (he : s.exec c ty ⟨l, M⟩ = compared M r) : invoke c ty (.int true 32) ps s vs M = sign M r := by
  rcases r with e | n
  · exact invoke_err hb he
  · have h := hr n rfl
    exact invoke_ret hb he (by simp [convert, conv, bmod32 (n := n) (by omega) (by omega)])

theorem caseCmp_range : ∀ (a b : List UInt8) (n : Int), caseCmp a b = .ok n → -1 ≤ n ∧ n ≤ 1
  | [], _, n, h => by simp [caseCmp] at h
  | a :: as, [], n, h => by
    by_cases h0 : a = 0
    · simp [caseCmp, h0, peek] at h
    · simp [caseCmp, h0] at h
  | a :: as, b :: bs, n, h => by
    by_cases h0 : a = 0
    · by_cases hb : b = 0
      · simp [caseCmp, h0, peek, hb] at h; omega
      · simp [caseCmp, h0, peek, hb] at h; omega
    · by_cases h1 : lcaseChar a < lcaseChar b
      · simp [caseCmp, h0, h1] at h; omega
      · by_cases h2 : lcaseChar b < lcaseChar a
        · simp [caseCmp, h0, h1, h2] at h; omega
        · simp [caseCmp, h0, h1, h2] at h
          exact caseCmp_range as bs n h

theorem ncaseCmp_range : ∀ (k : Nat) (a b : List UInt8) (n : Int), ncaseCmp a b k = .ok n → -1 ≤ n ∧ n ≤ 1
  | 0, a, b, n, h => by simp [ncaseCmp] at h; omega
  | k + 1, [], _, n, h => by simp [ncaseCmp] at h
  | k + 1, a :: as, [], n, h => by
    by_cases h0 : a = 0
    · simp [ncaseCmp, h0, peek] at h
    · simp [ncaseCmp, h0] at h
  | k + 1, a :: as, b :: bs, n, h => by
    by_cases h0 : a = 0
    · by_cases hb : b = 0
      · simp [ncaseCmp, h0, peek, hb] at h; omega
      · simp [ncaseCmp, h0, peek, hb] at h; omega
    · by_cases h1 : lcaseChar a < lcaseChar b
      · simp [ncaseCmp, h0, h1] at h; omega
      · by_cases h2 : lcaseChar b < lcaseChar a
        · simp [ncaseCmp, h0, h1, h2] at h; omega
        · simp [ncaseCmp, h0, h1, h2] at h
          exact ncaseCmp_range k as bs n h

/-! ## Calls -/

variable {o o' : Str} {s p : List UInt8} {m : Mem} {i j : Nat}

theorem run_cmp (ho : find o charstrMem = none) (ho' : find o' charstrMem = none) (hs : find o m = some (bytes s)) (hp : find o' m = some (bytes p)) :
    run charstrHeaders charstr c!"charstr_case_cmp" [(strT, .ptr o (i : Int)), (strT, .ptr o' (j : Int))] m = sign (charstrMem ++ m) (caseCmp (s.drop i) (p.drop j)) := by
  rw [run_charstr f_cmp]
  have he := cmp_exec (c := ctxAt 2) rfl (tables m) (by rw [find_append ho, hs]) (by rw [find_append ho', hp]) (s.drop i) i j rfl
  exact invoke_compared rfl (caseCmp_range _ _) he

theorem run_ncmp (ho : find o charstrMem = none) (ho' : find o' charstrMem = none) (hs : find o m = some (bytes s)) (hp : find o' m = some (bytes p)) (n : Nat)
    (hn : n < 2 ^ 64) : run charstrHeaders charstr c!"charstr_ncase_cmp" [(strT, .ptr o (i : Int)), (strT, .ptr o' (j : Int)), (.int false 64, .num (n : Int))] m =
      sign (charstrMem ++ m) (ncaseCmp (s.drop i) (p.drop j) n) := by
  rw [run_charstr f_ncmp]
  have he := ncmp_exec (c := ctxAt 3) rfl (tables m) (by rw [find_append ho, hs]) (by rw [find_append ho', hp]) n hn i j
  refine invoke_compared ?_ (ncaseCmp_range _ _ _) he
  have h : (n : Int) % 18446744073709551616 = n := by omega
  simp [bindArgs, convert, conv, ncmpVars, cmpVars, h]

theorem call_skip (ho : find o charstrMem = none) (ho' : find o' charstrMem = none) (hs : find o m = some (bytes s)) (hp : find o' m = some (bytes p)) (hi : i ≤ s.length) (t t' : T) :
    invoke (ctxAt 8) fileTypes strT prefixParams skipBody [(t, .ptr o (i : Int)), (t', .ptr o' (j : Int))] (charstrMem ++ m) =
      pointer o s.length (charstrMem ++ m) (skipPrefix (s.drop i) (p.drop j)) :=
  invoke_found (skip_exec rfl (by rw [find_append ho, hs]) (by rw [find_append ho', hp]) hi)

theorem call_caseSkip (ho : find o charstrMem = none) (ho' : find o' charstrMem = none) (hs : find o m = some (bytes s)) (hp : find o' m = some (bytes p)) (hi : i ≤ s.length) (t t' : T) :
    invoke (ctxAt 10) fileTypes strT prefixParams caseSkipBody [(t, .ptr o (i : Int)), (t', .ptr o' (j : Int))] (charstrMem ++ m) =
      pointer o s.length (charstrMem ++ m) (caseSkipPrefix (s.drop i) (p.drop j)) :=
  invoke_found (caseSkip_exec rfl rfl f_lcase_then (tables m) (by rw [find_append ho, hs]) (by rw [find_append ho', hp]) hi)

theorem call_twice {c : Ctx} {f : Str} {g : List (T × V) → Mem → D ((T × V) × Mem)} (hf : find f c.funcs = some g) {M : Mem} {n : Nat} {r : C (Option (List UInt8))}
    (hg : g [(strT, .ptr o (i : Int)), (strT, .ptr o' (j : Int))] M = pointer o n M r) (t t' : T) :
    invoke c fileTypes strT prefixParams (twice f) [(t, .ptr o (i : Int)), (t', .ptr o' (j : Int))] M = pointer o n M r := by
  have hs : find c!"s" (prefixVars o i o' j) = some (strT, .ptr o (i : Int)) := by simp [prefixVars, find]
  have hp : find c!"prefix" (prefixVars o i o' j) = some (strT, .ptr o' (j : Int)) := by simp [prefixVars, find]
  rcases r with e | _ | r
  · refine call_fail (bind_prefix o o' i j t t') ?_
    simp only [E.eval, hs, hp, reduceCtorEq, if_false, pure_bind, hf, hg, pointer]
    rfl
  · refine call_ret (s' := ⟨prefixVars o i o' j, M⟩) (u := strT) (v := .null) (bind_prefix o o' i j t t') ?_ rfl
    simp only [E.eval, hs, hp, reduceCtorEq, if_false, pure_bind, hf, hg, pointer]
  · refine call_ret (s' := ⟨prefixVars o i o' j, M⟩) (u := strT) (v := .ptr o ((n - r.length : Nat) : Int)) (bind_prefix o o' i j t t') ?_ rfl
    simp only [E.eval, hs, hp, reduceCtorEq, if_false, pure_bind, hf, hg, pointer]

theorem run_skip (ho : find o charstrMem = none) (ho' : find o' charstrMem = none) (hs : find o m = some (bytes s)) (hp : find o' m = some (bytes p)) (hi : i ≤ s.length) :
    ∀ f ∈ [c!"charstr_skip_prefix", c!"charstr_case_starts_with"], run charstrHeaders charstr f [(strT, .ptr o (i : Int)), (strT, .ptr o' (j : Int))] m =
      pointer o s.length (charstrMem ++ m) (skipPrefix (s.drop i) (p.drop j)) := by
  intro f hf
  simp only [List.mem_cons, List.not_mem_nil, or_false] at hf
  rcases hf with rfl | rfl
  · rw [run_charstr f_skip]; exact call_skip ho ho' hs hp hi _ _
  · rw [run_charstr f_starts]; exact call_twice f_skip_then (call_skip ho ho' hs hp hi _ _) _ _

theorem run_caseSkip (ho : find o charstrMem = none) (ho' : find o' charstrMem = none) (hs : find o m = some (bytes s)) (hp : find o' m = some (bytes p)) (hi : i ≤ s.length) :
    ∀ f ∈ [c!"charstr_case_skip_prefix", c!"charstr_ncase_starts_with"], run charstrHeaders charstr f [(strT, .ptr o (i : Int)), (strT, .ptr o' (j : Int))] m =
      pointer o s.length (charstrMem ++ m) (caseSkipPrefix (s.drop i) (p.drop j)) := by
  intro f hf
  simp only [List.mem_cons, List.not_mem_nil, or_false] at hf
  rcases hf with rfl | rfl
  · rw [run_charstr f_caseSkip]; exact call_caseSkip ho ho' hs hp hi _ _
  · rw [run_charstr f_caseStarts]; exact call_twice f_caseSkip_then (call_caseSkip ho ho' hs hp hi _ _) _ _

theorem run_chars (b : UInt8) (m : Mem) :
    run charstrHeaders charstr c!"charstr_lcase_char" [(charT, .num (schar b))] m = pure ((charT, .num (schar (lcaseChar b))), charstrMem ++ m) ∧
    run charstrHeaders charstr c!"charstr_ucase_char" [(charT, .num (schar b))] m = pure ((charT, .num (schar (ucaseChar b))), charstrMem ++ m) ∧
    run charstrHeaders charstr c!"charstr_char_class" [(charT, .num (schar b))] m = pure ((.int false 64, .num (charClass b)), charstrMem ++ m) ∧
    run charstrHeaders charstr c!"charstr_digit_value" [(charT, .num (schar b))] m = pure ((.int false 32, .num (digitValue b)), charstrMem ++ m) := by
  rw [run_charstr f_lcase, run_charstr f_ucase, run_charstr f_class, run_charstr f_digit]
  exact ⟨lcase_call rfl (tables m) _ _, ucase_call rfl (tables m) _ _, class_call (tables m) _ _, digit_call (tables m) _ _⟩

end Verif.Source
