import Verif.Proofs.SourceUtf8
import Verif.Data.Source.IntegerH
import Verif.Data.Source.Integer

/-! src/integer.c:4-20 and include/integer.h:22-59: what the text parses to, and its execution. -/

set_option autoImplicit false

namespace Verif.Source

open Verif.Spec.CSource

abbrev longT : T := .int true 64
abbrev ulongT : T := .int false 64
abbrev boxT : T := .ptr (.struct c!"integer_t")
abbrev uboxT : T := .ptr (.struct c!"unsigned_t")
abbrev voidT : T := .ptr .void

def castBody (t : T) (x : Str) : S := .seq (.ret (.cast t (.var x))) .skip

def signBody (f g : Str) : S :=
  .seq (.ite (.bin c!"<" (.call1 f (.var c!"a")) (.call1 g (.var c!"b"))) (.ret (.unary c!"-" (lit 1))) .skip)
    (.seq (.ite (.bin c!">" (.call1 g (.var c!"a")) (.call1 g (.var c!"b"))) (.ret (lit 1)) .skip) (.seq (.ret (lit 0)) .skip))

abbrev abParams : List (T × Str) := [(voidT, c!"a"), (voidT, c!"b")]

def integerDecls : List Decl := [
  .struct c!"integer_t" [(.struct c!"integer", [])],
  .struct c!"unsigned_t" [(.struct c!"unsigned_", [])],
  .func boxT c!"as_integer" [(longT, c!"value")] (castBody boxT c!"value"),
  .func uboxT c!"as_unsigned" [(ulongT, c!"value")] (castBody uboxT c!"value"),
  .func longT c!"as_intptr" [(boxT, c!"integer")] (castBody longT c!"integer"),
  .func ulongT c!"as_uintptr" [(uboxT, c!"unsigned_")] (castBody ulongT c!"unsigned_"),
  .func intT c!"integer_cmp" abParams (signBody c!"as_intptr" c!"as_intptr"),
  .func intT c!"unsigned_cmp" abParams (signBody c!"as_intptr" c!"as_uintptr")]

/-- integer.h and integer.c. -/
def integerText : List Str := integerHeader ++ integerFile

theorem integer_parses : (lex integerText).bind parse = some integerDecls := by decide +kernel

def nothing : Headers := ⟨fun _ => none, fun _ => none⟩

def boxStructs : List (Str × List (T × Str)) := [(c!"unsigned_t", [(.struct c!"unsigned_", [])]), (c!"integer_t", [(.struct c!"integer", [])])]

/-- What the function behind the first `k` declarations sees. -/
def boxAt (k : Nat) : Ctx := functions (fun _ => none) ⟨nothing, boxStructs, []⟩ (integerDecls.take k)

theorem integer_compiles : compile nothing integerDecls = .ok ⟨boxAt 8, [], []⟩ := rfl

theorem run_integers {f : Str} {g : List (T × V) → Mem → D ((T × V) × Mem)} (h : find f (boxAt 8).funcs = some g) (args : List (T × V)) (m : Mem) :
    run nothing integerText f args m = g args m := run_eq integer_parses integer_compiles h args m

/-! ## Casts -/

/-- The pointer that is the number `n`. -/
def word (n : Int) : V := if n % 2 ^ 64 = 0 then .null else .num (n % 2 ^ 64)

theorem word_defined (n : Int) : word n ≠ .undef := by unfold word; split <;> simp

theorem convert_num (t : T) (n : Int) : convert (.ptr t) (.num n) = .ok (word n) := rfl

theorem convert_word (t : T) (n : Int) : convert (.ptr t) (word n) = .ok (word n) := by
  unfold word
  by_cases h : n % 2 ^ 64 = 0
  · rw [if_pos h]; rfl
  · rw [if_neg h]
    have h' : n % 2 ^ 64 % 2 ^ 64 = n % 2 ^ 64 := by omega
    simp only [convert, h', h, if_false]

theorem word_long (n : Int) : convert longT (word n) = .ok (.num (Int.bmod n (2 ^ 64))) := by
  unfold word
  by_cases h : n % 2 ^ 64 = 0
  · rw [if_pos h]
    have h' : Int.bmod n (2 ^ 64) = 0 := by rw [Int.bmod_def]; omega
    rw [h']; rfl
  · rw [if_neg h]
    have h' : Int.bmod (n % 2 ^ 64) (2 ^ 64) = Int.bmod n (2 ^ 64) := by rw [Int.bmod_def, Int.bmod_def]; omega
    simp only [convert, conv, h']

theorem word_ulong (n : Int) : convert ulongT (word n) = .ok (.num (n % 2 ^ 64)) := by
  unfold word
  by_cases h : n % 2 ^ 64 = 0
  · rw [if_pos h, h]; rfl
  · rw [if_neg h]
    have h' : n % 2 ^ 64 % 2 ^ 64 = n % 2 ^ 64 := by omega
    simp only [convert, conv, h']

/-- A function that is a cast. -/
theorem cast_invoke {c : Ctx} {t u u' : T} {x : Str} {v v' w : V} (hv : convert u v = .ok v') (hd : v' ≠ .undef) (hw : convert t v' = .ok w) (hw' : convert t w = .ok w) (m : Mem) :
    invoke c (fun _ => none) t [(u, x)] (castBody t x) [(u', v)] m = pure ((t, w), m) := by
  have hb : bindArgs [(u, x)] [(u', v)] = .ok [(x, u, v')] := by simp [bindArgs, hv]
  exact invoke_ret hb (seq_ret (ret_eq (cast_eq (local_eq (t := u) (by simp [find]) hd) hw))) hw'

theorem long_long (n : Int) : convert longT (.num (Int.bmod n (2 ^ 64))) = .ok (.num (Int.bmod n (2 ^ 64))) := by
  simp [convert, conv, Int.bmod_bmod]

theorem ulong_ulong (n : Int) : convert ulongT (.num (n % 2 ^ 64)) = .ok (.num (n % 2 ^ 64)) := by
  simp [convert, conv]

theorem word_bmod (n : Int) : word (Int.bmod n (2 ^ 64)) = word n := by
  have h : Int.bmod n (2 ^ 64) % 2 ^ 64 = n % 2 ^ 64 := by rw [Int.bmod_def]; omega
  simp only [word, h]

theorem word_mod (n : Int) : word (n % 2 ^ 64) = word n := by
  have h : n % 2 ^ 64 % 2 ^ 64 = n % 2 ^ 64 := by omega
  simp only [word, h]

theorem run_boxes (n : Int) (m : Mem) :
    run nothing integerText c!"as_integer" [(longT, .num n)] m = pure ((boxT, word n), m) ∧
    run nothing integerText c!"as_unsigned" [(ulongT, .num n)] m = pure ((uboxT, word n), m) ∧
    run nothing integerText c!"as_intptr" [(boxT, word n)] m = pure ((longT, .num (Int.bmod n (2 ^ 64))), m) ∧
    run nothing integerText c!"as_uintptr" [(uboxT, word n)] m = pure ((ulongT, .num (n % 2 ^ 64)), m) := by
  refine ⟨?_, ?_, ?_, ?_⟩
  · rw [run_integers (g := invoke (boxAt 2) (fun _ => none) boxT [(longT, c!"value")] (castBody boxT c!"value")) (by simp [boxAt, functions, integerDecls, find])]
    exact cast_invoke (v' := .num (Int.bmod n (2 ^ 64))) rfl (by simp) (by rw [convert_num, word_bmod]) (convert_word _ n) m
  · rw [run_integers (g := invoke (boxAt 3) (fun _ => none) uboxT [(ulongT, c!"value")] (castBody uboxT c!"value")) (by simp [boxAt, functions, integerDecls, find])]
    exact cast_invoke (v' := .num (n % 2 ^ 64)) rfl (by simp) (by rw [convert_num, word_mod]) (convert_word _ n) m
  · rw [run_integers (g := invoke (boxAt 4) (fun _ => none) longT [(boxT, c!"integer")] (castBody longT c!"integer")) (by simp [boxAt, functions, integerDecls, find])]
    exact cast_invoke (convert_word _ n) (word_defined n) (word_long n) (long_long n) m
  · rw [run_integers (g := invoke (boxAt 5) (fun _ => none) ulongT [(uboxT, c!"unsigned_")] (castBody ulongT c!"unsigned_")) (by simp [boxAt, functions, integerDecls, find])]
    exact cast_invoke (convert_word _ n) (word_defined n) (word_ulong n) (ulong_ulong n) m

/-! ## Comparison -/

theorem sign_exec {c : Ctx} {ty : Str → Option T} {st : Store} {f g : Str} {l r : Bool} (h1 : (E.bin c!"<" (.call1 f (.var c!"a")) (.call1 g (.var c!"b"))).eval c ty st = pure (flag l, st))
    (h2 : (E.bin c!">" (.call1 g (.var c!"a")) (.call1 g (.var c!"b"))).eval c ty st = pure (flag r, st)) :
    (signBody f g).exec c ty st = pure (.ret (intT, .num (if l then -1 else if r then 1 else 0)) st.mem) := by
  have hm : (S.ret (.unary c!"-" (lit 1))).exec c ty st = pure (.ret (intT, .num (-1)) st.mem) := by
    simp [S.exec, E.eval, constType, unaryOp, promote, result, map_liftC_ok]
  unfold signBody
  cases l with
  | true => exact seq_ret (by rw [if_then h1 rfl, hm]; rfl)
  | false =>
    rw [seq_next (s' := st) (by rw [if_else h1 rfl]; rfl)]
    cases r with
    | true => exact seq_ret (by rw [if_then h2 rfl]; exact ret_eq (lit_eq (by decide) st))
    | false =>
      rw [seq_next (s' := st) (by rw [if_else h2 rfl]; rfl)]
      exact seq_ret (ret_eq (lit_eq (by decide) st))

def abVars (x y : Int) : List (Str × T × V) := [(c!"a", voidT, word x), (c!"b", voidT, word y)]

theorem ab_bind (t t' : T) (x y : Int) : bindArgs abParams [(t, word x), (t', word y)] = .ok (abVars x y) := by
  simp [bindArgs, convert_word, abVars]

theorem unboxes {k : Nat} (hk : 6 ≤ k) :
    find c!"as_intptr" (boxAt k).funcs = some (invoke (boxAt 4) (fun _ => none) longT [(boxT, c!"integer")] (castBody longT c!"integer")) ∧
    find c!"as_uintptr" (boxAt k).funcs = some (invoke (boxAt 5) (fun _ => none) ulongT [(uboxT, c!"unsigned_")] (castBody ulongT c!"unsigned_")) := by
  obtain ⟨k, rfl⟩ := Nat.exists_eq_add_of_le' hk
  rcases k with _ | _ | k <;> simp [boxAt, functions, integerDecls, find]

theorem call_long {k : Nat} (hk : 6 ≤ k) {z : Str} {l : List (Str × T × V)} {n : Int} (hz : find z l = some (voidT, word n)) (m : Mem) :
    (E.call1 c!"as_intptr" (.var z)).eval (boxAt k) (fun _ => none) ⟨l, m⟩ = pure ((longT, .num (Int.bmod n (2 ^ 64))), ⟨l, m⟩) :=
  call1_eq (local_eq hz (word_defined n)) (unboxes hk).1 (cast_invoke (convert_word _ n) (word_defined n) (word_long n) (long_long n) m)

theorem call_ulong {k : Nat} (hk : 6 ≤ k) {z : Str} {l : List (Str × T × V)} {n : Int} (hz : find z l = some (voidT, word n)) (m : Mem) :
    (E.call1 c!"as_uintptr" (.var z)).eval (boxAt k) (fun _ => none) ⟨l, m⟩ = pure ((ulongT, .num (n % 2 ^ 64)), ⟨l, m⟩) :=
  call1_eq (local_eq hz (word_defined n)) (unboxes hk).2 (cast_invoke (convert_word _ n) (word_defined n) (word_ulong n) (ulong_ulong n) m)

theorem long_less (M : Mem) {x y : Int} (hx : -2 ^ 63 ≤ x ∧ x < 2 ^ 63) (hy : -2 ^ 63 ≤ y ∧ y < 2 ^ 63) :
    binary M c!"<" (longT, .num x) (longT, .num y) = .ok (flag (decide (x < y))) ∧ binary M c!">" (longT, .num x) (longT, .num y) = .ok (flag (decide (x > y))) := by
  have h1 : Int.bmod x 18446744073709551616 = x := bmod64 (by omega) (by omega)
  have h2 : Int.bmod y 18446744073709551616 = y := bmod64 (by omega) (by omega)
  constructor <;> simp [binary, isInt, promote, usual, conv, arith, h1, h2]

theorem ulong_less (M : Mem) {x y z : Int} (hx : 0 ≤ x ∧ x < 2 ^ 64) (hy : 0 ≤ y ∧ y < 2 ^ 64) (hz : z % 2 ^ 64 = x) :
    binary M c!"<" (longT, .num z) (ulongT, .num y) = .ok (flag (decide (x < y))) ∧ binary M c!">" (ulongT, .num x) (ulongT, .num y) = .ok (flag (decide (x > y))) := by
  have h0 : z % 18446744073709551616 = x := by omega
  have h1 : x % 18446744073709551616 = x := by omega
  have h2 : y % 18446744073709551616 = y := by omega
  constructor <;> simp [binary, isInt, promote, usual, conv, arith, h0, h1, h2]

theorem sign_int (x y : Int) : (if decide (x < y) then -1 else if decide (x > y) then 1 else 0) = (x - y).sign := by
  by_cases h : x < y
  · rw [Int.sign_eq_neg_one_of_neg (by omega)]; simp [h]
  · by_cases h' : y < x
    · rw [Int.sign_eq_one_of_pos (by omega)]; simp [h, h']
    · rw [show x - y = 0 by omega]; simp [h, h']

theorem sign_small (n : Int) : convert intT (.num n.sign) = .ok (.num n.sign) := by
  have h : n.sign = -1 ∨ n.sign = 0 ∨ n.sign = 1 := by
    rcases Int.lt_trichotomy n 0 with h | h | h
    · exact .inl (Int.sign_eq_neg_one_of_neg h)
    · exact .inr (.inl (by rw [h]; rfl))
    · exact .inr (.inr (Int.sign_eq_one_of_pos h))
  rcases h with h | h | h <;> rw [h] <;> rfl

theorem run_integer_cmp {x y : Int} (hx : -2 ^ 63 ≤ x ∧ x < 2 ^ 63) (hy : -2 ^ 63 ≤ y ∧ y < 2 ^ 63) (t t' : T) (m : Mem) :
    run nothing integerText c!"integer_cmp" [(t, word x), (t', word y)] m = pure ((intT, .num (x - y).sign), m) := by
  rw [run_integers (g := invoke (boxAt 6) (fun _ => none) intT abParams (signBody c!"as_intptr" c!"as_intptr")) (by simp [boxAt, functions, integerDecls, find])]
  have ha := call_long (k := 6) (by decide) (z := c!"a") (l := abVars x y) (n := x) (by simp [abVars, find]) m
  have hb := call_long (k := 6) (by decide) (z := c!"b") (l := abVars x y) (n := y) (by simp [abVars, find]) m
  rw [show Int.bmod x (2 ^ 64) = x from bmod64 (by omega) (by omega)] at ha
  rw [show Int.bmod y (2 ^ 64) = y from bmod64 (by omega) (by omega)] at hb
  have he := sign_exec (bin_op (by decide) (by decide) ha hb (long_less m hx hy).1) (bin_op (by decide) (by decide) ha hb (long_less m hx hy).2)
  rw [sign_int] at he
  exact invoke_ret (ab_bind t t' x y) he (sign_small _)

theorem run_unsigned_cmp {x y : Int} (hx : 0 ≤ x ∧ x < 2 ^ 64) (hy : 0 ≤ y ∧ y < 2 ^ 64) (t t' : T) (m : Mem) :
    run nothing integerText c!"unsigned_cmp" [(t, word x), (t', word y)] m = pure ((intT, .num (x - y).sign), m) := by
  rw [run_integers (g := invoke (boxAt 7) (fun _ => none) intT abParams (signBody c!"as_intptr" c!"as_uintptr")) (by simp [boxAt, functions, integerDecls, find])]
  have ha := call_long (k := 7) (by decide) (z := c!"a") (l := abVars x y) (n := x) (by simp [abVars, find]) m
  have ha' := call_ulong (k := 7) (by decide) (z := c!"a") (l := abVars x y) (n := x) (by simp [abVars, find]) m
  have hb := call_ulong (k := 7) (by decide) (z := c!"b") (l := abVars x y) (n := y) (by simp [abVars, find]) m
  rw [show x % 2 ^ 64 = x by omega] at ha'
  rw [show y % 2 ^ 64 = y by omega] at hb
  have hz : Int.bmod x (2 ^ 64) % 2 ^ 64 = x := by rw [Int.bmod_def]; omega
  have he := sign_exec (bin_op (by decide) (by decide) ha hb (ulong_less m hx hy hz).1) (bin_op (by decide) (by decide) ha' hb (ulong_less m hx hy hz).2)
  rw [sign_int] at he
  exact invoke_ret (ab_bind t t' x y) he (sign_small _)

end Verif.Source
