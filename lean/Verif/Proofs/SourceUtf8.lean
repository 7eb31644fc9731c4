import Verif.Proofs.SourceLoops
import Verif.Proofs.SourceRun
import Verif.Data.Source.Utf8
import Verif.Model.Utf8

/-! src/charstr.c:451-508, 543-564: what the text parses to, and the execution of the decoder. -/

set_option autoImplicit false

namespace Verif.Source

open Verif.Spec.CSource Verif.Utf8

abbrev intT : T := .int true 32

/-- A constant of type `int`. -/
abbrev lit (n : Nat) : E := .num n false false

def readS : E := .unary c!"*" (.var c!"s")
def retNull : S := .ret (.var c!"NULL")
def atEnd : E := .bin c!"==" (.var c!"s") (.var c!"end")
def noS : S := .ite (.bin c!"||" (.unary c!"!" (.var c!"s")) atEnd) retNull .skip
/-- `cp = e;` -/
def setCp (e : E) : S := .expr (.assign [] (.var c!"cp") e)
/-- `!(*s & n)` -/
def clear (n : Nat) : E := .unary c!"!" (.bin c!"&" readS (lit n))
/-- `cp = *s++ & n;` -/
def lead (n : Nat) : S := setCp (.bin c!"&" (next c!"s") (lit n))

/-- charstr.c:475-477, 479-481, 483-485, and what follows. -/
def contTo (rest : S) : S :=
  .seq (.ite (.bin c!"||" atEnd (.bin c!"!=" (.bin c!"&" readS (lit 192)) (lit 128))) retNull .skip)
    (.seq (setCp (.bin c!"|" (.bin c!"<<" (.var c!"cp") (lit 6)) (.bin c!"&" (next c!"s") (lit 63)))) rest)

def lastS : S := contTo (.seq (.ite (.unary c!"!" (.call1 c!"valid_unicode" (.var c!"cp"))) retNull .skip) .skip)

def fourS : S := .seq (.ite (.bin c!"&" readS (lit 8)) retNull .skip) (.seq (lead 7) (contTo .skip))

def threeS : S := .seq (.ite (clear 16) (lead 15) fourS) (contTo .skip)

def chainS : S := .ite (clear 128) (lead 127) (.ite (clear 64) retNull (.seq (.ite (clear 32) (lead 31) threeS) lastS))

def storeS : S :=
  .seq (.ite (.var c!"codepoint") (.expr (.assign [] (.unary c!"*" (.var c!"codepoint")) (.var c!"cp"))) .skip) (.seq (.ret (.var c!"s")) .skip)

def decodeBody : S := .seq (.decl intT c!"cp" none) (.seq noS (.seq chainS storeS))

def between (a b : Nat) : E := .bin c!"&&" (.bin c!">=" (.var c!"codepoint") (lit a)) (.bin c!"<=" (.var c!"codepoint") (lit b))

def unicodeBody : S := .seq (.ret (.bin c!"||" (between 0 0xd7ff) (between 0xe000 0x10ffff))) .skip

def decodeCall (e : E) : S := .expr (.assign [] (.var c!"s") (.call3 c!"charstr_decode_utf8_codepoint" (.var c!"s") e (.var c!"NULL")))

def validEnd : S := .seq (.ret (.bin c!"!=" (.var c!"s") (.var c!"NULL"))) .skip

def boundedBody : S := .seq (.while (.bin c!"&&" (.var c!"s") (.bin c!"!=" (.var c!"s") (.var c!"end"))) (decodeCall (.var c!"end"))) validEnd

def validBody : S := .seq (.while (.bin c!"&&" (.var c!"s") readS) (decodeCall (.var c!"NULL"))) validEnd

/-- `*s++ = e;` -/
def store (e : E) : S := .expr (.assign [] (next c!"s") e)

def shr (k : Nat) : E := .bin c!">>" (.var c!"codepoint") (lit k)

def six (e : E) : E := .bin c!"|" (lit 128) (.bin c!"&" e (lit 63))

def full : S := .ite atEnd retNull .skip

def encode4 : S := .seq (store (.bin c!"|" (lit 240) (shr 18))) (.seq full (.seq (store (six (shr 12))) .skip))

def encode3 : S := .seq (.ite (.bin c!">=" (.var c!"codepoint") (lit 0x10000)) encode4 (store (.bin c!"|" (lit 224) (shr 12)))) (.seq full (.seq (store (six (shr 6))) .skip))

def encode2 : S := .seq (.ite (.bin c!">=" (.var c!"codepoint") (lit 0x800)) encode3 (store (.bin c!"|" (lit 192) (shr 6)))) (.seq full (.seq (store (six (.var c!"codepoint"))) .skip))

def encodeBody : S := .seq noS (.seq (.ite (.bin c!">=" (.var c!"codepoint") (lit 128)) encode2 (store (.var c!"codepoint"))) (.seq (.ret (.var c!"s")) .skip))

abbrev decodeParams : List (T × Str) := [(strT, c!"s"), (strT, c!"end"), (.ptr intT, c!"codepoint")]
abbrev boundedParams : List (T × Str) := [(strT, c!"s"), (strT, c!"end")]
abbrev encodeParams : List (T × Str) := [(intT, c!"codepoint"), (strT, c!"s"), (strT, c!"end")]

def utf8Decls : List Decl := [
  .func .bool c!"valid_unicode" [(intT, c!"codepoint")] unicodeBody,
  .func strT c!"charstr_decode_utf8_codepoint" decodeParams decodeBody,
  .func .bool c!"charstr_valid_utf8_bounded" boundedParams boundedBody,
  .func .bool c!"charstr_valid_utf8" [(strT, c!"s")] validBody,
  .func strT c!"charstr_encode_utf8_codepoint" encodeParams encodeBody]

theorem utf8_parses : (lex utf8).bind parse = some utf8Decls := by decide +kernel

/-! ## Operators -/

section
variable {c : Ctx} {ty : Str → Option T}

theorem bin_op {op : Str} {a b : E} {s s' s'' : Store} {v w r : T × V} (h1 : op ≠ c!"&&") (h2 : op ≠ c!"||") (ha : a.eval c ty s = pure (v, s'))
    (hb : b.eval c ty s' = pure (w, s'')) (h : binary s''.mem op v w = .ok r) : (E.bin op a b).eval c ty s = pure (r, s'') := by
  simp [E.eval, h1, h2, ha, hb, h, map_liftC_ok]

theorem bin_left {op : Str} {a b : E} {s : Store} {e : Err} (h1 : op ≠ c!"&&") (h2 : op ≠ c!"||") (ha : a.eval c ty s = liftC (.error e)) :
    (E.bin op a b).eval c ty s = liftC (.error e) := by
  simp [E.eval, h1, h2, ha, liftC_err]

theorem or_left {a b : E} {s s' : Store} {v : T × V} (ha : a.eval c ty s = pure (v, s')) (hv : truth v.2 = true) : (E.bin c!"||" a b).eval c ty s = pure (flag true, s') := by
  simp [E.eval, ha, hv]

theorem or_right {a b : E} {s s' s'' : Store} {v w : T × V} (ha : a.eval c ty s = pure (v, s')) (hv : truth v.2 = false) (hb : b.eval c ty s' = pure (w, s'')) :
    (E.bin c!"||" a b).eval c ty s = pure (flag (truth w.2), s'') := by
  simp [E.eval, ha, hv, hb]

theorem or_err {a b : E} {s s' : Store} {v : T × V} {e : Err} (ha : a.eval c ty s = pure (v, s')) (hv : truth v.2 = false) (hb : b.eval c ty s' = liftC (.error e)) :
    (E.bin c!"||" a b).eval c ty s = liftC (.error e) := by
  simp [E.eval, ha, hv, hb, map_liftC_err]

theorem lit_eq {n : Nat} (h : n < 2147483648) (s : Store) : (lit n).eval c ty s = pure ((intT, .num n), s) := by
  simp [E.eval, constType, h, map_liftC_ok]

theorem not_num {a : E} {s s' : Store} {t : T} {n : Int} (h : a.eval c ty s = pure ((t, .num n), s')) : (E.unary c!"!" a).eval c ty s = pure (flag (decide (n = 0)), s') := by
  simp [E.eval, h, unaryOp, map_liftC_ok]

theorem not_ptr {a : E} {s s' : Store} {t : T} {o : Str} {i : Int} (h : a.eval c ty s = pure ((t, .ptr o i), s')) : (E.unary c!"!" a).eval c ty s = pure (flag false, s') := by
  simp [E.eval, h, unaryOp, truth, map_liftC_ok]

theorem not_err {a : E} {s : Store} {e : Err} (h : a.eval c ty s = liftC (.error e)) : (E.unary c!"!" a).eval c ty s = liftC (.error e) := by
  simp [E.eval, h, liftC_err]

theorem expr_eq {e : E} {s s' : Store} {v : T × V} (h : e.eval c ty s = pure (v, s')) : (S.expr e).exec c ty s = pure (.next s') := by
  simp [S.exec, h]

theorem assign_local {x : Str} {e : E} {s : Store} {l l' : List (Str × T × V)} {M : Mem} {t u : T} {v w old : V} (he : e.eval c ty s = pure ((u, v), ⟨l, M⟩))
    (hx : find x l = some (t, old)) (hw : convert t v = .ok w) (hl : replace x (t, w) l = some l') : (E.assign [] (.var x) e).eval c ty s = pure ((t, w), ⟨l', M⟩) := by
  simp [E.eval, E.place, he, hx, hw, hl, put, liftC_ok, map_liftC_ok]

theorem deref_place {a : E} {s s' : Store} {v : T × V} {p : T × Place} (h : a.eval c ty s = pure (v, s')) (hp : target v = .ok p) : (E.unary c!"*" a).place c ty s = pure (p, s') := by
  simp [E.place, h, hp, map_liftC_ok]

theorem assign_place {a e : E} {s s' s'' s3 : Store} {t u : T} {v w : V} {p : Place} (he : e.eval c ty s = pure ((u, v), s')) (hp : a.place c ty s' = pure ((t, p), s''))
    (hw : convert t v = .ok w) (hs : put s'' p w = .ok s3) : (E.assign [] a e).eval c ty s = pure ((t, w), s3) := by
  simp [E.eval, he, hp, hw, hs, liftC_ok, map_liftC_ok]

theorem and_left {a b : E} {s s' : Store} {v : T × V} (ha : a.eval c ty s = pure (v, s')) (hv : truth v.2 = false) : (E.bin c!"&&" a b).eval c ty s = pure (flag false, s') := by
  simp [E.eval, ha, hv]

theorem and_right {a b : E} {s s' s'' : Store} {v w : T × V} (ha : a.eval c ty s = pure (v, s')) (hv : truth v.2 = true) (hb : b.eval c ty s' = pure (w, s'')) :
    (E.bin c!"&&" a b).eval c ty s = pure (flag (truth w.2), s'') := by
  simp [E.eval, ha, hv, hb]

theorem and_fail {a b : E} {s s' : Store} {v : T × V} {e : Err} (ha : a.eval c ty s = pure (v, s')) (hv : truth v.2 = true) (hb : b.eval c ty s' = liftC (.error e)) :
    (E.bin c!"&&" a b).eval c ty s = liftC (.error e) := by
  simp [E.eval, ha, hv, hb, map_liftC_err]

theorem leave_same {l l' : List (Str × T × V)} {M M' : Mem} (h : l'.length = l.length) : leave ⟨l, M⟩ ⟨l', M'⟩ = ⟨l', M'⟩ := by simp [leave, h]

end

theorem small_mod {a b : Nat} (h : b < 256) : a &&& b = (a % 256) &&& b := by
  have h1 : a &&& b < 256 := Nat.lt_of_le_of_lt Nat.and_le_right h
  have h2 := Nat.and_mod_two_pow (a := a) (b := b) (n := 8)
  rw [Nat.mod_eq_of_lt (by simpa using h1), Nat.mod_eq_of_lt (a := b) (by simpa using h)] at h2
  exact h2

theorem char_and (M : Mem) (b k : UInt8) : binary M c!"&" (charT, .num (schar b)) (intT, .num k.toNat) = .ok (intT, .num (b &&& k).toNat) := by
  have hk := k.toNat_lt
  have hb := schar_range b
  have hm := schar_mod b
  have e1 : Int.bmod (schar b) 4294967296 = schar b := bmod32 (by omega) (by omega)
  have e2 : Int.bmod (k.toNat : Int) 4294967296 = k.toNat := bmod32 (by omega) (by omega)
  have e3 : (k.toNat : Int) % 4294967296 = k.toNat := by omega
  have e4 : (schar b % 4294967296).toNat % 256 = b.toNat := by omega
  have e5 : (schar b % 4294967296).toNat &&& k.toNat = (b &&& k).toNat := by
    rw [small_mod hk, e4, UInt8.toNat_and]
  have hr := (b &&& k).toNat_lt
  have e6 : Int.bmod ((b &&& k).toNat : Int) 4294967296 = (b &&& k).toNat := bmod32 (by omega) (by omega)
  simp [binary, isInt, promote, usual, conv, arith, e1, e2, bits, e3] at e5 e6 ⊢
  rw [e5]
  exact_mod_cast e6

theorem int_ne (M : Mem) {a b : Nat} (ha : a < 2147483648) (hb : b < 2147483648) : binary M c!"!=" (intT, .num a) (intT, .num b) = .ok (flag (decide (a ≠ b))) := by
  have e1 : Int.bmod (a : Int) 4294967296 = a := bmod32 (by omega) (by omega)
  have e2 : Int.bmod (b : Int) 4294967296 = b := bmod32 (by omega) (by omega)
  simp [binary, isInt, promote, usual, conv, arith, e1, e2]

theorem int_shl (M : Mem) {a : Nat} (ha : a < 2 ^ 25) : binary M c!"<<" (intT, .num a) (intT, .num (6 : Nat)) = .ok (intT, .num (a <<< 6 : Nat)) := by
  have h : (-2147483648 : Int) ≤ a * 64 ∧ (a : Int) * 64 < 2147483648 := by omega
  have h0 : ¬ ((a : Int) < 0) := by omega
  simp [binary, isInt, promote, shift, result, h, h0, Nat.shiftLeft_eq]

theorem int_or (M : Mem) {a b : Nat} (ha : a < 2 ^ 31) (hb : b < 2 ^ 31) : binary M c!"|" (intT, .num a) (intT, .num b) = .ok (intT, .num (a ||| b : Nat)) := by
  have e1 : Int.bmod (a : Int) 4294967296 = a := bmod32 (by omega) (by omega)
  have e2 : Int.bmod (b : Int) 4294967296 = b := bmod32 (by omega) (by omega)
  have e3 : (a : Int) % 4294967296 = a := by omega
  have e4 : (b : Int) % 4294967296 = b := by omega
  have hr := Nat.or_lt_two_pow ha hb
  have e5 : Int.bmod ((a ||| b : Nat) : Int) 4294967296 = (a ||| b : Nat) := bmod32 (by omega) (by omega)
  simp [binary, isInt, promote, usual, conv, arith, e1, e2, bits, e3, e4]
  exact_mod_cast e5

/-! ## The decoder -/

/-- What the text takes from the headers: NULL. -/
def utf8Headers : Headers where
  const x := if x = c!"NULL" then some (.ptr .void, .null) else none
  struct _ := none

/-- The value of `end`: NULL or a pointer to the element `e` of the object. -/
def endAt (o : Str) : Option Nat → V
  | none => .null
  | some e => .ptr o (e : Int)

theorem endAt_defined (o : Str) (e : Option Nat) : endAt o e ≠ .undef := by cases e <;> simp [endAt]

/-- The local variables of the decoder. -/
def decodeVars (w : V) (o : Str) (i : Nat) (e : Option Nat) (q : V) : List (Str × T × V) :=
  [(c!"cp", intT, w), (c!"s", strT, .ptr o (i : Int)), (c!"end", strT, endAt o e), (c!"codepoint", .ptr intT, q)]

/-- The distance to the end. -/
def limit (e : Option Nat) (i : Nat) : Option Nat := e.map (· - i)

/-- The end is not before `i`. -/
def Before (i : Nat) (e : Option Nat) : Prop := ∀ n, e = some n → i ≤ n

theorem limit_zero {e : Option Nat} {i : Nat} (h : Before i e) : limit e i = some 0 ↔ e = some i := by
  cases e with
  | none => simp [limit]
  | some n =>
    have := h n rfl
    simp [limit]
    omega

theorem Before.next {e : Option Nat} {i : Nat} (h : Before i e) (h' : e ≠ some i) : Before (i + 1) e := by
  intro n hn
  have := h n hn
  have : n ≠ i := by rintro rfl; exact h' hn
  omega

theorem adv_limit (e : Option Nat) (i : Nat) : adv (limit e i) = limit e (i + 1) := by
  cases e <;> simp [adv, limit]
  omega

section
variable {c : Ctx} {ty : Str → Option T} {M : Mem} {o : Str} {s : List UInt8} {e : Option Nat} {q w : V} {i : Nat}

theorem null_eq (hh : c.headers = utf8Headers) (ht : ty c!"NULL" = none) {l : List (Str × T × V)} (hl : find c!"NULL" l = none) :
    (E.var c!"NULL").eval c ty ⟨l, M⟩ = pure ((.ptr .void, .null), ⟨l, M⟩) := by
  simp [E.eval, hl, outer, ht, hh, utf8Headers, map_liftC_ok]

theorem ret_null (hh : c.headers = utf8Headers) (ht : ty c!"NULL" = none) {l : List (Str × T × V)} (hl : find c!"NULL" l = none) :
    retNull.exec c ty ⟨l, M⟩ = pure (.ret (.ptr .void, .null) M) := ret_eq (null_eq hh ht hl)

theorem atEnd_eq {l : List (Str × T × V)} (hs : find c!"s" l = some (strT, .ptr o (i : Int))) (he : find c!"end" l = some (strT, endAt o e)) :
    atEnd.eval c ty ⟨l, M⟩ = pure (flag (decide (e = some i)), ⟨l, M⟩) := by
  refine bin_op (by decide) (by decide) (local_eq hs) (local_eq he (endAt_defined o e)) ?_
  cases e with
  | none => simp [endAt, binary]
  | some n =>
    have : (i : Int) = n ↔ n = i := by omega
    simp [endAt, binary, this]

theorem mask_s (k : UInt8) {n : Nat} (hn : k.toNat = n) {l : List (Str × T × V)} (hs : find c!"s" l = some (strT, .ptr o (i : Int))) (ho : find o M = some (bytes s))
    {b : UInt8} {cs : List UInt8} (h : s.drop i = b :: cs) :
    (E.bin c!"&" readS (lit n)).eval c ty ⟨l, M⟩ = pure ((intT, .num (b &&& k).toNat), ⟨l, M⟩) := by
  subst hn
  exact bin_op (by decide) (by decide) (read_var hs ho h) (lit_eq (by have := k.toNat_lt; omega) _) (char_and M b k)

theorem mask_ub {n : Nat} {l : List (Str × T × V)} (hs : find c!"s" l = some (strT, .ptr o (i : Int))) (ho : find o M = some (bytes s)) (h : s.drop i = []) :
    (E.bin c!"&" readS (lit n)).eval c ty ⟨l, M⟩ = liftC (.error .ub) :=
  bin_left (by decide) (by decide) (read_var_ub hs ho h)

theorem vars_s : find c!"s" (decodeVars w o i e q) = some (strT, .ptr o (i : Int)) := by simp [decodeVars, find]
theorem vars_end : find c!"end" (decodeVars w o i e q) = some (strT, endAt o e) := by simp [decodeVars, find]
theorem vars_cp : find c!"cp" (decodeVars w o i e q) = some (intT, w) := by simp [decodeVars, find]
theorem vars_codepoint : find c!"codepoint" (decodeVars w o i e q) = some (.ptr intT, q) := by simp [decodeVars, find]
theorem vars_null : find c!"NULL" (decodeVars w o i e q) = none := by simp [decodeVars, find]
theorem vars_move : replace c!"s" (strT, .ptr o ((i + 1 : Nat) : Int)) (decodeVars w o i e q) = some (decodeVars w o (i + 1) e q) := by simp [decodeVars, replace]
theorem vars_set {v : V} : replace c!"cp" (intT, v) (decodeVars w o i e q) = some (decodeVars v o i e q) := by simp [decodeVars, replace]

theorem mask_next (k : UInt8) {n : Nat} (hn : k.toNat = n) (ho : find o M = some (bytes s)) {b : UInt8} {cs : List UInt8} (h : s.drop i = b :: cs) :
    (E.bin c!"&" (next c!"s") (lit n)).eval c ty ⟨decodeVars w o i e q, M⟩ = pure ((intT, .num (b &&& k).toNat), ⟨decodeVars w o (i + 1) e q, M⟩) := by
  subst hn
  exact bin_op (by decide) (by decide) (next_var vars_s ho h vars_move) (lit_eq (by have := k.toNat_lt; omega) _) (char_and M b k)

theorem convert_int {n : Nat} (h : n < 2 ^ 31) : convert intT (.num n) = .ok (.num n) := by
  simp [convert, conv, bmod32 (n := (n : Int)) (by omega) (by omega)]

theorem setCp_eq {a : E} {st : Store} {w' : V} {n : Nat} (h : n < 2 ^ 31) (ha : a.eval c ty st = pure ((intT, .num n), ⟨decodeVars w' o i e q, M⟩)) :
    (setCp a).exec c ty st = pure (.next ⟨decodeVars (.num n) o i e q, M⟩) :=
  expr_eq (assign_local ha vars_cp (convert_int h) vars_set)

theorem lead_exec (k : UInt8) {n : Nat} (hn : k.toNat = n) (ho : find o M = some (bytes s)) {b : UInt8} {cs : List UInt8} (h : s.drop i = b :: cs) :
    (lead n).exec c ty ⟨decodeVars w o i e q, M⟩ = pure (.next ⟨decodeVars (.num (b &&& k).toNat) o (i + 1) e q, M⟩) :=
  setCp_eq (by have := (b &&& k).toNat_lt; omega) (mask_next k hn ho h)

theorem clear_eq (k : UInt8) {n : Nat} (hn : k.toNat = n) (ho : find o M = some (bytes s)) {b : UInt8} {cs : List UInt8} (h : s.drop i = b :: cs) :
    (clear n).eval c ty ⟨decodeVars w o i e q, M⟩ = pure (flag (decide (b &&& k = 0)), ⟨decodeVars w o i e q, M⟩) := by
  have := not_num (mask_s (c := c) (ty := ty) (l := decodeVars w o i e q) k hn vars_s ho h)
  have h' : ((b &&& k).toNat : Int) = 0 ↔ b &&& k = 0 := by
    rw [← UInt8.toNat_inj]; simp
  simp only [h'] at this
  exact this

theorem clear_ub {n : Nat} (ho : find o M = some (bytes s)) (h : s.drop i = []) : (clear n).eval c ty ⟨decodeVars w o i e q, M⟩ = liftC (.error .ub) :=
  not_err (mask_ub vars_s ho h)

/-- The ways on from a continuation byte. -/
def onward (o : Str) (e : Option Nat) (q : V) (M : Mem) (i : Nat) (f : Store → D Res) : C (Option (Nat × Pos)) → D Res
  | .error r => liftC (.error r)
  | .ok none => pure (.ret (.ptr .void, .null) M)
  | .ok (some (cp, _)) => f ⟨decodeVars (.num cp) o (i + 1) e q, M⟩

theorem cont_exec (hh : c.headers = utf8Headers) (ht : ty c!"NULL" = none) (ho : find o M = some (bytes s)) (hb : Before i e) {cp : Nat} (hcp : cp < 2 ^ 25) (rest : S) :
    (contTo rest).exec c ty ⟨decodeVars (.num cp) o i e q, M⟩ = onward o e q M i (rest.exec c ty) (cont cp (s.drop i, limit e i)) := by
  have hend := atEnd_eq (c := c) (ty := ty) (M := M) (l := decodeVars (.num (cp : Int)) o i e q) vars_s vars_end
  unfold contTo
  by_cases he : e = some i
  · simp only [cont, (limit_zero hb).mpr he, if_true, onward]
    simp only [he, decide_true] at hend ⊢
    refine seq_ret ?_
    rw [if_then (or_left hend rfl) rfl]
    exact ret_null hh ht vars_null
  · simp only [he, decide_false] at hend
    have hl : ¬ limit e i = some 0 := fun h => he ((limit_zero hb).mp h)
    simp only [cont, hl, if_false]
    cases hd : s.drop i with
    | nil =>
      refine seq_err (if_err (or_err hend rfl (bin_left (by decide) (by decide) (mask_ub vars_s ho hd))))
    | cons b cs =>
      dsimp only
      have h1 := bin_op (c := c) (ty := ty) (op := c!"!=") (by decide) (by decide) (mask_s (n := 192) (l := decodeVars (.num (cp : Int)) o i e q) 0xc0 rfl vars_s ho hd) (lit_eq (n := 128) (by decide) _)
        (int_ne M (by have := (b &&& 0xc0).toNat_lt; omega) (by decide))
      have h2 := or_right hend rfl h1
      rw [flag_truth] at h2
      have h3 : (b &&& 0xc0).toNat ≠ 128 ↔ b &&& 0xc0 ≠ 0x80 := by
        rw [Ne, Ne, ← UInt8.toNat_inj]; rfl
      rw [decide_eq_decide.mpr h3] at h2
      by_cases h4 : b &&& 0xc0 ≠ 0x80
      · rw [if_pos h4]
        rw [decide_eq_true h4] at h2
        refine seq_ret ?_
        rw [if_then h2 rfl]
        exact ret_null hh ht vars_null
      · rw [if_neg h4]
        rw [decide_eq_false h4] at h2
        rw [seq_next (s' := ⟨decodeVars (.num cp) o i e q, M⟩) (by rw [if_else h2 rfl]; rfl)]
        have hm := (b &&& 0x3f).toNat_lt
        have h5 := bin_op (c := c) (ty := ty) (op := c!"<<") (by decide) (by decide) (local_eq (M := M) (vars_cp (w := .num (cp : Int)) (o := o) (i := i) (e := e) (q := q)))
          (lit_eq (n := 6) (by decide) _) (int_shl M hcp)
        have hs : cp <<< 6 < 2 ^ 31 := by rw [Nat.shiftLeft_eq]; omega
        have h6 := bin_op (op := c!"|") (by decide) (by decide) h5 (mask_next (n := 63) 0x3f rfl ho hd) (int_or M hs (by omega))
        rw [seq_next (setCp_eq (Nat.or_lt_two_pow hs (by omega)) h6)]
        rfl

/-- What a continuation byte leaves. -/
theorem cont_some {cp cp' : Nat} {p : Pos} (hb : Before i e) (h : cont cp (s.drop i, limit e i) = .ok (some (cp', p))) :
    p = (s.drop (i + 1), limit e (i + 1)) ∧ Before (i + 1) e ∧ i + 1 ≤ s.length ∧ ∀ k, cp < 2 ^ k → cp' < 2 ^ (k + 6) := by
  simp only [cont] at h
  split at h; · cases h
  rename_i hl
  split at h; · cases h
  rename_i b cs hd
  split at h; · cases h
  simp only [Except.ok.injEq, Option.some.injEq, Prod.mk.injEq] at h
  obtain ⟨rfl, rfl⟩ := h
  have hlt := drop_lt hd
  refine ⟨by rw [drop_next hd, adv_limit], hb.next fun h => hl ((limit_zero hb).mpr h), by omega, fun k hk => ?_⟩
  have hm : (b &&& 0x3f).toNat < 64 := by
    rw [UInt8.toNat_and]
    exact Nat.lt_of_le_of_lt Nat.and_le_right (by decide)
  refine Nat.or_lt_two_pow ?_ (Nat.lt_of_lt_of_le hm ?_)
  · rw [Nat.shiftLeft_eq, Nat.pow_add]; omega
  · rw [Nat.pow_add]; have := Nat.two_pow_pos k; omega

theorem cont_then (hh : c.headers = utf8Headers) (ht : ty c!"NULL" = none) (ho : find o M = some (bytes s)) (hb : Before i e) {cp : Nat} (hcp : cp < 2 ^ 25) (rest : S) :
    (S.seq (contTo .skip) rest).exec c ty ⟨decodeVars (.num cp) o i e q, M⟩ = onward o e q M i (rest.exec c ty) (cont cp (s.drop i, limit e i)) := by
  have h := cont_exec (c := c) (ty := ty) (q := q) hh ht ho hb hcp .skip
  revert h
  rcases cont cp (s.drop i, limit e i) with r | _ | ⟨cp', p⟩
  · exact fun h => seq_err h
  · exact fun h => seq_ret h
  · exact fun h => seq_next h

/-- How the choice by the first byte ends. -/
def chosen (o : Str) (e : Option Nat) (q : V) (M : Mem) (n : Nat) : C (Option (Nat × Pos)) → D Res
  | .error r => liftC (.error r)
  | .ok none => pure (.ret (.ptr .void, .null) M)
  | .ok (some (cp, p)) => pure (.next ⟨decodeVars (.num cp) o (n - p.1.length) e q, M⟩)

/-- `valid_unicode` is among the functions. -/
def Unicode (c : Ctx) (M : Mem) : Prop :=
  ∃ g, find c!"valid_unicode" c.funcs = some g ∧ ∀ n : Nat, n < 2 ^ 31 → g [(intT, .num n)] M = pure ((.bool, .num (if validUnicode n then 1 else 0)), M)

theorem last_exec (hh : c.headers = utf8Headers) (ht : ty c!"NULL" = none) (hu : Unicode c M) (ho : find o M = some (bytes s)) (hb : Before i e) {cp : Nat} (hcp : cp < 2 ^ 25) :
    lastS.exec c ty ⟨decodeVars (.num cp) o i e q, M⟩ = chosen o e q M s.length (last cp (s.drop i, limit e i)) := by
  unfold lastS
  rw [cont_exec hh ht ho hb hcp]
  unfold last
  rcases hc : cont cp (s.drop i, limit e i) with r | _ | ⟨cp', p⟩
  · rfl
  · rfl
  · obtain ⟨rfl, hb', hl, hk⟩ := cont_some hb hc
    have hcp' := hk 25 hcp
    obtain ⟨g, hf, hg⟩ := hu
    have h1 := not_num (call1_eq (c := c) (ty := ty) (local_eq (vars_cp (w := .num (cp' : Int)) (o := o) (i := i + 1) (e := e) (q := q))) hf (hg cp' hcp'))
    simp only [onward]
    by_cases hv : validUnicode cp' = true
    · simp only [hv, if_true] at h1 ⊢
      rw [seq_next (s' := ⟨decodeVars (.num cp') o (i + 1) e q, M⟩) (by rw [if_else h1 rfl]; rfl)]
      simp only [chosen, List.length_drop, show s.length - (s.length - (i + 1)) = i + 1 by omega]
      rfl
    · simp only [hv, Bool.false_eq_true, if_false] at h1 ⊢
      refine seq_ret ?_
      rw [if_then h1 rfl]
      exact ret_null hh ht vars_null

theorem last2_exec (hh : c.headers = utf8Headers) (ht : ty c!"NULL" = none) (hu : Unicode c M) (ho : find o M = some (bytes s)) (hb : Before i e) {cp : Nat} (hcp : cp < 2 ^ 19) :
    (S.seq (contTo .skip) lastS).exec c ty ⟨decodeVars (.num cp) o i e q, M⟩ = chosen o e q M s.length (last2 cp (s.drop i, limit e i)) := by
  rw [cont_then hh ht ho hb (by omega)]
  unfold last2
  rcases hc : cont cp (s.drop i, limit e i) with r | _ | ⟨cp', p⟩
  · rfl
  · rfl
  · obtain ⟨rfl, hb', hl, hk⟩ := cont_some hb hc
    exact last_exec hh ht hu ho hb' (hk 19 hcp)

theorem last3_exec (hh : c.headers = utf8Headers) (ht : ty c!"NULL" = none) (hu : Unicode c M) (ho : find o M = some (bytes s)) (hb : Before i e) {cp : Nat} (hcp : cp < 2 ^ 13) :
    (S.seq (contTo .skip) (S.seq (contTo .skip) lastS)).exec c ty ⟨decodeVars (.num cp) o i e q, M⟩ = chosen o e q M s.length (last3 cp (s.drop i, limit e i)) := by
  rw [cont_then hh ht ho hb (by omega)]
  unfold last3
  rcases hc : cont cp (s.drop i, limit e i) with r | _ | ⟨cp', p⟩
  · rfl
  · rfl
  · obtain ⟨rfl, hb', hl, hk⟩ := cont_some hb hc
    exact last2_exec hh ht hu ho hb' (hk 13 hcp)

theorem seq_assoc {a b d : S} {st : Store} : (S.seq (S.seq a b) d).exec c ty st = (S.seq a (S.seq b d)).exec c ty st := by
  simp only [S.exec, bind_assoc]
  congr 1
  funext r
  cases r <;> simp

theorem seq_congr {a a' b : S} {st st' : Store} (h : a.exec c ty st = a'.exec c ty st') : (S.seq a b).exec c ty st = (S.seq a' b).exec c ty st' := by
  simp only [S.exec, h]

theorem mask_lt (b k : UInt8) : (b &&& k).toNat ≤ k.toNat := by
  rw [UInt8.toNat_and]
  exact Nat.and_le_right

/-- charstr.c:461-490. -/
theorem chain_exec (hh : c.headers = utf8Headers) (ht : ty c!"NULL" = none) (hu : Unicode c M) (ho : find o M = some (bytes s)) (hb : Before i e) :
    (S.seq noS (.seq chainS .skip)).exec c ty ⟨decodeVars .undef o i e q, M⟩ = chosen o e q M s.length (decode (s.drop i, limit e i)) := by
  have hend := atEnd_eq (c := c) (ty := ty) (M := M) (l := decodeVars .undef o i e q) vars_s vars_end
  have hnot := not_ptr (c := c) (ty := ty) (local_eq (M := M) (vars_s (w := .undef) (o := o) (i := i) (e := e) (q := q)))
  have hor := or_right hnot rfl hend
  rw [flag_truth] at hor
  by_cases he : e = some i
  · simp only [decode, (limit_zero hb).mpr he, if_true, chosen]
    simp only [he, decide_true] at hor ⊢
    refine seq_ret ?_
    rw [noS, if_then hor rfl]
    exact ret_null hh ht vars_null
  · simp only [he, decide_false] at hor
    have hl : ¬ limit e i = some 0 := fun h => he ((limit_zero hb).mp h)
    rw [seq_next (s' := ⟨decodeVars .undef o i e q, M⟩) (by rw [noS, if_else hor rfl]; rfl)]
    simp only [decode, hl, if_false]
    cases hd : s.drop i with
    | nil => exact seq_err (if_err (clear_ub ho hd))
    | cons b cs =>
      dsimp only
      have hlt := drop_lt hd
      have hb' := hb.next he
      have h128 := clear_eq (c := c) (ty := ty) (w := .undef) (e := e) (q := q) (n := 128) 0x80 rfl ho hd
      have h64 := clear_eq (c := c) (ty := ty) (w := .undef) (e := e) (q := q) (n := 64) 0x40 rfl ho hd
      have h32 := clear_eq (c := c) (ty := ty) (w := .undef) (e := e) (q := q) (n := 32) 0x20 rfl ho hd
      have h16 := clear_eq (c := c) (ty := ty) (w := .undef) (e := e) (q := q) (n := 16) 0x10 rfl ho hd
      have h8 := mask_s (c := c) (ty := ty) (l := decodeVars .undef o i e q) (n := 8) 0x08 rfl vars_s ho hd
      have hcs := drop_next hd
      have ha := adv_limit e i
      have skipped : ∀ {r : D Res} {x : C (Option (Nat × Pos))}, chainS.exec c ty ⟨decodeVars .undef o i e q, M⟩ = r → r = chosen o e q M s.length x →
          (S.seq chainS .skip).exec c ty ⟨decodeVars .undef o i e q, M⟩ = chosen o e q M s.length x := by
        rintro r (r' | _ | ⟨cp, p⟩) rfl h
        · exact seq_err h
        · exact seq_ret h
        · exact seq_next h
      refine skipped rfl ?_
      unfold chainS
      by_cases c128 : b &&& 0x80 = 0
      · simp only [c128, decide_true, if_true] at h128 ⊢
        rw [if_then h128 rfl, lead_exec (n := 127) 0x7f rfl ho hd]
        have : cs.length = s.length - (i + 1) := by rw [← hcs]; simp
        simp only [chosen, this, show s.length - (s.length - (i + 1)) = i + 1 by omega]
      · simp only [c128, decide_false, if_false] at h128 ⊢
        rw [if_else h128 rfl]
        by_cases c64 : b &&& 0x40 = 0
        · simp only [c64, decide_true, if_true] at h64 ⊢
          rw [if_then h64 rfl]
          exact ret_null hh ht vars_null
        · simp only [c64, decide_false, if_false] at h64 ⊢
          rw [if_else h64 rfl, ← hcs, ha]
          by_cases c32 : b &&& 0x20 = 0
          · simp only [c32, decide_true, if_true] at h32 ⊢
            rw [seq_congr (if_then h32 rfl), seq_next (lead_exec (n := 31) 0x1f rfl ho hd)]
            exact last_exec hh ht hu ho hb' (Nat.lt_of_le_of_lt (mask_lt b 0x1f) (by decide))
          · simp only [c32, decide_false, if_false] at h32 ⊢
            rw [seq_congr (if_else h32 rfl)]
            unfold threeS
            rw [seq_assoc]
            by_cases c16 : b &&& 0x10 = 0
            · simp only [c16, decide_true, if_true] at h16 ⊢
              rw [seq_congr (if_then h16 rfl), seq_next (lead_exec (n := 15) 0x0f rfl ho hd)]
              exact last2_exec hh ht hu ho hb' (Nat.lt_of_le_of_lt (mask_lt b 0x0f) (by decide))
            · simp only [c16, decide_false, if_false] at h16 ⊢
              rw [seq_congr (if_else h16 rfl)]
              unfold fourS
              rw [seq_assoc]
              have h0 : truth (.num ((b &&& 8).toNat : Int)) = decide (b &&& 8 ≠ 0) := by
                generalize b &&& 8 = x
                by_cases h : x = 0
                · rw [h]; rfl
                · have : ¬ x.toNat = 0 := fun h' => h (UInt8.toNat_inj.mp h')
                  simp [truth, h, this]
              by_cases c8 : b &&& 8 ≠ 0
              · rw [if_pos c8]
                refine seq_ret ?_
                rw [if_then h8 (by rw [h0]; simpa using c8)]
                exact ret_null hh ht vars_null
              · rw [if_neg c8, seq_next (s' := ⟨decodeVars .undef o i e q, M⟩) (by rw [if_else h8 (by rw [h0]; simpa using c8)]; rfl)]
                rw [seq_assoc, seq_next (lead_exec (n := 7) 0x07 rfl ho hd)]
                exact last3_exec hh ht hu ho hb' (Nat.lt_of_le_of_lt (mask_lt b 0x07) (by decide))

/-! ## Calls of the decoder -/

/-- The argument `codepoint`, which is NULL or points to an `int`. -/
def outArg : Option V → V
  | none => .null
  | some _ => .ptr c!"*codepoint" 0

/-- The memory with the `int`. -/
def outMem (x : Option V) (m : Mem) : Mem :=
  match x with
  | none => m
  | some w => (c!"*codepoint", [[([], w)]]) :: m

theorem outArg_defined (x : Option V) : outArg x ≠ .undef := by cases x <;> simp [outArg]

theorem find_out {x : Option V} {m : Mem} (h : o ≠ c!"*codepoint") : find o (outMem x m) = find o m := by
  cases x <;> simp [outMem, find, h]

/-- charstr.c:491-494. -/
theorem store_exec {x : Option V} {m : Mem} {cp : Nat} (hcp : cp < 2 ^ 31) : storeS.exec c ty ⟨decodeVars (.num cp) o i e (outArg x), outMem x m⟩ =
    pure (.ret (strT, .ptr o (i : Int)) (outMem (x.map fun _ => .num cp) m)) := by
  have h0 := local_eq (c := c) (ty := ty) (M := outMem x m) (vars_codepoint (w := .num (cp : Int)) (o := o) (i := i) (e := e) (q := outArg x)) (outArg_defined x)
  cases x with
  | none =>
    unfold storeS
    rw [seq_next (by rw [if_else h0 rfl]; rfl)]
    exact seq_ret (ret_eq (local_eq vars_s))
  | some w =>
    unfold storeS
    rw [seq_next (s' := ⟨decodeVars (.num cp) o i e (outArg (some w)), outMem (some (.num cp)) m⟩)]
    · exact seq_ret (ret_eq (local_eq vars_s))
    · rw [if_then h0 rfl]
      refine expr_eq (v := (intT, .num cp)) ?_
      have h1 := local_eq (c := c) (ty := ty) (M := outMem (some w) m) (vars_cp (w := .num (cp : Int)) (o := o) (i := i) (e := e) (q := outArg (some w)))
      have h2 : put ⟨decodeVars (.num cp) o i e (outArg (some w)), outMem (some w) m⟩ (.mem c!"*codepoint" 0 []) (.num cp) =
          .ok ⟨decodeVars (.num cp) o i e (outArg (some w)), outMem (some (.num cp)) m⟩ := by
        simp [put, outMem, find, replace]
      exact assign_place h1 (deref_place h0 rfl) (convert_int hcp) h2

theorem decode_small {p : Pos} {cp : Nat} {p' : Pos} (h : decode p = .ok (some (cp, p'))) : cp < 2 ^ 31 := by
  have key : ∀ {cp cp' : Nat} {p p' : Pos} {k : Nat}, cont cp p = .ok (some (cp', p')) → cp < 2 ^ k → cp' < 2 ^ (k + 6) := by
    intro cp cp' p p' k h hk
    obtain ⟨s, lim⟩ := p
    simp only [cont] at h
    split at h; · cases h
    split at h; · cases h
    rename_i b cs
    split at h; · cases h
    simp only [Except.ok.injEq, Option.some.injEq, Prod.mk.injEq] at h
    obtain ⟨rfl, rfl⟩ := h
    refine Nat.or_lt_two_pow ?_ (Nat.lt_of_lt_of_le (Nat.lt_of_le_of_lt (mask_lt b 0x3f) (show (0x3f : UInt8).toNat < 64 by decide)) ?_)
    · rw [Nat.shiftLeft_eq, Nat.pow_add]; omega
    · rw [Nat.pow_add]; have := Nat.two_pow_pos k; omega
  have l1 : ∀ {cp cp' : Nat} {p p' : Pos}, last cp p = .ok (some (cp', p')) → cp < 2 ^ 25 → cp' < 2 ^ 31 := by
    intro cp cp' p p' h hk
    unfold last at h
    split at h <;> try cases h
    rename_i hc
    split at h <;> cases h
    exact key hc hk
  have l2 : ∀ {cp cp' : Nat} {p p' : Pos}, last2 cp p = .ok (some (cp', p')) → cp < 2 ^ 19 → cp' < 2 ^ 31 := by
    intro cp cp' p p' h hk
    unfold last2 at h
    split at h <;> try cases h
    rename_i hc
    exact l1 h (key hc hk)
  have l3 : ∀ {cp cp' : Nat} {p p' : Pos}, last3 cp p = .ok (some (cp', p')) → cp < 2 ^ 13 → cp' < 2 ^ 31 := by
    intro cp cp' p p' h hk
    unfold last3 at h
    split at h <;> try cases h
    rename_i hc
    exact l2 h (key hc hk)
  obtain ⟨s, lim⟩ := p
  simp only [decode] at h
  split at h; · cases h
  split at h; · cases h
  rename_i b cs
  split at h
  · simp only [Except.ok.injEq, Option.some.injEq, Prod.mk.injEq] at h
    have := (b &&& 0x7f).toNat_lt
    omega
  split at h; · cases h
  split at h; · exact l1 h (Nat.lt_of_le_of_lt (mask_lt b 0x1f) (by decide))
  split at h; · exact l2 h (Nat.lt_of_le_of_lt (mask_lt b 0x0f) (by decide))
  split at h; · cases h
  exact l3 h (Nat.lt_of_le_of_lt (mask_lt b 0x07) (by decide))

/-- The result of a call of the decoder and the memory after it. -/
def decoded (o : Str) (n : Nat) (x : Option V) (m : Mem) : C (Option (Nat × Pos)) → D ((T × V) × Mem)
  | .error r => liftC (.error r)
  | .ok none => pure ((strT, .null), outMem x m)
  | .ok (some (cp, p)) => pure ((strT, .ptr o ((n - p.1.length : Nat) : Int)), outMem (x.map fun _ => .num cp) m)

theorem decode_invoke {x : Option V} {m : Mem} (hh : c.headers = utf8Headers) (ht : ty c!"NULL" = none) (hu : Unicode c (outMem x m)) (hne : o ≠ c!"*codepoint")
    (ho : find o m = some (bytes s)) (hb : Before i e) (t t' t'' : T) :
    invoke c ty strT decodeParams decodeBody [(t, .ptr o (i : Int)), (t', endAt o e), (t'', outArg x)] (outMem x m) =
      decoded o s.length x m (decode (s.drop i, limit e i)) := by
  have hbind : bindArgs decodeParams [(t, .ptr o (i : Int)), (t', endAt o e), (t'', outArg x)] =
      .ok [(c!"s", strT, .ptr o (i : Int)), (c!"end", strT, endAt o e), (c!"codepoint", .ptr intT, outArg x)] := by
    cases e <;> cases x <;> rfl
  have hch := chain_exec (c := c) (ty := ty) (q := outArg x) hh ht hu (by rw [find_out hne, ho]) hb
  have hbody : decodeBody.exec c ty ⟨[(c!"s", strT, .ptr o (i : Int)), (c!"end", strT, endAt o e), (c!"codepoint", .ptr intT, outArg x)], outMem x m⟩ =
      (S.seq (S.seq noS (.seq chainS .skip)) storeS).exec c ty ⟨decodeVars .undef o i e (outArg x), outMem x m⟩ := by
    unfold decodeBody
    rw [seq_next (s' := ⟨decodeVars .undef o i e (outArg x), outMem x m⟩) rfl, seq_assoc]
    simp only [S.exec, bind_assoc]
    congr 1
    funext r
    cases r
    · rfl
    · simp only
      congr 1
      funext r
      cases r <;> rfl
  revert hch
  rcases hd : decode (s.drop i, limit e i) with r | _ | ⟨cp, p⟩
  · exact fun hch => invoke_err hbind (by rw [hbody]; exact seq_err hch)
  · exact fun hch => invoke_ret hbind (by rw [hbody]; exact seq_ret hch) rfl
  · intro hch
    refine invoke_ret hbind (by rw [hbody, seq_next hch]; exact store_exec (decode_small hd)) rfl

theorem decode_at {cp : Nat} {p : Pos} (hb : Before i e) (h : decode (s.drop i, limit e i) = .ok (some (cp, p))) :
    ∃ j, j ≤ s.length ∧ i < j ∧ p = (s.drop j, limit e j) ∧ Before j e := by
  have l1 : ∀ {j cp cp' : Nat} {p : Pos}, Before j e → last cp (s.drop j, limit e j) = .ok (some (cp', p)) → ∃ k, k ≤ s.length ∧ j < k ∧ p = (s.drop k, limit e k) ∧ Before k e := by
    intro j cp cp' p hb h
    unfold last at h
    split at h <;> try cases h
    rename_i hc
    obtain ⟨rfl, hb', hl, _⟩ := cont_some hb hc
    split at h <;> cases h
    exact ⟨j + 1, hl, by omega, rfl, hb'⟩
  have l2 : ∀ {j cp cp' : Nat} {p : Pos}, Before j e → last2 cp (s.drop j, limit e j) = .ok (some (cp', p)) → ∃ k, k ≤ s.length ∧ j < k ∧ p = (s.drop k, limit e k) ∧ Before k e := by
    intro j cp cp' p hb h
    unfold last2 at h
    split at h <;> try cases h
    rename_i hc
    obtain ⟨rfl, hb', hl, _⟩ := cont_some hb hc
    obtain ⟨k, h1, h2, h3⟩ := l1 hb' h
    exact ⟨k, h1, by omega, h3⟩
  have l3 : ∀ {j cp cp' : Nat} {p : Pos}, Before j e → last3 cp (s.drop j, limit e j) = .ok (some (cp', p)) → ∃ k, k ≤ s.length ∧ j < k ∧ p = (s.drop k, limit e k) ∧ Before k e := by
    intro j cp cp' p hb h
    unfold last3 at h
    split at h <;> try cases h
    rename_i hc
    obtain ⟨rfl, hb', hl, _⟩ := cont_some hb hc
    obtain ⟨k, h1, h2, h3⟩ := l2 hb' h
    exact ⟨k, h1, by omega, h3⟩
  simp only [decode] at h
  split at h; · cases h
  rename_i hl
  have hb' := hb.next fun h => hl ((limit_zero hb).mpr h)
  split at h; · cases h
  rename_i b cs hd
  rw [adv_limit, ← drop_next hd] at h
  have hlt := drop_lt hd
  have fin : ∀ {p : Pos}, (∃ k, k ≤ s.length ∧ i + 1 < k ∧ p = (s.drop k, limit e k) ∧ Before k e) → ∃ k, k ≤ s.length ∧ i < k ∧ p = (s.drop k, limit e k) ∧ Before k e := by
    rintro p ⟨k, h1, h2, h3⟩
    exact ⟨k, h1, by omega, h3⟩
  split at h
  · simp only [Except.ok.injEq, Option.some.injEq, Prod.mk.injEq] at h
    exact ⟨i + 1, by omega, by omega, h.2.symm, hb'⟩
  split at h; · cases h
  split at h; · exact fin (l1 hb' h)
  split at h; · exact fin (l2 hb' h)
  split at h; · cases h
  exact fin (l3 hb' h)

/-! ## Validity -/

/-- The decoder is among the functions. -/
def Decoder (c : Ctx) (M : Mem) : Prop :=
  ∃ g, find c!"charstr_decode_utf8_codepoint" c.funcs = some g ∧ ∀ (o : Str) (s : List UInt8) (i : Nat) (e : Option Nat), o ≠ c!"*codepoint" → find o M = some (bytes s) → Before i e →
    ∀ t t' t'' : T, g [(t, .ptr o (i : Int)), (t', endAt o e), (t'', .null)] M = decoded o s.length none M (decode (s.drop i, limit e i))

/-- Validity of what is at `i`. -/
def judged (M : Mem) : C Bool → D Res
  | .error r => liftC (.error r)
  | .ok b => pure (.ret (flag b) M)

theorem call3_eq {f : Str} {a b d : E} {g : List (T × V) → Mem → D ((T × V) × Mem)} {st : Store} {v w u r : T × V} (ha : a.eval c ty st = pure (v, st)) (hb : b.eval c ty st = pure (w, st))
    (hd : d.eval c ty st = pure (u, st)) (hf : find f c.funcs = some g) (hg : g [v, w, u] st.mem = pure (r, st.mem)) : (E.call3 f a b d).eval c ty st = pure (r, st) := by
  simp [E.eval, ha, hb, hd, hf, hg]

theorem call3_err {f : Str} {a b d : E} {g : List (T × V) → Mem → D ((T × V) × Mem)} {st : Store} {v w u : T × V} {r : Err} (ha : a.eval c ty st = pure (v, st))
    (hb : b.eval c ty st = pure (w, st)) (hd : d.eval c ty st = pure (u, st)) (hf : find f c.funcs = some g) (hg : g [v, w, u] st.mem = liftC (.error r)) :
    (S.expr (.assign [] (.var c!"s") (.call3 f a b d))).exec c ty st = liftC (.error r) := by
  simp [S.exec, E.eval, ha, hb, hd, hf, hg, liftC_err, map_liftC_err]

theorem valid_end (hh : c.headers = utf8Headers) (ht : ty c!"NULL" = none) {l : List (Str × T × V)} (hl : find c!"NULL" l = none) {v : V} (hv : v = .null ∨ ∃ o i, v = .ptr o i)
    (hs : find c!"s" l = some (strT, v)) : validEnd.exec c ty ⟨l, M⟩ = pure (.ret (flag (decide (v ≠ .null))) M) := by
  have hd : v ≠ .undef := by rcases hv with rfl | ⟨o, i, rfl⟩ <;> simp
  refine seq_ret (ret_eq (bin_op (by decide) (by decide) (local_eq hs hd) (null_eq hh ht hl) ?_))
  rcases hv with rfl | ⟨o, i, rfl⟩ <;> simp [binary]

/-- The local variables of `charstr_valid_utf8_bounded`. -/
def boundedVars (v : V) (o : Str) (e : Option Nat) : List (Str × T × V) := [(c!"s", strT, v), (c!"end", strT, endAt o e)]

theorem bounded_exec (hh : c.headers = utf8Headers) (ht : ty c!"NULL" = none) (hD : Decoder c M) (hne : o ≠ c!"*codepoint") (ho : find o M = some (bytes s)) :
    ∀ (k i : Nat), (s.drop i).length = k → Before i e →
      boundedBody.exec c ty ⟨boundedVars (.ptr o (i : Int)) o e, M⟩ = judged M (validBounded (s.drop i, limit e i)) := by
  intro k
  induction k using Nat.strongRecOn with
  | ind k ih =>
    intro i hk hb
    have hs : find c!"s" (boundedVars (.ptr o (i : Int)) o e) = some (strT, .ptr o (i : Int)) := by simp [boundedVars, find]
    have hen : find c!"end" (boundedVars (.ptr o (i : Int)) o e) = some (strT, endAt o e) := by simp [boundedVars, find]
    have hcmp : binary M c!"!=" (strT, .ptr o (i : Int)) (strT, endAt o e) = .ok (flag (decide (e ≠ some i))) := by
      cases e with
      | none => simp [endAt, binary]
      | some n =>
        have : (i : Int) = n ↔ n = i := by omega
        simp [endAt, binary, this]
    have hne' := bin_op (c := c) (ty := ty) (by decide) (by decide) (local_eq hs) (local_eq hen (endAt_defined o e)) hcmp
    have hcond := and_right (local_eq (c := c) (ty := ty) (M := M) hs) rfl hne'
    rw [flag_truth] at hcond
    rw [validBounded]
    by_cases he : e = some i
    · rw [if_pos ((limit_zero hb).mpr he)]
      rw [decide_eq_false (by simpa using he)] at hcond
      unfold boundedBody
      rw [while_done hcond rfl, valid_end hh ht (by simp [boundedVars, find]) (Or.inr ⟨_, _, rfl⟩) hs]
      rfl
    · rw [if_neg fun h => he ((limit_zero hb).mp h)]
      rw [decide_eq_true he] at hcond
      obtain ⟨g, hf, hg⟩ := hD
      have hcall := hg o s i e hne ho hb strT strT (.ptr .void)
      have hnull := null_eq (c := c) (ty := ty) (M := M) hh ht (l := boundedVars (.ptr o (i : Int)) o e) (by simp [boundedVars, find])
      unfold boundedBody decodeCall
      split
      · rename_i r hd
        rw [hd] at hcall
        exact while_fail hcond rfl (call3_err (local_eq hs) (local_eq hen (endAt_defined o e)) hnull hf hcall)
      · rename_i hd
        rw [hd] at hcall
        have hset := expr_eq (assign_local (l' := boundedVars .null o e) (call3_eq (local_eq hs) (local_eq hen (endAt_defined o e)) hnull hf hcall) hs (w := .null) rfl (by simp [boundedVars, replace]))
        rw [while_round hcond rfl hset, leave_same (by rfl)]
        have hz : find c!"s" (boundedVars .null o e) = some (strT, .null) := by simp [boundedVars, find]
        rw [while_done (s' := ⟨boundedVars .null o e, M⟩) (and_left (local_eq hz) rfl) rfl,
          valid_end hh ht (by simp [boundedVars, find]) (Or.inl rfl) hz]
        rfl
      · rename_i cp p hd
        rw [hd] at hcall
        obtain ⟨j, hj, hji, rfl, hbj⟩ := decode_at hb hd
        have hset := expr_eq (assign_local (l' := boundedVars (.ptr o (j : Int)) o e) (call3_eq (local_eq hs) (local_eq hen (endAt_defined o e)) hnull hf hcall) hs
          (w := .ptr o ((s.length - (s.drop j).length : Nat) : Int)) rfl (by
            simp only [boundedVars, replace, List.length_drop, show s.length - (s.length - j) = j by omega]; simp))
        rw [while_round hcond rfl hset, leave_same (by rfl)]
        exact ih _ (by simp only [List.length_drop] at hk ⊢; omega) j rfl hbj

/-- The local variable of `charstr_valid_utf8`. -/
def validVars (v : V) : List (Str × T × V) := [(c!"s", strT, v)]

theorem valid_exec (hh : c.headers = utf8Headers) (ht : ty c!"NULL" = none) (hD : Decoder c M) (hne : o ≠ c!"*codepoint") (ho : find o M = some (bytes s)) :
    ∀ (k i : Nat), (s.drop i).length = k → validBody.exec c ty ⟨validVars (.ptr o (i : Int)), M⟩ = judged M (valid (s.drop i)) := by
  intro k
  induction k using Nat.strongRecOn with
  | ind k ih =>
    intro i hk
    have hb : Before i none := by intro n h; cases h
    have hs : find c!"s" (validVars (.ptr o (i : Int))) = some (strT, .ptr o (i : Int)) := by simp [validVars, find]
    have hv := local_eq (c := c) (ty := ty) (M := M) hs
    rw [valid.eq_def]
    split
    · rename_i hd
      exact while_err (and_fail hv rfl (read_var_ub hs ho hd))
    · rename_i b cs hd
      have hcond := and_right hv rfl (read_var hs ho hd)
      rw [char_truth] at hcond
      by_cases h0 : b = 0
      · rw [if_pos h0]
        rw [decide_eq_false (by simpa using h0)] at hcond
        unfold validBody readS
        rw [while_done hcond rfl, valid_end hh ht (by simp [validVars, find]) (Or.inr ⟨_, _, rfl⟩) hs]
        rfl
      · rw [if_neg h0]
        rw [decide_eq_true h0] at hcond
        have hD' := hD
        obtain ⟨g, hf, hg⟩ := hD'
        have hcall := hg o s i none hne ho hb strT (.ptr .void) (.ptr .void)
        have hnull := null_eq (c := c) (ty := ty) (M := M) hh ht (l := validVars (.ptr o (i : Int))) (by simp [validVars, find])
        unfold validBody decodeCall readS
        rw [hd, show limit none i = none from rfl] at hcall
        split
        · rename_i r hdec
          rw [hdec] at hcall
          exact while_fail hcond rfl (call3_err hv hnull hnull hf hcall)
        · rename_i hdec
          rw [hdec] at hcall
          have hset := expr_eq (assign_local (l' := validVars .null) (call3_eq hv hnull hnull hf hcall) hs (w := .null) rfl (by simp [validVars, replace]))
          rw [while_round hcond rfl hset, leave_same (by rfl)]
          have hz : find c!"s" (validVars .null) = some (strT, .null) := by simp [validVars, find]
          rw [while_done (s' := ⟨validVars .null, M⟩) (and_left (local_eq hz) rfl) rfl, valid_end hh ht (by simp [validVars, find]) (Or.inl rfl) hz]
          rfl
        · rename_i cp p hdec
          rw [hdec] at hcall
          obtain ⟨j, hj, hji, rfl, hbj⟩ := decode_at (s := s) (e := none) hb (by rw [hd]; exact hdec)
          have hset := expr_eq (assign_local (l' := validVars (.ptr o (j : Int))) (call3_eq hv hnull hnull hf hcall) hs
            (w := .ptr o ((s.length - (s.drop j).length : Nat) : Int)) rfl (by
              simp only [validVars, replace, List.length_drop, show s.length - (s.length - j) = j by omega]; simp))
          rw [while_round hcond rfl hset, leave_same (by rfl)]
          exact ih _ (by simp only [List.length_drop] at hk ⊢; omega) j rfl

/-! ## Calls -/

theorem int_ge (M : Mem) {a b : Int} (ha : -2147483648 ≤ a ∧ a < 2147483648) {n : Nat} (hb : b = n) (hn : n < 2147483648) :
    binary M c!">=" (intT, .num a) (intT, .num b) = .ok (flag (decide (a ≥ b))) := by
  have e1 : Int.bmod a 4294967296 = a := bmod32 (by omega) (by omega)
  have e2 : Int.bmod b 4294967296 = b := bmod32 (by omega) (by omega)
  simp [binary, isInt, promote, usual, conv, arith, e1, e2]

theorem int_le (M : Mem) {a b : Int} (ha : -2147483648 ≤ a ∧ a < 2147483648) {n : Nat} (hb : b = n) (hn : n < 2147483648) :
    binary M c!"<=" (intT, .num a) (intT, .num b) = .ok (flag (decide (a ≤ b))) := by
  have e1 : Int.bmod a 4294967296 = a := bmod32 (by omega) (by omega)
  have e2 : Int.bmod b 4294967296 = b := bmod32 (by omega) (by omega)
  simp [binary, isInt, promote, usual, conv, arith, e1, e2]

theorem between_eq {n : Nat} (hn : n < 2 ^ 31) {l : List (Str × T × V)} (hl : find c!"codepoint" l = some (intT, .num n)) {a b : Nat} (ha : a < 2 ^ 31) (hb : b < 2 ^ 31) :
    (between a b).eval c ty ⟨l, M⟩ = pure (flag (decide (a ≤ n ∧ n ≤ b)), ⟨l, M⟩) := by
  have h1 := bin_op (c := c) (ty := ty) (by decide) (by decide) (local_eq (M := M) hl) (lit_eq (n := a) (by omega) _) (int_ge M (a := (n : Int)) ⟨by omega, by omega⟩ rfl (by omega))
  have h2 := bin_op (c := c) (ty := ty) (by decide) (by decide) (local_eq (M := M) hl) (lit_eq (n := b) (by omega) _) (int_le M (a := (n : Int)) ⟨by omega, by omega⟩ rfl (by omega))
  unfold between
  by_cases h : a ≤ n
  · rw [and_right h1 (by rw [flag_truth]; simpa using h) h2, flag_truth]
    simp [h]
  · rw [and_left h1 (by rw [flag_truth]; simpa using h)]
    simp [h]

theorem unicode_invoke (n : Nat) (hn : n < 2 ^ 31) (t : T) :
    invoke c ty .bool [(intT, c!"codepoint")] unicodeBody [(t, .num n)] M = pure ((.bool, .num (if validUnicode n then 1 else 0)), M) := by
  have hb : bindArgs [(intT, c!"codepoint")] [(t, .num (n : Int))] = .ok [(c!"codepoint", intT, .num n)] := by simp [bindArgs, convert_int hn]
  have hl : find c!"codepoint" [(c!"codepoint", intT, V.num (n : Int))] = some (intT, .num n) := by simp [find]
  have h1 := between_eq (c := c) (ty := ty) (M := M) hn hl (a := 0) (b := 0xd7ff) (by decide) (by decide)
  have h2 := between_eq (c := c) (ty := ty) (M := M) hn hl (a := 0xe000) (b := 0x10ffff) (by decide) (by decide)
  by_cases h : n ≤ 0xd7ff
  · refine call_ret hb (or_left h1 (by rw [flag_truth]; simpa using h)) ?_
    simp [convert, conv, validUnicode, h]
  · refine call_ret hb (or_right h1 (by rw [flag_truth]; simpa using h) h2) ?_
    rw [flag_truth]
    by_cases h' : 0xe000 ≤ n ∧ n ≤ 0x10ffff
    · simp [convert, conv, validUnicode, h']
    · have : validUnicode n = false := by simp [validUnicode]; omega
      simp [convert, conv, this, h']

end

/-- The functions in front of the k-th declaration. -/
def utf8At (k : Nat) : Ctx := functions (fun _ => none) ⟨utf8Headers, [], []⟩ (utf8Decls.take k)

theorem utf8_compiles : compile utf8Headers utf8Decls = .ok ⟨utf8At 5, [], []⟩ := rfl

theorem run_utf8 {f : Str} {g : List (T × V) → Mem → D ((T × V) × Mem)} (h : find f (utf8At 5).funcs = some g) (args : List (T × V)) (m : Mem) :
    run utf8Headers utf8 f args m = g args m := run_eq utf8_parses utf8_compiles h args m

theorem unicode_at (M : Mem) : Unicode (utf8At 1) M :=
  ⟨_, by simp [utf8At, functions, utf8Decls, find]; rfl, fun n hn => unicode_invoke n hn intT⟩

theorem decode_found {k : Nat} (hk : k = 2 ∨ k = 3 ∨ k = 5) : find c!"charstr_decode_utf8_codepoint" (utf8At k).funcs =
    some (invoke (utf8At 1) (fun _ => none) strT decodeParams decodeBody) := by
  rcases hk with rfl | rfl | rfl <;> simp [utf8At, functions, utf8Decls, find]

theorem decoder_at {k : Nat} (hk : k = 2 ∨ k = 3 ∨ k = 5) (M : Mem) : Decoder (utf8At k) M :=
  ⟨_, decode_found hk, fun o s i e hne ho hb t t' t'' => decode_invoke (x := none) rfl rfl (unicode_at M) hne ho hb t t' t''⟩

/-- The result of a validator. -/
def verdict (M : Mem) : C Bool → D ((T × V) × Mem)
  | .error r => liftC (.error r)
  | .ok b => pure ((.bool, .num (if b then 1 else 0)), M)

theorem invoke_judged {c : Ctx} {ty : Str → Option T} {ps : List (T × Str)} {b : S} {vs : List (T × V)} {l : List (Str × T × V)} {M : Mem} {r : C Bool}
    (hb : bindArgs ps vs = .ok l) (he : b.exec c ty ⟨l, M⟩ = judged M r) : invoke c ty .bool ps b vs M = verdict M r := by
  rcases r with e | _ | _
  · exact invoke_err hb he
  · exact invoke_ret hb he rfl
  · exact invoke_ret hb he rfl

section
variable {m : Mem} {o : Str} {s : List UInt8} {i : Nat} {e : Option Nat}

theorem run_decode {x : Option V} (hne : o ≠ c!"*codepoint") (ho : find o m = some (bytes s)) (hb : Before i e) :
    run utf8Headers utf8 c!"charstr_decode_utf8_codepoint" [(strT, .ptr o (i : Int)), (strT, endAt o e), (.ptr intT, outArg x)] (outMem x m) =
      decoded o s.length x m (decode (s.drop i, limit e i)) := by
  rw [run_utf8 (decode_found (by simp))]
  exact decode_invoke rfl rfl (unicode_at _) hne ho hb _ _ _

theorem run_bounded (hne : o ≠ c!"*codepoint") (ho : find o m = some (bytes s)) (hb : Before i e) :
    run utf8Headers utf8 c!"charstr_valid_utf8_bounded" [(strT, .ptr o (i : Int)), (strT, endAt o e)] m = verdict m (validBounded (s.drop i, limit e i)) := by
  rw [run_utf8 (g := invoke (utf8At 2) (fun _ => none) .bool boundedParams boundedBody) (by simp [utf8At, functions, utf8Decls, find])]
  exact invoke_judged (l := boundedVars (.ptr o (i : Int)) o e) (by cases e <;> rfl) (bounded_exec rfl rfl (decoder_at (by simp) m) hne ho _ i rfl hb)

theorem run_valid (hne : o ≠ c!"*codepoint") (ho : find o m = some (bytes s)) :
    run utf8Headers utf8 c!"charstr_valid_utf8" [(strT, .ptr o (i : Int))] m = verdict m (valid (s.drop i)) := by
  rw [run_utf8 (g := invoke (utf8At 3) (fun _ => none) .bool [(strT, c!"s")] validBody) (by simp [utf8At, functions, utf8Decls, find])]
  exact invoke_judged (l := validVars (.ptr o (i : Int))) rfl (valid_exec rfl rfl (decoder_at (by simp) m) hne ho _ i rfl)

end

end Verif.Source
