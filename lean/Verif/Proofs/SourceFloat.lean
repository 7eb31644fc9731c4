import Verif.Proofs.Source
import Verif.Data.Source.Float
import Verif.Proofs.Float

/-! The text of `/repo/src/float.c` means the model. -/

set_option autoImplicit false

namespace Verif.Source

open Verif.Spec.CSource Verif.Float64 Verif.Spec.Float64

/-- What the parser makes of float.c:7-42. -/
def integerBody : S :=
    .seq (.ite (.unary c!"!" (.bin c!"<<" (.var c!"value") (.num 1 false false))) (.seq (.expr (.assign [] (.unary c!"*" (.var c!"n")) (.num 0 false
    false))) (.seq (.ret (.var c!"true")) .skip)) .skip) (.seq (.ite (.bin c!"==" (.var c!"value") (.num 14114281232179134464 false false)) (.seq
    (.expr (.assign [] (.unary c!"*" (.var c!"n")) (.var c!"LLONG_MIN"))) (.seq (.ret (.var c!"true")) .skip)) .skip) (.seq (.decl (.int false 64)
    c!"bits" (some (.bin c!"*" (.num 8 false false) (.sizeof (.unary c!"*" (.var c!"n")))))) (.seq (.decl (.int true 32) c!"exp" (some (.bin c!"-"
    (.cast (.int true 32) (.bin c!"&" (.bin c!">>" (.var c!"value") (.num 52 false false)) (.num 2047 false false))) (.num 1023 false false)))) (.seq
    (.ite (.bin c!"||" (.bin c!"<" (.var c!"exp") (.num 0 false false)) (.bin c!">=" (.var c!"exp") (.bin c!"-" (.var c!"bits") (.num 1 false
    false)))) (.ret (.var c!"false")) .skip) (.seq (.decl .bool c!"negative" (some (.bin c!">>" (.var c!"value") (.num 63 false false)))) (.seq (.decl
    (.int false 64) c!"mask" (some (.bin c!">>" (.unary c!"~" (.num 0 true true)) (.num 12 false false)))) (.seq (.decl (.int false 64)
    c!"significand" (some (.bin c!"|" (.bin c!"&" (.var c!"value") (.var c!"mask")) (.bin c!"<<" (.num 1 true true) (.num 52 false false))))) (.seq
    (.ite (.bin c!">=" (.var c!"exp") (.num 52 false false)) (.seq (.expr (.assign [] (.unary c!"*" (.var c!"n")) (.bin c!"<<" (.var c!"significand")
    (.bin c!"-" (.var c!"exp") (.num 52 false false))))) (.seq (.ite (.var c!"negative") (.expr (.assign [] (.unary c!"*" (.var c!"n")) (.unary c!"-"
    (.unary c!"*" (.var c!"n"))))) .skip) (.seq (.ret (.var c!"true")) .skip))) .skip) (.seq (.ite (.bin c!"==" (.bin c!"&" (.var c!"value") (.bin
    c!">>" (.var c!"mask") (.var c!"exp"))) (.num 0 false false)) (.seq (.expr (.assign [] (.unary c!"*" (.var c!"n")) (.bin c!">>" (.var
    c!"significand") (.bin c!"-" (.num 52 false false) (.var c!"exp"))))) (.seq (.ite (.var c!"negative") (.expr (.assign [] (.unary c!"*" (.var
    c!"n")) (.unary c!"-" (.unary c!"*" (.var c!"n"))))) .skip) (.seq (.ret (.var c!"true")) .skip))) .skip) (.seq (.ret (.var c!"false"))
    .skip))))))))))

/-- What the parser makes of float.c:45-74. -/
def unsignedBody : S :=
    .seq (.ite (.unary c!"!" (.bin c!"<<" (.var c!"value") (.num 1 false false))) (.seq (.expr (.assign [] (.unary c!"*" (.var c!"n")) (.num 0 false
    false))) (.seq (.ret (.var c!"true")) .skip)) .skip) (.seq (.decl .bool c!"negative" (some (.bin c!">>" (.var c!"value") (.num 63 false false))))
    (.seq (.ite (.var c!"negative") (.ret (.var c!"false")) .skip) (.seq (.decl (.int false 64) c!"bits" (some (.bin c!"*" (.num 8 false false)
    (.sizeof (.unary c!"*" (.var c!"n")))))) (.seq (.decl (.int true 32) c!"exp" (some (.bin c!"-" (.cast (.int true 32) (.bin c!"&" (.bin c!">>"
    (.var c!"value") (.num 52 false false)) (.num 2047 false false))) (.num 1023 false false)))) (.seq (.ite (.bin c!"||" (.bin c!"<" (.var c!"exp")
    (.num 0 false false)) (.bin c!">=" (.var c!"exp") (.var c!"bits"))) (.ret (.var c!"false")) .skip) (.seq (.decl (.int false 64) c!"mask" (some
    (.bin c!">>" (.unary c!"~" (.num 0 true true)) (.num 12 false false)))) (.seq (.decl (.int false 64) c!"significand" (some (.bin c!"|" (.bin c!"&"
    (.var c!"value") (.var c!"mask")) (.bin c!"<<" (.num 1 true true) (.num 52 false false))))) (.seq (.ite (.bin c!">=" (.var c!"exp") (.num 52 false
    false)) (.seq (.expr (.assign [] (.unary c!"*" (.var c!"n")) (.bin c!"<<" (.var c!"significand") (.bin c!"-" (.var c!"exp") (.num 52 false
    false))))) (.seq (.ret (.var c!"true")) .skip)) .skip) (.seq (.ite (.bin c!"==" (.bin c!"&" (.var c!"value") (.bin c!">>" (.var c!"mask") (.var
    c!"exp"))) (.num 0 false false)) (.seq (.expr (.assign [] (.unary c!"*" (.var c!"n")) (.bin c!">>" (.var c!"significand") (.bin c!"-" (.num 52
    false false) (.var c!"exp"))))) (.seq (.ret (.var c!"true")) .skip)) .skip) (.seq (.ret (.var c!"false")) .skip))))))))))

  /-- What the parser makes of float.c. -/
def floatDecls : List Decl := [.func .bool c!"binary64_to_integer" [(.int false 64, c!"value"), (.ptr (.int true 64), c!"n")] integerBody, .func
    .bool c!"binary64_to_unsigned" [(.int false 64, c!"value"), (.ptr (.int false 64), c!"n")] unsignedBody]


theorem float_parses : (lex float).bind parse = some floatDecls := by decide +kernel

/-- What `<stdbool.h>` and `<limits.h>` define. -/
def limits : Headers where
  const x :=
    if x = c!"true" then some (.int true 32, .num 1)
    else if x = c!"false" then some (.int true 32, .num 0)
    else if x = c!"LLONG_MIN" then some (.int true 64, .num (-2 ^ 63))
    else none
  struct _ := none

/-! ## Arithmetic -/

theorem value_small (v : UInt64) : (v.toNat : Int) % 18446744073709551616 = v.toNat := by
  have := v.toNat_lt
  omega

theorem value_shl (v : UInt64) : (v.toNat : Int) * 2 % 18446744073709551616 = 0 ↔ v <<< 1 = 0 := by
  rw [shl1]
  have := v.toNat_lt
  omega

theorem value_min (v : UInt64) : (v.toNat : Int) = 14114281232179134464 ↔ v = 0xc3e0000000000000 := by
  rw [u64_inj, show (0xc3e0000000000000 : UInt64).toNat = 14114281232179134464 from rfl]
  omega

theorem value_sign (v : UInt64) : (v.toNat : Int) / 9223372036854775808 = 0 ↔ ¬ v >>> 63 ≠ 0 := by
  rw [shr63]
  omega

theorem value_exp (v : UInt64) :
    (((v.toNat : Int) / 4503599627370496 % 18446744073709551616).toNat &&& 2047 : Nat) = bexp v := by
  rw [show (2047 : Nat) = 2 ^ 11 - 1 from rfl, Nat.and_two_pow_sub_one_eq_mod, bexp]
  have := v.toNat_lt
  omega

theorem bexp_lt (v : UInt64) : bexp v < 2048 := Nat.mod_lt _ (by decide)

theorem value_sig (v : UInt64) :
    ((((((v.toNat : Int) % 18446744073709551616).toNat &&& 4503599627370495 : Nat) : Int) % 18446744073709551616).toNat ||| 4503599627370496 : Nat) =
      (significand v).toNat := by
  have hv := v.toNat_lt
  rw [show ((v.toNat : Int) % 18446744073709551616).toNat = v.toNat by omega, show (4503599627370495 : Nat) = 2 ^ 52 - 1 from rfl, Nat.and_two_pow_sub_one_eq_mod]
  have h : v.toNat % 2 ^ 52 < 2 ^ 52 := Nat.mod_lt _ (by decide)
  rw [show (((v.toNat % 2 ^ 52 : Nat) : Int) % 18446744073709551616).toNat = v.toNat % 2 ^ 52 by omega, sig_eq, frac, Nat.or_comm,
    show (4503599627370496 : Nat) = 2 ^ 52 * 1 from rfl, ← Nat.two_pow_add_eq_or_of_lt h, Nat.mul_one]

theorem toNat_shl (x : UInt64) {k : Nat} (h : k < 64) : ((x <<< UInt64.ofNat k).toNat : Int) = (x.toNat : Int) * 2 ^ k % 18446744073709551616 := by
  rw [UInt64.toNat_shiftLeft, UInt64.toNat_ofNat', Nat.mod_eq_of_lt (show k < 2 ^ 64 by omega), Nat.mod_eq_of_lt h, Nat.shiftLeft_eq]
  push_cast
  rfl

theorem toNat_shr (x : UInt64) {k : Nat} (h : k < 64) : ((x >>> UInt64.ofNat k).toNat : Int) = (x.toNat : Int) / 2 ^ k := by
  rw [UInt64.toNat_shiftRight, UInt64.toNat_ofNat', Nat.mod_eq_of_lt (show k < 2 ^ 64 by omega), Nat.mod_eq_of_lt h, Nat.shiftRight_eq_div_pow]
  push_cast
  rfl

theorem toLL_bmod (x : UInt64) : Int.bmod (x.toNat : Int) 18446744073709551616 = toLL x := by
  have := x.toNat_lt
  rw [Int.bmod_def, toLL]
  split <;> split <;> omega

theorem toLL_range (x : UInt64) : -9223372036854775808 ≤ toLL x ∧ toLL x < 9223372036854775808 := by
  have := x.toNat_lt
  rw [toLL]
  split <;> omega

theorem value_mask (v : UInt64) {e : Int} (h : 0 ≤ e) (h' : e < 64) :
    (((v.toNat : Int) % 18446744073709551616).toNat &&& ((4503599627370495 : Int) / 2 ^ e.toNat % 18446744073709551616).toNat : Nat) = 0 ↔
      v &&& (mask >>> UInt64.ofNat e.toNat) = 0 := by
  have hk : e.toNat < 64 := by omega
  have hv := v.toNat_lt
  have hm := toNat_shr mask hk
  rw [mask_eq] at hm
  have hs := (mask >>> UInt64.ofNat e.toNat).toNat_lt
  rw [u64_inj, UInt64.toNat_and, show ((v.toNat : Int) % 18446744073709551616).toNat = v.toNat by omega,
    show ((4503599627370495 : Int) / 2 ^ e.toNat % 18446744073709551616).toNat = (mask >>> UInt64.ofNat e.toNat).toNat by
      rw [show (4503599627370495 : Int) = ((2 ^ 52 - 1 : Nat) : Int) from rfl, ← hm]; omega]
  rfl

/-! ## Execution -/

/-- How a body ends that returns `false`, or stores a number and returns `true`. -/
def ending (w : V) (m : Mem) : C (Option Int) → D Res
  | .error e => liftC (.error e)
  | .ok none => pure (.ret (.int true 32, .num 0) ((c!"*n", [[([], w)]]) :: m))
  | .ok (some n) => pure (.ret (.int true 32, .num 1) ((c!"*n", [[([], .num n)]]) :: m))

attribute [local simp] load convert conv S.exec E.eval E.place liftC_ok liftC_err map_liftC_ok map_liftC_err find binary isInt shift promote result unaryOp truth
  flag constType target put Spec.CSource.get replace outer limits usual arith bits size

/-- float.c:63-73, what the parser makes of it. -/
def unsignedEnd : S :=
  .seq (.ite (.bin c!">=" (.var c!"exp") (.num 52 false false)) (.seq (.expr (.assign [] (.unary c!"*" (.var c!"n")) (.bin c!"<<" (.var c!"significand")
    (.bin c!"-" (.var c!"exp") (.num 52 false false))))) (.seq (.ret (.var c!"true")) .skip)) .skip) (.seq (.ite (.bin c!"==" (.bin c!"&" (.var
    c!"value") (.bin c!">>" (.var c!"mask") (.var c!"exp"))) (.num 0 false false)) (.seq (.expr (.assign [] (.unary c!"*" (.var c!"n")) (.bin c!">>"
    (.var c!"significand") (.bin c!"-" (.num 52 false false) (.var c!"exp"))))) (.seq (.ret (.var c!"true")) .skip)) .skip) (.seq (.ret (.var
    c!"false")) .skip))

/-- The variables of `binary64_to_unsigned` at line 63. -/
def unsignedVars (v : UInt64) : List (Str × T × V) :=
  [(c!"significand", .int false 64, .num (significand v).toNat), (c!"mask", .int false 64, .num 4503599627370495), (c!"exp", .int true 32, .num (expo v)),
    (c!"bits", .int false 64, .num 64), (c!"negative", .bool, .num 0), (c!"value", .int false 64, .num v.toNat), (c!"n", .ptr (.int false 64), .ptr c!"*n" 0)]

theorem expo_range (v : UInt64) : -1023 ≤ expo v ∧ expo v ≤ 1024 := by
  have := expo_eq v
  have := bexp_lt v
  omega

set_option maxHeartbeats 2000000 in
theorem unsigned_end {c : Ctx} (hc : c.headers = limits) (v : UInt64) (w : V) (m : Mem) (h3 : ¬ (expo v < 0 ∨ expo v ≥ 64)) :
    unsignedEnd.exec c (fun _ => none) ⟨unsignedVars v, (c!"*n", [[([], w)]]) :: m⟩ =
      ending w m ((scaled v (expo v)).map fun r => r.map fun n => (n.toNat : Int)) := by
  have hv := value_small v
  have hsl : ((significand v).toNat : Int) % 18446744073709551616 = (significand v).toNat := value_small _
  have hbm : Int.bmod (expo v) 4294967296 = expo v := bmod32 (by omega) (by omega)
  unfold scaled unsignedVars unsignedEnd
  by_cases h6 : 52 ≤ expo v
  · have hk : (expo v - 52).toNat < 64 := by omega
    have hs := toNat_shl (significand v) hk
    have r1 : 52 ≤ expo v + 2147483648 := by omega
    have r2 : expo v - 52 < 2147483648 := by omega
    have r3 : ¬ (expo v < 52 ∨ 64 ≤ expo v - 52) := by omega
    have r4 : 0 ≤ expo v - 52 ∧ expo v - 52 < 64 := by omega
    rw [if_pos h6, shl, if_pos r4, seq_ret (v := (.int true 32, .num 1))
      (m := (c!"*n", [[([], .num ((significand v).toNat * 2 ^ (expo v - 52).toNat % 18446744073709551616))]]) :: m)
      (by simp [h6, hbm, hc, r1, r2, r3]), ← hs]
    rfl
  rw [if_neg h6, seq_next (by simp [h6, hbm]; rfl)]
  have hmask := value_mask v (e := expo v) (by omega) (by omega)
  have r0 : 0 ≤ expo v ∧ expo v < 64 := by omega
  have r5 : ¬ (expo v < 0 ∨ 64 ≤ expo v) := by omega
  rw [shr, if_pos r0]
  by_cases h7 : v &&& (mask >>> UInt64.ofNat (expo v).toNat) = 0
  · have h7' := hmask.mpr h7
    have hk : (52 - expo v).toNat < 64 := by omega
    have hs := toNat_shr (significand v) hk
    have r1 : expo v ≤ 2147483700 := by omega
    have r2 : 52 - expo v < 2147483648 := by omega
    have r3 : ¬ (52 < expo v ∨ 64 ≤ 52 - expo v) := by omega
    have r4 : 0 ≤ 52 - expo v ∧ 52 - expo v < 64 := by omega
    have hs' := value_small (significand v >>> UInt64.ofNat (52 - expo v).toNat)
    rw [hs] at hs'
    simp only [if_pos h7]
    rw [shr, if_pos r4, seq_ret (v := (.int true 32, .num 1))
      (m := (c!"*n", [[([], .num ((significand v).toNat / 2 ^ (52 - expo v).toNat))]]) :: m)
      (by simp [h7', hbm, hc, r1, r2, r3, r5, hs']), ← hs]
    rfl
  simp only [if_neg h7]
  have h7' : ¬ ((((v.toNat : Int) % 18446744073709551616).toNat &&& ((4503599627370495 : Int) / 2 ^ (expo v).toNat % 18446744073709551616).toNat : Nat) : Int) %
      18446744073709551616 = 0 := by
    have := Nat.and_le_left (n := ((v.toNat : Int) % 18446744073709551616).toNat) (m := ((4503599627370495 : Int) / 2 ^ (expo v).toNat % 18446744073709551616).toNat)
    have hv := v.toNat_lt
    intro h
    exact h7 (hmask.mp (by omega))
  rw [seq_next (by simp [h7', hbm, r5]; rfl), seq_ret (by simp [hc]; rfl)]
  rfl

set_option maxHeartbeats 2000000 in
theorem unsigned_exec {c : Ctx} (hc : c.headers = limits) (v : UInt64) (w : V) (m : Mem) :
    unsignedBody.exec c (fun _ => none) ⟨[(c!"value", .int false 64, .num v.toNat), (c!"n", .ptr (.int false 64), .ptr c!"*n" 0)], (c!"*n", [[([], w)]]) :: m⟩ =
      ending w m ((toUnsigned v).map fun r => r.map fun n => (n : Int)) := by
  have hv := value_small v
  unfold unsignedBody toUnsigned
  by_cases h1 : v <<< 1 = 0
  · have h1' := (value_shl v).mpr h1
    rw [seq_ret (by simp [h1', hc]; rfl), if_pos h1]
    rfl
  have h1' : ¬ _ := fun h => h1 ((value_shl v).mp h)
  rw [seq_next (by simp [h1']; rfl), seq_next (by simp; rfl), if_neg h1]
  by_cases h2 : v >>> 63 ≠ 0
  · have h2' : ¬ _ := fun h => (value_sign v).mp h h2
    rw [seq_ret (by simp [h2', hc]; rfl), if_pos h2]
    rfl
  have h2' := (value_sign v).mpr h2
  rw [seq_next (by simp [h2']; rfl), seq_next (by simp; rfl), if_neg h2]
  have he := expo_eq v
  have hb := bexp_lt v
  have hx := value_exp v
  have hl : (bexp v : Int) % 18446744073709551616 = bexp v := by omega
  have hm : Int.bmod (bexp v : Int) 4294967296 = bexp v := bmod32 (by omega) (by omega)
  have hm' : Int.bmod ((bexp v : Int) - 1023) 4294967296 = expo v := by rw [he]; exact bmod32 (by omega) (by omega)
  have r1 : (1023 : Int) ≤ bexp v + 2147483648 := by omega
  have r2 : (bexp v : Int) - 1023 < 2147483648 := by omega
  rw [seq_next (s' := ⟨[(c!"exp", .int true 32, .num (expo v)), (c!"bits", .int false 64, .num 64),
    (c!"negative", .bool, .num 0), (c!"value", .int false 64, .num v.toNat), (c!"n", .ptr (.int false 64), .ptr c!"*n" 0)],
    (c!"*n", [[([], w)]]) :: m⟩) (by simp [h2', hx, hl, hm, hm', r1, r2])]
  obtain ⟨hlo, hhi⟩ := expo_range v
  have hbm : Int.bmod (expo v) 4294967296 = expo v := bmod32 (by omega) (by omega)
  clear hx hl hm hm' r1 r2 hb he h1' h2'
  by_cases h3 : expo v < 0 ∨ expo v ≥ 64
  · rw [if_pos h3]
    by_cases h4 : expo v < 0
    · rw [seq_ret (by simp [h4, hbm, hc]; rfl)]
      rfl
    · have h5 : ¬ expo v % 18446744073709551616 < 64 := by omega
      rw [seq_ret (by simp [h4, h5, hbm, hc]; rfl)]
      rfl
  rw [if_neg h3]
  have h4 : ¬ expo v < 0 := by omega
  have h5 : expo v % 18446744073709551616 < 64 := by omega
  rw [seq_next (by simp [h4, h5, hbm]; rfl), seq_next (by simp; rfl)]
  have hsig := value_sig v
  have hsl : ((significand v).toNat : Int) % 18446744073709551616 = (significand v).toNat := value_small _
  rw [seq_next (s' := ⟨unsignedVars v, (c!"*n", [[([], w)]]) :: m⟩) (by simp [hsig, hsl, unsignedVars])]
  refine (unsigned_end hc v w m h3).trans ?_
  cases scaled v (expo v) with
  | error e => rfl
  | ok r => cases r <;> rfl

/-- What the parser makes of float.c:28-31 and 35-38, with the right hand side of the first assignment open. -/
def negate (e : E) : S :=
  .seq (.expr (.assign [] (.unary c!"*" (.var c!"n")) e)) (.seq (.ite (.var c!"negative") (.expr (.assign [] (.unary c!"*" (.var c!"n"))
    (.unary c!"-" (.unary c!"*" (.var c!"n"))))) .skip) (.seq (.ret (.var c!"true")) .skip))

/-- float.c:27-41, what the parser makes of it. -/
def integerEnd : S :=
  .seq (.ite (.bin c!">=" (.var c!"exp") (.num 52 false false)) (negate (.bin c!"<<" (.var c!"significand") (.bin c!"-" (.var c!"exp") (.num 52 false
    false)))) .skip) (.seq (.ite (.bin c!"==" (.bin c!"&" (.var c!"value") (.bin c!">>" (.var c!"mask") (.var c!"exp"))) (.num 0 false false)) (negate
    (.bin c!">>" (.var c!"significand") (.bin c!"-" (.num 52 false false) (.var c!"exp")))) .skip) (.seq (.ret (.var c!"false")) .skip))

/-- The value of `negative`. -/
def sgn (v : UInt64) : Int := if v >>> 63 ≠ 0 then 1 else 0

/-- The variables of `binary64_to_integer` at line 27. -/
def integerVars (v : UInt64) : List (Str × T × V) :=
  [(c!"significand", .int false 64, .num (significand v).toNat), (c!"mask", .int false 64, .num 4503599627370495), (c!"negative", .bool, .num (sgn v)),
    (c!"exp", .int true 32, .num (expo v)), (c!"bits", .int false 64, .num 64), (c!"value", .int false 64, .num v.toNat), (c!"n", .ptr (.int true 64), .ptr c!"*n" 0)]

theorem negate_exec {c : Ctx} (hc : c.headers = limits) (v x : UInt64) (w : V) (m : Mem) (e : E)
    (he : e.eval c (fun _ => none) ⟨integerVars v, (c!"*n", [[([], w)]]) :: m⟩ =
      pure ((.int false 64, .num x.toNat), ⟨integerVars v, (c!"*n", [[([], w)]]) :: m⟩)) :
    (negate e).exec c (fun _ => none) ⟨integerVars v, (c!"*n", [[([], w)]]) :: m⟩ = ending w m ((signed v (toLL x)).map some) := by
  unfold negate
  have hb := toLL_bmod x
  obtain ⟨hlo, hhi⟩ := toLL_range x
  rw [seq_next (s' := ⟨integerVars v, (c!"*n", [[([], .num (toLL x))]]) :: m⟩) (by simp [he]; simp [integerVars, hb])]
  unfold signed
  by_cases h : v >>> 63 ≠ 0
  · have hs : sgn v = 1 := if_pos h
    rw [if_pos h]
    by_cases h' : toLL x = -(2 ^ 63)
    · have r : ¬ (toLL x ≤ 9223372036854775808 ∧ -toLL x < 9223372036854775808) := by omega
      rw [negLL, if_pos h', seq_err (e := .ub) (by simp [integerVars, hs, r])]
      rfl
    · have r1 : toLL x ≤ 9223372036854775808 := by omega
      have r2 : -toLL x < 9223372036854775808 := by omega
      have r3 : Int.bmod (-toLL x) 18446744073709551616 = -toLL x := bmod64 (by omega) (by omega)
      rw [negLL, if_neg h', seq_next (s' := ⟨integerVars v, (c!"*n", [[([], .num (-toLL x))]]) :: m⟩) (by simp [integerVars, hs, r1, r2, r3]),
        seq_ret (by simp [integerVars, hc]; rfl)]
      rfl
  · have hs : sgn v = 0 := if_neg h
    rw [if_neg h, seq_next (s' := ⟨integerVars v, (c!"*n", [[([], .num (toLL x))]]) :: m⟩) (by simp [integerVars, hs]), seq_ret (by simp [integerVars, hc]; rfl)]
    rfl

theorem ite_true {c : Ctx} {ty : Str → Option T} {e : E} {a b : S} {s s' : Store} {v : T × V} (h : e.eval c ty s = pure (v, s')) (ht : truth v.2 = true) :
    (S.ite e a b).exec c ty s = a.exec c ty s' := by
  simp only [S.exec, h, pure_bind, ht, if_true]

theorem ite_false {c : Ctx} {ty : Str → Option T} {e : E} {a b : S} {s s' : Store} {v : T × V} (h : e.eval c ty s = pure (v, s')) (ht : truth v.2 = false) :
    (S.ite e a b).exec c ty s = b.exec c ty s' := by
  simp only [S.exec, h, pure_bind, ht, Bool.false_eq_true, if_false]

/-- A statement that ends in one of the ways of `ending` hides what follows. -/
theorem seq_ending {c : Ctx} {ty : Str → Option T} {a b : S} {s : Store} {w : V} {m : Mem} {r : C (Option Int)} (h : a.exec c ty s = ending w m r) :
    (S.seq a b).exec c ty s = ending w m r := by
  rcases r with e | _ | n
  · exact seq_err h
  · exact seq_ret h
  · exact seq_ret h

set_option maxHeartbeats 2000000 in
theorem integer_end {c : Ctx} (hc : c.headers = limits) (v : UInt64) (w : V) (m : Mem) (h3 : ¬ (expo v < 0 ∨ expo v ≥ 63)) :
    integerEnd.exec c (fun _ => none) ⟨integerVars v, (c!"*n", [[([], w)]]) :: m⟩ =
      ending w m (match scaled v (expo v) with
        | .error e => .error e
        | .ok none => .ok none
        | .ok (some x) => match signed v (toLL x) with
          | .error e => .error e
          | .ok n => .ok (some n)) := by
  have hv := value_small v
  have hsl : ((significand v).toNat : Int) % 18446744073709551616 = (significand v).toNat := value_small _
  have hbm : Int.bmod (expo v) 4294967296 = expo v := bmod32 (by omega) (by omega)
  unfold scaled integerEnd
  by_cases h6 : 52 ≤ expo v
  · have hk : (expo v - 52).toNat < 64 := by omega
    have hs := toNat_shl (significand v) hk
    have r1 : 52 ≤ expo v + 2147483648 := by omega
    have r2 : expo v - 52 < 2147483648 := by omega
    have r3 : ¬ (expo v < 52 ∨ 64 ≤ expo v - 52) := by omega
    have r4 : 0 ≤ expo v - 52 ∧ expo v - 52 < 64 := by omega
    rw [seq_ending ((ite_true (v := (.int true 32, .num 1)) (s' := ⟨integerVars v, (c!"*n", [[([], w)]]) :: m⟩) (by simp [integerVars, h6, hbm]) rfl).trans
      (negate_exec hc v (significand v <<< UInt64.ofNat (expo v - 52).toNat) w m _ (by rw [hs]; simp [integerVars, hbm, r1, r2, r3]))), if_pos h6, shl, if_pos r4]
    dsimp only
    cases signed v (toLL (significand v <<< UInt64.ofNat (expo v - 52).toNat)) <;> rfl
  rw [if_neg h6, seq_next (s' := ⟨integerVars v, (c!"*n", [[([], w)]]) :: m⟩) (by simp [integerVars, h6, hbm])]
  have hmask := value_mask v (e := expo v) (by omega) (by omega)
  have r0 : 0 ≤ expo v ∧ expo v < 64 := by omega
  have r5 : ¬ (expo v < 0 ∨ 64 ≤ expo v) := by omega
  rw [shr, if_pos r0]
  by_cases h7 : v &&& (mask >>> UInt64.ofNat (expo v).toNat) = 0
  · have h7' := hmask.mpr h7
    have hk : (52 - expo v).toNat < 64 := by omega
    have hs := toNat_shr (significand v) hk
    have r1 : expo v ≤ 2147483700 := by omega
    have r2 : 52 - expo v < 2147483648 := by omega
    have r3 : ¬ (52 < expo v ∨ 64 ≤ 52 - expo v) := by omega
    have r4 : 0 ≤ 52 - expo v ∧ 52 - expo v < 64 := by omega
    simp only [if_pos h7]
    rw [seq_ending ((ite_true (v := (.int true 32, .num 1)) (s' := ⟨integerVars v, (c!"*n", [[([], w)]]) :: m⟩) (by simp [integerVars, h7', hbm, r5]) rfl).trans
      (negate_exec hc v (significand v >>> UInt64.ofNat (52 - expo v).toNat) w m _ (by rw [hs]; simp [integerVars, hbm, r1, r2, r3]))), shr, if_pos r4]
    dsimp only
    cases signed v (toLL (significand v >>> UInt64.ofNat (52 - expo v).toNat)) <;> rfl
  simp only [if_neg h7]
  have h7' : ¬ ((((v.toNat : Int) % 18446744073709551616).toNat &&& ((4503599627370495 : Int) / 2 ^ (expo v).toNat % 18446744073709551616).toNat : Nat) : Int) %
      18446744073709551616 = 0 := by
    have := Nat.and_le_left (n := ((v.toNat : Int) % 18446744073709551616).toNat) (m := ((4503599627370495 : Int) / 2 ^ (expo v).toNat % 18446744073709551616).toNat)
    have hv := v.toNat_lt
    intro h
    exact h7 (hmask.mp (by omega))
  rw [seq_next (s' := ⟨integerVars v, (c!"*n", [[([], w)]]) :: m⟩) (by simp [integerVars, h7', hbm, r5]), seq_ret (by simp [integerVars, hc]; rfl)]
  rfl

set_option maxHeartbeats 2000000 in
theorem integer_exec {c : Ctx} (hc : c.headers = limits) (v : UInt64) (w : V) (m : Mem) :
    integerBody.exec c (fun _ => none) ⟨[(c!"value", .int false 64, .num v.toNat), (c!"n", .ptr (.int true 64), .ptr c!"*n" 0)], (c!"*n", [[([], w)]]) :: m⟩ =
      ending w m (toInteger v) := by
  have hv := value_small v
  unfold integerBody toInteger
  by_cases h1 : v <<< 1 = 0
  · have h1' := (value_shl v).mpr h1
    rw [seq_ret (by simp [h1', hc]; rfl), if_pos h1]
    rfl
  have h1' : ¬ _ := fun h => h1 ((value_shl v).mp h)
  rw [seq_next (by simp [h1']; rfl), if_neg h1]
  by_cases h2 : v = 0xc3e0000000000000
  · have h2' := (value_min v).mpr h2
    rw [seq_ret (by simp [h2', hc]; rfl), if_pos h2]
    rfl
  have h2' : ¬ _ := fun h => h2 ((value_min v).mp h)
  rw [seq_next (by simp [h2', hv]; rfl), seq_next (by simp; rfl), if_neg h2]
  have he := expo_eq v
  have hb := bexp_lt v
  have hx := value_exp v
  have hl : (bexp v : Int) % 18446744073709551616 = bexp v := by omega
  have hm : Int.bmod (bexp v : Int) 4294967296 = bexp v := bmod32 (by omega) (by omega)
  have hm' : Int.bmod ((bexp v : Int) - 1023) 4294967296 = expo v := by rw [he]; exact bmod32 (by omega) (by omega)
  have r1 : (1023 : Int) ≤ bexp v + 2147483648 := by omega
  have r2 : (bexp v : Int) - 1023 < 2147483648 := by omega
  rw [seq_next (s' := ⟨[(c!"exp", .int true 32, .num (expo v)), (c!"bits", .int false 64, .num 64),
    (c!"value", .int false 64, .num v.toNat), (c!"n", .ptr (.int true 64), .ptr c!"*n" 0)],
    (c!"*n", [[([], w)]]) :: m⟩) (by simp [hx, hl, hm, hm', r1, r2])]
  obtain ⟨hlo, hhi⟩ := expo_range v
  have hbm : Int.bmod (expo v) 4294967296 = expo v := bmod32 (by omega) (by omega)
  clear hx hl hm hm' r1 r2 hb he h1' h2'
  by_cases h3 : expo v < 0 ∨ expo v ≥ 63
  · rw [if_pos (by omega)]
    by_cases h4 : expo v < 0
    · rw [seq_ret (by simp [h4, hbm, hc]; rfl)]
      rfl
    · have h5 : ¬ expo v % 18446744073709551616 < 63 := by omega
      rw [seq_ret (by simp [h4, h5, hbm, hc]; rfl)]
      rfl
  rw [if_neg (by omega)]
  have h4 : ¬ expo v < 0 := by omega
  have h5 : expo v % 18446744073709551616 < 63 := by omega
  have hneg : (if (v.toNat : Int) / 9223372036854775808 = 0 then (0 : Int) else 1) = sgn v := by
    unfold sgn
    by_cases h : v >>> 63 ≠ 0
    · rw [if_pos h, if_neg fun h' => (value_sign v).mp h' h]
    · rw [if_neg h, if_pos ((value_sign v).mpr h)]
  rw [seq_next (by simp [h4, h5, hbm]; rfl), seq_next (s' := ⟨[(c!"negative", .bool, .num (sgn v)), (c!"exp", .int true 32, .num (expo v)), (c!"bits", .int false 64, .num 64),
    (c!"value", .int false 64, .num v.toNat), (c!"n", .ptr (.int true 64), .ptr c!"*n" 0)], (c!"*n", [[([], w)]]) :: m⟩) (by simp [hneg]), seq_next (by simp; rfl)]
  have hsig := value_sig v
  have hsl : ((significand v).toNat : Int) % 18446744073709551616 = (significand v).toNat := value_small _
  rw [seq_next (s' := ⟨integerVars v, (c!"*n", [[([], w)]]) :: m⟩) (by simp [hsig, hsl, integerVars])]
  exact integer_end hc v w m h3

end Verif.Source
