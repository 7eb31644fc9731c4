import Verif.Model.Puny
import Verif.Spec.Punycode
import Verif.Proofs.Utf8

/-! The arithmetic of the Punycode encoder: it does not overflow and the decoder undoes it. -/

namespace Verif.Puny
open Verif.Spec (Punycode.State)
open Verif.Spec

theorem int_ok {x : Int} (h1 : 0 ≤ x) (h2 : x < 2 ^ 31) : int x = .ok x := by
  rw [int, if_pos ⟨by omega, h2⟩]

theorem ok_bind {α β : Type} (a : α) (f : α → C β) : ((.ok a : C α) >>= f) = f a := rfl

theorem toSize_nat (n : Nat) (h : n < 2 ^ 64) : toSize (n : Int) = n := by
  simp only [toSize]; omega

theorem toInt_nat (n : Nat) (h : n < 2 ^ 31) : toInt n = (n : Int) := by
  simp only [toInt]
  rw [Nat.mod_eq_of_lt (by omega), if_pos h]

theorem adaptLoop_ok (j : Nat) : ∀ delta k : Nat, delta < 35 ^ j → k + 36 * j < 2 ^ 31 →
    adaptLoop delta k = .ok (((Punycode.shrink delta k).1 : Int), ((Punycode.shrink delta k).2 : Int)) := by
  induction j with
  | zero =>
    intro delta k h1 h2
    rw [adaptLoop, Punycode.shrink, dif_neg (by omega), if_neg (by omega)]
  | succ j ih =>
    intro delta k h1 h2
    rw [adaptLoop, Punycode.shrink]
    by_cases h : delta > 455
    · rw [dif_pos (by omega), if_pos (by omega), int_ok (by omega) (by omega)]
      have := ih (delta / 35) (k + 36) (by rw [Nat.div_lt_iff_lt_mul (by omega)]; rw [pow_succ] at h1; omega) (by omega)
      push_cast at this ⊢
      exact this
    · rw [dif_neg (by omega), if_neg (by omega)]

theorem shrink_bounds (j : Nat) : ∀ delta k : Nat, delta < 35 ^ j → (Punycode.shrink delta k).1 ≤ 455 ∧ (Punycode.shrink delta k).2 ≤ k + 36 * j := by
  induction j with
  | zero =>
    intro delta k h1
    rw [Punycode.shrink, if_neg (by omega)]
    constructor <;> simp only <;> omega
  | succ j ih =>
    intro delta k h1
    rw [Punycode.shrink]
    split
    · have := ih (delta / 35) (k + 36) (by rw [Nat.div_lt_iff_lt_mul (by omega)]; rw [pow_succ] at h1; omega)
      norm_num
      omega
    · constructor <;> simp only <;> omega

/-- `adapt` computes the bias of the RFC. -/
theorem adapt_ok (delta n : Nat) (first : Bool) (hd : delta < 2 ^ 31) (hn : 0 < n) :
    adapt delta n first = .ok ((Punycode.adapt delta n first : Nat) : Int) := by
  have hdiv : ∀ d : Nat, (if first then (delta : Int).tdiv 700 else (delta : Int).tdiv 2) = ((if first then delta / 700 else delta / 2 : Nat) : Int) := by
    intro d
    split <;> rw [Int.tdiv_eq_ediv_of_nonneg (by omega)] <;> push_cast <;> rfl
  have hle : (if first then delta / 700 else delta / 2 : Nat) ≤ delta / 2 := by split <;> omega
  simp only [adapt, Punycode.adapt, hdiv 0]
  generalize (if first then delta / 700 else delta / 2 : Nat) = d at hle
  have h1 : d / n ≤ d := Nat.div_le_self ..
  have hs : toInt ((toSize (d : Int) + toSize (d : Int) / n) % 2 ^ 64) = ((d + d / n : Nat) : Int) := by
    rw [toSize_nat _ (by omega), Nat.mod_eq_of_lt (by omega), toInt_nat _ (by omega)]
  have hpow : d + d / n < 35 ^ 7 := by
    have : (2 : Nat) ^ 31 < 35 ^ 7 := by norm_num
    omega
  have hb := shrink_bounds 7 (d + d / n) 0 hpow
  have hl := adaptLoop_ok 7 (d + d / n) 0 hpow (by omega)
  generalize Punycode.shrink (d + d / n) 0 = r at hb hl
  obtain ⟨a, k⟩ := r
  rw [if_neg (by omega)]
  simp only [hs]
  simp only [Nat.cast_zero] at hl
  have hint : ∀ x : Int, 0 ≤ x → x < 2 ^ 31 → int x = .ok x := fun x => int_ok
  generalize int = I at hint ⊢
  have hq : (36 * (a : Int)).tdiv (a + 38) = ((36 * a / (a + 38) : Nat) : Int) := by
    rw [Int.tdiv_eq_ediv_of_nonneg (by omega)]; push_cast; rfl
  have h36 : 36 * a / (a + 38) ≤ 36 := by
    rw [Nat.div_le_iff_le_mul (by omega)]; omega
  rw [show (36 - 1 + 1) * a / (a + 38) = 36 * a / (a + 38) from rfl]
  generalize 36 * a / (a + 38) = y at hq h36 ⊢
  rw [hl]
  simp only at hb
  rw [ok_bind, hint _ (by omega) (by omega), ok_bind, hint _ (by omega) (by omega), ok_bind, if_neg (by omega), hq, hint _ (by omega) (by omega)]
  rfl

theorem adapt_bound (delta n : Nat) (first : Bool) (hd : delta < 2 ^ 31) : Punycode.adapt delta n first ≤ 288 := by
  have hle : (if first then delta / 700 else delta / 2 : Nat) ≤ delta / 2 := by split <;> omega
  simp only [Punycode.adapt]
  generalize (if first then delta / 700 else delta / 2 : Nat) = d at hle
  have h1 : d / n ≤ d := Nat.div_le_self ..
  have hpow : d + d / n < 35 ^ 7 := by
    have : (2 : Nat) ^ 31 < 35 ^ 7 := by norm_num
    omega
  have hb := shrink_bounds 7 (d + d / n) 0 hpow
  generalize Punycode.shrink (d + d / n) 0 = r at hb
  obtain ⟨a, k⟩ := r
  simp only at hb ⊢
  have h36 : 36 * a / (a + 38) ≤ 36 := by
    rw [Nat.div_le_iff_le_mul (by omega)]; omega
  show k + 36 * a / (a + 38) ≤ 288
  omega

theorem threshold_ok (bias k : Nat) (hb : bias < 2 ^ 30) : threshold bias k = .ok ((Punycode.threshold bias k : Nat) : Int) := by
  simp only [threshold, Punycode.threshold]
  by_cases h : k ≤ bias
  · rw [if_pos (by omega), if_pos h]; rfl
  · rw [if_neg (by omega), if_neg h, int_ok (by omega) (by omega)]
    simp only
    by_cases h' : k ≥ bias + 26
    · rw [if_pos (by omega), if_pos h']; rfl
    · rw [if_neg (by omega), if_neg h', int_ok (by omega) (by omega)]
      congr 1; omega

theorem threshold_range (bias k : Nat) : 1 ≤ Punycode.threshold bias k ∧ Punycode.threshold bias k ≤ 26 := by
  simp only [Punycode.threshold]; split_ifs <;> omega

/-- The digit with value `d`. -/
def dig (d : Nat) : UInt8 := base36.getD d 0

theorem digit_ok {d : Nat} (h : d < 36) : digit (d : Int) = .ok (dig d) := by
  have : ∀ d : Fin 36, digit ((d.val : Nat) : Int) = .ok (dig d.val) := by decide +kernel
  exact this ⟨d, h⟩

theorem dig_value {d : Nat} (h : d < 36) : Punycode.value (dig d) = some d := by
  have : ∀ d : Fin 36, Punycode.value (dig d.val) = some d.val := by decide +kernel
  exact this ⟨d, h⟩

/-- Digits are lower-case letters or decimal digits. -/
def IsDig (c : UInt8) : Prop := 97 ≤ c.toNat ∧ c.toNat ≤ 122 ∨ 48 ≤ c.toNat ∧ c.toNat ≤ 57

theorem dig_isDig {d : Nat} (h : d < 36) : IsDig (dig d) := by
  have : ∀ d : Fin 36, 97 ≤ (dig d.val).toNat ∧ (dig d.val).toNat ≤ 122 ∨ 48 ≤ (dig d.val).toNat ∧ (dig d.val).toNat ≤ 57 := by decide +kernel
  exact this ⟨d, h⟩

/-! ### Output -/

/-- The output after the characters `w`, starting at offset `q` of `buf`. -/
def rep (buf : List UInt8) (q : Nat) (w : List UInt8) : Out :=
  { o := if q + w.length ≤ buf.length then some (q + w.length) else none, buf := buf.take q ++ over (buf.drop q) w, size := w.length }

theorem emit_rep (buf : List UInt8) (q : Nat) (w : List UInt8) (c : UInt8) :
    emit buf.length (rep buf q w) c = .ok (rep buf q (w ++ [c])) := by
  simp only [emit, rep, List.length_append, List.length_cons, List.length_nil]
  by_cases h : q + w.length ≤ buf.length
  · rw [if_pos h]
    simp only
    by_cases h' : q + w.length ≥ buf.length
    · rw [if_pos h', if_neg (by omega), over_snoc, if_neg (by simp; omega)]
    · rw [if_neg h', wr_ok (by simp; omega), if_pos (by omega), over_snoc, if_pos (by simp; omega)]
      simp only
      rw [List.set_append_right _ _ (by simp), List.length_take, Nat.min_eq_left (by omega), show q + w.length - q = w.length by omega]
      rfl
  · rw [if_neg h, if_neg (by omega), over_snoc, if_neg (by simp; omega)]

theorem emits_rep (buf : List UInt8) (q : Nat) (cs : List UInt8) : ∀ w, emits buf.length (rep buf q w) cs = .ok (rep buf q (w ++ cs)) := by
  induction cs with
  | nil => intro w; rw [emits, List.append_nil]
  | cons c cs ih =>
    intro w
    rw [emits, emit_rep]
    simp only
    rw [ih, List.append_assoc]; rfl

/-! ### Integers -/

/-- The state of the decoder after an integer that ends with `i`. -/
def taken (s : Punycode.State) (i : Nat) : Punycode.State :=
  let length := s.output.length + 1
  { output := s.output.take (i % length) ++ (s.n + i / length) :: s.output.drop (i % length), n := s.n + i / length, i := i % length + 1,
    bias := Punycode.adapt (i - s.oldi) length (s.oldi == 0), oldi := i % length + 1, w := 1, k := 36 }

/-- `ds` is emitted for `q`, and the decoder reads it as `q`. -/
def Digits (bias q k : Nat) (ds : List UInt8) : Prop :=
  (∀ c ∈ ds, IsDig c) ∧ (∀ buf p w, digitLoop buf.length bias q k (rep buf p w) = .ok (rep buf p (w ++ ds))) ∧
    ∀ (s : Punycode.State), s.bias = bias → s.k = k → Punycode.steps s ds = some (taken s (s.i + q * s.w))

theorem digitLoop_step {e : Nat} {bias q k t k' : Int} {s s' : Out} {d : UInt8} (h1 : threshold bias k = .ok t) (h2 : ¬ q < t)
    (h3 : digit (t + (q - t) % (36 - t)) = .ok d) (h4 : emit e s d = .ok s') (h5 : int (k + 36) = .ok k') :
    digitLoop e bias q k s = digitLoop e bias ((q - t) / (36 - t)) k' s' := by
  rw [digitLoop]
  split
  · rename_i e he
    rw [h1] at he; cases he
  · rename_i t' he
    rw [h1] at he
    cases he
    rw [dif_neg h2, h3]
    simp only [h4, h5]

/-- The last digit. -/
theorem digits_last {bias q k : Nat} (hb : bias < 2 ^ 30) (hq : q < Punycode.threshold bias k) :
    ∃ ds, Digits bias q k ds := by
  have ht := threshold_range bias k
  refine ⟨[dig q], by simpa using dig_isDig (by omega), fun buf p w => ?_, fun s h1 h2 => ?_⟩
  · rw [digitLoop]
    split
    · rename_i e he
      rw [threshold_ok _ _ hb] at he; simp at he
    · rename_i t he
      rw [threshold_ok _ _ hb] at he
      simp only [Except.ok.injEq] at he
      subst he
      rw [dif_pos (by omega), digit_ok (by omega)]
      exact emit_rep ..
  · simp only [Punycode.steps, Punycode.step, dig_value (show q < 36 by omega), h1, h2, if_pos hq, taken]

/-- The digits emitted for `q`, and what the decoder makes of them. -/
theorem digitLoop_ok (bias : Nat) (hb : bias < 2 ^ 30) (j : Nat) : ∀ q k : Nat, q < 10 ^ j → k + 36 * j + 36 < 2 ^ 31 →
    ∃ ds, Digits bias q k ds := by
  induction j with
  | zero =>
    intro q k h1 h2
    have ht := threshold_range bias k
    exact digits_last hb (q := q) (k := k) (by omega)
  | succ j ih =>
    intro q k h1 h2
    have ht := threshold_range bias k
    have hto := threshold_ok bias k hb
    by_cases hq : q < Punycode.threshold bias k
    · exact digits_last hb (q := q) (k := k) hq
    generalize hteq : Punycode.threshold bias k = t at *
    have hq' : (q - t) / (36 - t) < 10 ^ j := by
      rw [Nat.div_lt_iff_lt_mul (by omega)]
      rw [pow_succ] at h1
      calc q - t < 10 ^ j * 10 := by omega
        _ ≤ 10 ^ j * (36 - t) := Nat.mul_le_mul_left _ (by omega)
    have hm : (q - t) % (36 - t) < 36 - t := Nat.mod_lt _ (by omega)
    have hdm := Nat.div_add_mod (q - t) (36 - t)
    obtain ⟨ds, d1, d2, d3⟩ := ih ((q - t) / (36 - t)) (k + 36) hq' (by omega)
    refine ⟨dig (t + (q - t) % (36 - t)) :: ds, ?_, fun buf p w => ?_, fun s h1 h2 => ?_⟩
    · intro c hc
      rcases List.mem_cons.1 hc with rfl | hc
      · exact dig_isDig (by omega)
      · exact d1 c hc
    · have hrec := d2 buf p (w ++ [dig (t + (q - t) % (36 - t))])
      rw [List.append_assoc] at hrec
      have e1 : ((q : Int) - t) % (36 - t) = (((q - t) % (36 - t) : Nat) : Int) := by
        rw [Int.natCast_mod]
        congr 1 <;> omega
      have e2 : ((q : Int) - t) / (36 - t) = (((q - t) / (36 - t) : Nat) : Int) := by
        rw [Int.natCast_div]
        congr 1 <;> omega
      rw [digitLoop_step hto (by omega) (d := dig (t + (q - t) % (36 - t))) _ (emit_rep ..) (int_ok (by omega) (by omega)), e2]
      · exact_mod_cast hrec
      · rw [e1, show (t : Int) + (((q - t) % (36 - t) : Nat) : Int) = ((t + (q - t) % (36 - t) : Nat) : Int) by omega]
        exact digit_ok (by omega)
    · simp only [Punycode.steps, Punycode.step, dig_value (show t + (q - t) % (36 - t) < 36 by omega), h1, h2, hteq]
      rw [if_neg (by omega)]
      simp only
      have hd := d3 { s with i := s.i + (t + (q - t) % (36 - t)) * s.w, w := s.w * (36 - t), k := k + 36 } h1 rfl
      simp only [h1] at hd
      rw [hd]
      have key : s.i + (t + (q - t) % (36 - t)) * s.w + (q - t) / (36 - t) * (s.w * (36 - t)) = s.i + q * s.w := by
        have : q = t + (q - t) % (36 - t) + (q - t) / (36 - t) * (36 - t) := by
          rw [Nat.mul_comm ((q - t) / (36 - t))]; omega
        conv_rhs => rw [this]
        ring
      simp only [taken, key]

end Verif.Puny
