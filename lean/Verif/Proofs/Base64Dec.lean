import Verif.Proofs.Base64Enc

namespace Verif.Base64
open Verif.Spec.Base64

/-! ### The bit accumulator -/

/-- `bits << 6 | v`. -/
def stepBits (bits : UInt32) (v : Nat) : UInt32 := bits <<< 6 ||| UInt32.ofNat v

/-- The bytes produced from a list of 6-bit values, and the final accumulator. -/
def run : List Nat → UInt32 → Nat → List UInt8 × UInt32 × Nat
  | [], b, bc => ([], b, bc)
  | v :: vs, b, bc =>
    if 8 ≤ bc + 6 then
      let r := run vs (stepBits b v) (bc + 6 - 8)
      ((stepBits b v >>> UInt32.ofNat (bc + 6 - 8)).toUInt8 :: r.1, r.2)
    else run vs (stepBits b v) (bc + 6)

theorem toNat_stepBits (b : UInt32) (v : Nat) (hv : v < 64) : (stepBits b v).toNat = (b.toNat * 64 + v) % 2 ^ 32 := by
  have hb := b.toNat_lt
  simp only [stepBits, UInt32.toNat_or, UInt32.toNat_shiftLeft]
  have e1 : UInt32.toNat 6 % 32 = 6 := by decide
  have e2 : (UInt32.ofNat v).toNat = v := by rw [UInt32.toNat_ofNat']; omega
  rw [e1, e2, Nat.shiftLeft_eq]
  have e3 : b.toNat * 2 ^ 6 % 2 ^ 32 = (b.toNat % 2 ^ 26) <<< 6 := by rw [Nat.shiftLeft_eq]; omega
  rw [e3, ← Nat.shiftLeft_add_eq_or_of_lt (by omega), Nat.shiftLeft_eq]; omega

theorem toNat_shr8 (b : UInt32) (k : Nat) (hk : k < 32) :
    ((b >>> UInt32.ofNat k).toUInt8).toNat = b.toNat / 2 ^ k % 256 := by
  simp only [UInt32.toNat_toUInt8, UInt32.toNat_shiftRight]
  have e2 : (UInt32.ofNat k).toNat % 32 = k := by rw [UInt32.toNat_ofNat']; omega
  rw [e2, Nat.shiftRight_eq_div_pow]

theorem mask_zero (b : UInt32) (bc : Nat) (h : bc = 0 ∨ bc = 2 ∨ bc = 4) :
    (b &&& ~~~((~~~ (0 : UInt32)) <<< UInt32.ofNat bc) = 0) ↔ b.toNat % 2 ^ bc = 0 := by
  rw [← UInt32.toNat_inj, UInt32.toNat_and]
  rcases h with h | h | h <;> subst h
  · have e : (~~~((~~~ (0 : UInt32)) <<< UInt32.ofNat 0)).toNat = 2 ^ 0 - 1 := by decide
    rw [e, Nat.and_two_pow_sub_one_eq_mod]; simp
  · have e : (~~~((~~~ (0 : UInt32)) <<< UInt32.ofNat 2)).toNat = 2 ^ 2 - 1 := by decide
    rw [e, Nat.and_two_pow_sub_one_eq_mod]; simp
  · have e : (~~~((~~~ (0 : UInt32)) <<< UInt32.ofNat 4)).toNat = 2 ^ 4 - 1 := by decide
    rw [e, Nat.and_two_pow_sub_one_eq_mod]; simp

theorem run1 (v0 : Nat) (b : UInt32) : run [v0] b 0 = ([], stepBits b v0, 6) := by simp [run]

theorem run2 (v0 v1 : Nat) (h0 : v0 < 64) (h1 : v1 < 64) (b : UInt32) :
    ∃ b', run [v0, v1] b 0 = ([UInt8.ofNat (v0 * 4 + v1 / 16)], b', 4) ∧ b'.toNat % 16 = v1 % 16 := by
  refine ⟨stepBits (stepBits b v0) v1, ?_, ?_⟩
  · simp only [run]
    simp only [Nat.reduceAdd, Nat.reduceSub, Nat.reduceLeDiff, if_true, if_false, Prod.mk.injEq, List.cons.injEq, and_true]
    rw [← UInt8.toNat_inj, toNat_shr8 _ _ (by decide), toNat_stepBits _ _ h1, toNat_stepBits _ _ h0, UInt8.toNat_ofNat']
    omega
  · rw [toNat_stepBits _ _ h1]; omega

theorem run3 (v0 v1 v2 : Nat) (h0 : v0 < 64) (h1 : v1 < 64) (h2 : v2 < 64) (b : UInt32) :
    ∃ b', run [v0, v1, v2] b 0 = ([UInt8.ofNat (v0 * 4 + v1 / 16), UInt8.ofNat (v1 % 16 * 16 + v2 / 4)], b', 2) ∧
      b'.toNat % 4 = v2 % 4 := by
  refine ⟨stepBits (stepBits (stepBits b v0) v1) v2, ?_, ?_⟩
  · simp only [run]
    simp only [Nat.reduceAdd, Nat.reduceSub, Nat.reduceLeDiff, if_true, if_false, Prod.mk.injEq, List.cons.injEq, and_true]
    refine ⟨?_, ?_⟩
    · rw [← UInt8.toNat_inj, toNat_shr8 _ _ (by decide), toNat_stepBits _ _ h1, toNat_stepBits _ _ h0, UInt8.toNat_ofNat']
      omega
    · rw [← UInt8.toNat_inj, toNat_shr8 _ _ (by decide), toNat_stepBits _ _ h2, toNat_stepBits _ _ h1,
        toNat_stepBits _ _ h0, UInt8.toNat_ofNat']
      omega
  · rw [toNat_stepBits _ _ h2]; omega

theorem run4 (v0 v1 v2 v3 : Nat) (h0 : v0 < 64) (h1 : v1 < 64) (h2 : v2 < 64) (h3 : v3 < 64) (vs : List Nat)
    (b : UInt32) :
    ∃ b', run (v0 :: v1 :: v2 :: v3 :: vs) b 0 =
      (UInt8.ofNat (v0 * 4 + v1 / 16) :: UInt8.ofNat (v1 % 16 * 16 + v2 / 4) :: UInt8.ofNat (v2 % 4 * 64 + v3) ::
        (run vs b' 0).1, (run vs b' 0).2) := by
  refine ⟨stepBits (stepBits (stepBits (stepBits b v0) v1) v2) v3, ?_⟩
  simp only [run]
  simp only [Nat.reduceAdd, Nat.reduceSub, Nat.reduceLeDiff, if_true, if_false, Prod.mk.injEq, List.cons.injEq, and_true]
  refine ⟨?_, ?_, ?_⟩
  · rw [← UInt8.toNat_inj, toNat_shr8 _ _ (by decide), toNat_stepBits _ _ h1, toNat_stepBits _ _ h0, UInt8.toNat_ofNat']
    omega
  · rw [← UInt8.toNat_inj, toNat_shr8 _ _ (by decide), toNat_stepBits _ _ h2, toNat_stepBits _ _ h1,
      toNat_stepBits _ _ h0, UInt8.toNat_ofNat']
    omega
  · rw [← UInt8.toNat_inj, toNat_shr8 _ _ (by decide), toNat_stepBits _ _ h3, toNat_stepBits _ _ h2,
      toNat_stepBits _ _ h1, toNat_stepBits _ _ h0, UInt8.toNat_ofNat']
    omega

/-- Number of pending bits after the digits of an `n`-byte string. -/
def pend (n : Nat) : Nat := if n % 3 = 0 then 0 else if n % 3 = 1 then 4 else 2

theorem digits_lt (bs : List UInt8) : ∀ v ∈ digits bs, v < 64 := by
  induction bs using digits.induct with
  | case1 => simp [digits]
  | case2 a => have := a.toNat_lt; simp [digits]; omega
  | case3 a b => have := a.toNat_lt; have := b.toNat_lt; simp [digits]; omega
  | case4 a b c rest ih =>
    have := a.toNat_lt; have := b.toNat_lt; have := c.toNat_lt
    simp only [digits, List.mem_cons]
    rintro v (h | h | h | h | h)
    · omega
    · omega
    · omega
    · omega
    · exact ih v h

theorem u8_eq (a : UInt8) (n : Nat) (h : n % 256 = a.toNat) : UInt8.ofNat n = a := by
  rw [← UInt8.toNat_inj, UInt8.toNat_ofNat']; exact h

theorem run_digits (bs : List UInt8) (b : UInt32) :
    ∃ b', run (digits bs) b 0 = (bs, b', pend bs.length) ∧ b'.toNat % 2 ^ pend bs.length = 0 := by
  induction bs using digits.induct generalizing b with
  | case1 => exact ⟨b, by simp [digits, run, pend], by simp [pend, Nat.mod_one]⟩
  | case2 a =>
    have := a.toNat_lt
    obtain ⟨b', e, h⟩ := run2 (a.toNat * 65536 / 262144) (a.toNat * 65536 / 4096 % 64) (by omega) (by omega) b
    refine ⟨b', ?_, ?_⟩
    · simp only [digits, e, pend]
      rw [u8_eq a _ (by omega)]; simp
    · simp only [pend]; simp; omega
  | case3 a a' =>
    have := a.toNat_lt; have := a'.toNat_lt
    obtain ⟨b', e, h⟩ := run3 ((a.toNat * 65536 + a'.toNat * 256) / 262144) ((a.toNat * 65536 + a'.toNat * 256) / 4096 % 64)
      ((a.toNat * 65536 + a'.toNat * 256) / 64 % 64) (by omega) (by omega) (by omega) b
    refine ⟨b', ?_, ?_⟩
    · simp only [digits, e, pend]
      rw [u8_eq a _ (by omega), u8_eq a' _ (by omega)]; simp
    · simp only [pend]; simp; omega
  | case4 a a' a'' rest ih =>
    have := a.toNat_lt; have := a'.toNat_lt; have := a''.toNat_lt
    obtain ⟨b1, e⟩ := run4 ((a.toNat * 65536 + a'.toNat * 256 + a''.toNat) / 262144)
      ((a.toNat * 65536 + a'.toNat * 256 + a''.toNat) / 4096 % 64)
      ((a.toNat * 65536 + a'.toNat * 256 + a''.toNat) / 64 % 64)
      ((a.toNat * 65536 + a'.toNat * 256 + a''.toNat) % 64)
      (by omega) (by omega) (by omega) (by omega) (digits rest) b
    obtain ⟨b', e', h⟩ := ih b1
    have hp : pend (a :: a' :: a'' :: rest).length = pend rest.length := by
      simp only [pend, List.length_cons, Nat.add_assoc, Nat.reduceAdd, Nat.add_mod_right]
    refine ⟨b', ?_, by rw [hp]; exact h⟩
    rw [digits, e, e', hp, u8_eq a _ (by omega), u8_eq a' _ (by omega), u8_eq a'' _ (by omega)]

theorem run_inv : (vs : List Nat) → (∀ v ∈ vs, v < 64) → (b : UInt32) →
    (run vs b 0).2.2 = 6 ∨
    ((run vs b 0).2.2 = pend (run vs b 0).1.length ∧
      ((run vs b 0).2.1.toNat % 2 ^ (run vs b 0).2.2 = 0 → digits (run vs b 0).1 = vs))
  | [], _, b => by simp [run, pend, digits]
  | [v0], _, b => by simp [run1]
  | [v0, v1], h, b => by
    right
    simp only [List.mem_cons, List.not_mem_nil, or_false, forall_eq_or_imp, forall_eq] at h
    obtain ⟨b', e, hb⟩ := run2 v0 v1 h.1 h.2 b
    rw [e]
    refine ⟨by simp [pend], fun hz => ?_⟩
    simp only [digits, UInt8.toNat_ofNat']
    simp only at hz
    congr 1
    · omega
    · congr 1; omega
  | [v0, v1, v2], h, b => by
    right
    simp only [List.mem_cons, List.not_mem_nil, or_false, forall_eq_or_imp, forall_eq] at h
    obtain ⟨b', e, hb⟩ := run3 v0 v1 v2 h.1 h.2.1 h.2.2 b
    rw [e]
    refine ⟨by simp [pend], fun hz => ?_⟩
    simp only [digits, UInt8.toNat_ofNat']
    simp only at hz
    congr 1
    · omega
    · congr 1
      · omega
      · congr 1; omega
  | v0 :: v1 :: v2 :: v3 :: vs, h, b => by
    simp only [List.mem_cons, forall_eq_or_imp] at h
    obtain ⟨b', e⟩ := run4 v0 v1 v2 v3 h.1 h.2.1 h.2.2.1 h.2.2.2.1 vs b
    rw [e]
    rcases run_inv vs h.2.2.2.2 b' with r | ⟨r1, r2⟩
    · left; exact r
    · right
      simp only
      refine ⟨?_, fun hz => ?_⟩
      · rw [r1]
        simp only [pend, List.length_cons, Nat.add_assoc, Nat.reduceAdd, Nat.add_mod_right]
      · simp only [digits, UInt8.toNat_ofNat']
        rw [r2 hz]
        congr 1
        · omega
        · congr 1
          · omega
          · congr 1
            · omega
            · congr 1; omega

/-! ### The scanning loops -/

/-- The values of the data characters; `none` if one is illegal. -/
def vals (f : UInt8 → Int) : List UInt8 → Option (List Nat)
  | [] => some []
  | c :: r => if f c < 0 then (if f c = -2 then vals f r else none) else (vals f r).map ((f c).toNat :: ·)

/-- The text before the first `=`. -/
def dataPart (t : List UInt8) : List UInt8 := t.takeWhile (· ≠ 61)

/-- The source pointer is readable up to `left` bytes or up to a NUL. -/
def Readable (src : List UInt8) (left : Nat) : Prop := left ≤ src.length ∨ (0 : UInt8) ∈ src

@[simp] theorem text_zero (src : List UInt8) : text src 0 = [] := by simp [text]
@[simp] theorem text_nil (n : Nat) : text [] n = [] := by simp [text]
theorem text_cons (c : UInt8) (r : List UInt8) (n : Nat) :
    text (c :: r) (n + 1) = if c = 0 then [] else c :: text r n := by
  simp [text, List.takeWhile_cons]

theorem Readable.tail {c : UInt8} {r : List UInt8} {n : Nat} (h : Readable (c :: r) (n + 1)) (hc : c ≠ 0) :
    Readable r n := by
  rcases h with h | h
  · left; simpa using h
  · right; simp at h; exact h.resolve_left (fun e => hc e.symm)

theorem decLoop2_spec (p62 p63 : UInt8) (ign : Bool) (src : List UInt8) (left pi : Nat) (bits : UInt32) (bc : Nat)
    (hr : Readable src left) :
    decLoop2 p62 p63 ign src left pi bits bc =
      match vals (getBits · p62 p63 ign) (dataPart (text src left)) with
      | none => .ok none
      | some vs => .ok (some (src.drop (dataPart (text src left)).length, left - (dataPart (text src left)).length,
          pi + (run vs bits bc).1.length, (run vs bits bc).2.1, (run vs bits bc).2.2)) := by
  induction src generalizing left pi bits bc with
  | nil =>
    rcases hr with hr | hr
    · have : left = 0 := by simpa using hr
      subst this
      simp [decLoop2, dataPart, vals, run, pure, Except.pure]
    · simp at hr
  | cons c r ih =>
    cases left with
    | zero => simp [decLoop2, dataPart, vals, run, pure, Except.pure]
    | succ n =>
      unfold decLoop2
      rw [text_cons]
      by_cases h0 : c = 0
      · simp [h0, dataPart, vals, run, pure, Except.pure]
      · by_cases h61 : c = 61
        · simp [h61, dataPart, vals, run, pure, Except.pure]
        · have hr' := hr.tail h0
          have hd : dataPart (c :: text r n) = c :: dataPart (text r n) := by
            simp [dataPart, h61]
          rw [if_neg h0, hd]
          simp only [Nat.zero_lt_succ, if_true, ne_eq, h0, h61, not_false_eq_true, and_self, vals,
            Nat.add_sub_cancel, List.length_cons, List.drop_succ_cons, Nat.add_sub_add_right]
          split
          · split
            · rw [ih _ _ _ _ hr']
            · rfl
          · split
            · rename_i h8
              rw [ih _ _ _ _ hr']
              cases vals (getBits · p62 p63 ign) (dataPart (text r n)) with
              | none => rfl
              | some vs => simp [run, h8, stepBits]; omega
            · rename_i h8
              rw [ih _ _ _ _ hr']
              cases vals (getBits · p62 p63 ign) (dataPart (text r n)) with
              | none => rfl
              | some vs => simp [run, h8, stepBits]

/-- Both loops of the decoder in sequence. -/
def decBoth (p62 p63 : UInt8) (ign : Bool) (src : List UInt8) (left : Nat) (dest : List UInt8) (pi : Nat)
    (bits : UInt32) (bc : Nat) : C (Except (List UInt8) DecSt) := do
  match ← decLoop1 p62 p63 ign src left dest pi bits bc with
  | .error d => return .error d
  | .ok s =>
    match ← decLoop2 p62 p63 ign s.src s.left s.pi s.bits s.bitCount with
    | none => return .error s.dest
    | some (src, left, pi, bits, bc) => return .ok ⟨src, left, s.dest, pi, bits, bc⟩

theorem decBoth_spec (p62 p63 : UInt8) (ign : Bool) (d0 : List UInt8) (src : List UInt8) (left : Nat) (o : List UInt8)
    (bits : UInt32) (bc : Nat) (hr : Readable src left) :
    (vals (getBits · p62 p63 ign) (dataPart (text src left)) = none →
      ∃ d : List UInt8, d.length = d0.length ∧
        decBoth p62 p63 ign src left (over d0 o) o.length bits bc = .ok (.error d)) ∧
    (∀ vs, vals (getBits · p62 p63 ign) (dataPart (text src left)) = some vs →
      decBoth p62 p63 ign src left (over d0 o) o.length bits bc =
        .ok (.ok ⟨src.drop (dataPart (text src left)).length, left - (dataPart (text src left)).length,
          over d0 (o ++ (run vs bits bc).1), (o ++ (run vs bits bc).1).length, (run vs bits bc).2.1,
          (run vs bits bc).2.2⟩)) := by
  -- the case in which the first loop stops at once
  have stop : ∀ (src : List UInt8) (left : Nat) (o : List UInt8) (bits : UInt32) (bc : Nat), Readable src left →
      decLoop1 p62 p63 ign src left (over d0 o) o.length bits bc = .ok (.ok ⟨src, left, over d0 o, o.length, bits, bc⟩) →
      (d0.length ≤ o.length ∨ dataPart (text src left) = []) →
      (vals (getBits · p62 p63 ign) (dataPart (text src left)) = none →
      ∃ d : List UInt8, d.length = d0.length ∧
        decBoth p62 p63 ign src left (over d0 o) o.length bits bc = .ok (.error d)) ∧
      (∀ vs, vals (getBits · p62 p63 ign) (dataPart (text src left)) = some vs →
      decBoth p62 p63 ign src left (over d0 o) o.length bits bc =
        .ok (.ok ⟨src.drop (dataPart (text src left)).length, left - (dataPart (text src left)).length,
          over d0 (o ++ (run vs bits bc).1), (o ++ (run vs bits bc).1).length, (run vs bits bc).2.1,
          (run vs bits bc).2.2⟩)) := by
    intro src left o bits bc hr h1 hfull
    simp only [decBoth, h1, bind, Except.bind]
    rw [decLoop2_spec _ _ _ _ _ _ _ _ hr]
    constructor
    · intro hn
      exact ⟨over d0 o, by simp, by simp [hn, pure, Except.pure]⟩
    · intro vs hvs
      simp only [hvs, pure, Except.pure, List.length_append]
      rcases hfull with hf | hf
      · have : over d0 (o ++ (run vs bits bc).1) = over d0 o := by
          rw [over_full (by simp; omega), over_full hf, List.take_append_of_le_length hf]
        rw [this]
      · rw [hf] at hvs
        simp only [vals, Option.some.injEq] at hvs
        subst hvs
        simp [run]
  induction src generalizing left o bits bc with
  | nil =>
    have hl : left = 0 := by
      rcases hr with hr | hr
      · simpa using hr
      · simp at hr
    subst hl
    exact stop _ _ _ _ _ hr (by simp [decLoop1, pure, Except.pure]) (by simp [dataPart])
  | cons c r ih =>
    by_cases hpi : o.length < d0.length ∧ 0 < left
    · obtain ⟨hpi, hl⟩ := hpi
      obtain ⟨n, rfl⟩ : ∃ n, left = n + 1 := ⟨left - 1, by omega⟩
      by_cases h0 : c = 0
      · exact stop _ _ _ _ _ hr (by unfold decLoop1; simp [h0, hpi, pure, Except.pure]) (by simp [text_cons, h0, dataPart])
      · by_cases h61 : c = 61
        · exact stop _ _ _ _ _ hr (by unfold decLoop1; simp [h61, hpi, pure, Except.pure])
            (by simp [text_cons, h61, dataPart])
        · have hr' := hr.tail h0
          have hd : dataPart (text (c :: r) (n + 1)) = c :: dataPart (text r n) := by
            simp [text_cons, h0, dataPart, h61]
          rw [hd]
          simp only [vals, List.length_cons, List.drop_succ_cons, Nat.add_sub_add_right]
          by_cases hneg : getBits c p62 p63 ign < 0
          · by_cases h2 : getBits c p62 p63 ign = -2
            · have e : decBoth p62 p63 ign (c :: r) (n + 1) (over d0 o) o.length bits bc =
                  decBoth p62 p63 ign r n (over d0 o) o.length bits bc := by
                unfold decBoth
                rw [decLoop1]
                simp [hpi, h0, h61, h2]
              rw [e, if_pos hneg, if_pos h2]
              exact ih _ _ _ _ hr'
            · have e : decBoth p62 p63 ign (c :: r) (n + 1) (over d0 o) o.length bits bc =
                  .ok (.error (over d0 o)) := by
                unfold decBoth
                rw [decLoop1]
                simp [hpi, h0, h61, hneg, h2, bind, Except.bind, pure, Except.pure]
              rw [e, if_pos hneg, if_neg h2]
              exact ⟨fun _ => ⟨over d0 o, by simp, rfl⟩, by simp⟩
          · rw [if_neg hneg]
            by_cases h8 : 8 ≤ bc + 6
            · have e : decBoth p62 p63 ign (c :: r) (n + 1) (over d0 o) o.length bits bc =
                  decBoth p62 p63 ign r n
                    (over d0 (o ++ [(stepBits bits (getBits c p62 p63 ign).toNat >>> UInt32.ofNat (bc + 6 - 8)).toUInt8]))
                    (o ++ [(stepBits bits (getBits c p62 p63 ign).toNat >>> UInt32.ofNat (bc + 6 - 8)).toUInt8]).length
                    (stepBits bits (getBits c p62 p63 ign).toNat) (bc + 6 - 8) := by
                unfold decBoth
                rw [decLoop1]
                have hw := wr_over d0 o
                  (stepBits bits (getBits c p62 p63 ign).toNat >>> UInt32.ofNat (bc + 6 - 8)).toUInt8 hpi
                simp only [stepBits] at hw
                simp only [over_length, hpi, hl, and_self, if_true, ne_eq, h0, h61, not_false_eq_true, hneg, if_false, h8,
                  hw, stepBits, List.length_append, List.length_cons, List.length_nil, Nat.zero_add, Nat.add_sub_cancel]
              rw [e]
              obtain ⟨i1, i2⟩ := ih n
                (o ++ [(stepBits bits (getBits c p62 p63 ign).toNat >>> UInt32.ofNat (bc + 6 - 8)).toUInt8])
                (stepBits bits (getBits c p62 p63 ign).toNat) (bc + 6 - 8) hr'
              constructor
              · intro hn
                exact i1 (by simpa using hn)
              · intro vs hvs
                simp only [Option.map_eq_some_iff] at hvs
                obtain ⟨vs', e1, rfl⟩ := hvs
                rw [i2 vs' e1]
                simp [run, h8]
            · have e : decBoth p62 p63 ign (c :: r) (n + 1) (over d0 o) o.length bits bc =
                  decBoth p62 p63 ign r n (over d0 o) o.length
                    (stepBits bits (getBits c p62 p63 ign).toNat) (bc + 6) := by
                unfold decBoth
                rw [decLoop1]
                simp only [over_length, hpi, hl, and_self, if_true, ne_eq, h0, h61, not_false_eq_true, hneg, if_false, h8,
                  stepBits, Nat.add_sub_cancel]
              rw [e]
              obtain ⟨i1, i2⟩ := ih n o (stepBits bits (getBits c p62 p63 ign).toNat) (bc + 6) hr'
              constructor
              · intro hn
                exact i1 (by simpa using hn)
              · intro vs hvs
                simp only [Option.map_eq_some_iff] at hvs
                obtain ⟨vs', e1, rfl⟩ := hvs
                rw [i2 vs' e1]
                simp [run, h8]
    · refine stop _ _ _ _ _ hr ?_ ?_
      · unfold decLoop1
        rw [if_neg (by simpa using hpi)]; rfl
      · by_cases hl : left = 0
        · right; simp [hl, dataPart]
        · left; omega

end Verif.Base64
