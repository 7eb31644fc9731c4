import Verif.Model.IntSet
import Verif.Spec.IntSet
import Verif.Base.Tac

/-! Helper lemmas for `intset.c`. -/

namespace Verif.IntSet
open Verif.Spec.IntSet (apply after IsNext)

/-- The bit of element `i`. -/
def bitAt (s : IntSet) (i : Nat) : Bool := (s.data.getD (i / 64) 0).toNat.testBit (i % 64)

/-- The shape of a set: as many words as needed. -/
def Wf (s : IntSet) : Prop := s.data.length = (s.size.toNat + 63) / 64

theorem toUInt64_lt (e : UInt32) (n : UInt64) : e.toUInt64 < n ↔ e.toNat < n.toNat := by
  rw [UInt64.lt_iff_toNat_lt]; simp

theorem bit_toNat (e : UInt32) : (bit e).toNat = 2 ^ (e.toNat % 64) := by
  have h : e.toNat % 64 < 64 := Nat.mod_lt _ (by decide)
  simp only [bit, UInt64.toNat_shiftLeft, UInt32.toNat_toUInt64, UInt32.toNat_mod, UInt64.toNat_one]
  have : (64 : UInt32).toNat = 64 := rfl
  rw [this, Nat.mod_mod, Nat.one_shiftLeft, Nat.mod_eq_of_lt]
  exact Nat.pow_lt_pow_right (by omega) h

theorem not_testBit (x : UInt64) (j : Nat) (h : j < 64) : (~~~ x).toNat.testBit j = ! x.toNat.testBit j := by
  rw [UInt64.toNat_not, show UInt64.size - 1 - x.toNat = 2 ^ 64 - (x.toNat + 1) by simp [UInt64.size],
    Nat.testBit_two_pow_sub_succ x.toNat_lt]
  simp [h]

theorem ones_testBit (j : Nat) (h : j < 64) : (~~~ (0 : UInt64)).toNat.testBit j = true := by
  rw [not_testBit _ _ h]; simp

theorem shl_ones_testBit (r : UInt32) (hr : r.toNat < 64) (j : Nat) (h : j < 64) :
    ((~~~ (0 : UInt64)) <<< r.toUInt64).toNat.testBit j = decide (r.toNat ≤ j) := by
  simp only [UInt64.toNat_shiftLeft, UInt32.toNat_toUInt64]
  rw [Nat.mod_eq_of_lt hr, Nat.testBit_mod_two_pow, Nat.testBit_shiftLeft]
  simp only [h, decide_true, Bool.true_and]
  by_cases hj : r.toNat ≤ j
  · rw [ones_testBit _ (show j - r.toNat < 64 by omega)]; simp [hj]
  · simp [hj]

theorem and_pow_zero (n i : Nat) : n &&& 2 ^ i = 0 ↔ n.testBit i = false := by
  constructor
  · intro h
    have := congrArg (fun m => m.testBit i) h
    simpa [Nat.testBit_and, Nat.testBit_two_pow] using this
  · intro h
    apply Nat.eq_of_testBit_eq
    intro j
    rw [Nat.testBit_and, Nat.testBit_two_pow]
    by_cases hij : i = j
    · subst hij; simp [h]
    · simp [hij]

theorem word_ok {s : IntSet} {i : Nat} (h : i < s.data.length) : word s i = .ok (s.data.getD i 0) := by
  simp [word, h]

theorem div_toNat (e : UInt32) : (e / 64).toNat = e.toNat / 64 := by
  rw [UInt32.toNat_div]; rfl

theorem mod_toNat (e : UInt32) : (e % 64).toNat = e.toNat % 64 := by
  rw [UInt32.toNat_mod]; rfl

theorem bitAt_set (s : IntSet) (k : Nat) (w : UInt64) (hk : k < s.data.length) (i : Nat) :
    bitAt { s with data := s.data.set k w } i = if i / 64 = k then w.toNat.testBit (i % 64) else bitAt s i := by
  simp only [bitAt, List.getD_eq_getElem?_getD, List.getElem?_set]
  by_cases h : i / 64 = k
  · subst h; simp [hk]
  · simp [h, Ne.symm h]

theorem add_spec {s : IntSet} (hw : Wf s) (e : UInt32) :
    ∃ s', add s e = .ok s' ∧ Wf s' ∧ s'.size = s.size ∧
      ∀ i, i < s.size.toNat → bitAt s' i = if i = e.toNat then true else bitAt s i := by
  unfold add
  by_cases h : e.toUInt64 < s.size
  · have h' := (toUInt64_lt e s.size).mp h
    have hlen : e.toNat / 64 < s.data.length := by rw [hw]; omega
    rw [if_pos h, div_toNat, word_ok hlen]
    simp only [setWord]
    rw [if_pos hlen]
    refine ⟨_, rfl, ?_, rfl, ?_⟩
    · simpa [Wf] using hw
    · intro i hi
      rw [bitAt_set _ _ _ hlen, UInt64.toNat_or, bit_toNat, Nat.testBit_or, Nat.testBit_two_pow]
      by_cases hie : i = e.toNat
      · subst hie; simp
      · rw [if_neg hie]
        split
        · rename_i hd
          have : e.toNat % 64 ≠ i % 64 := by omega
          simp [this, bitAt, hd]
        · rfl
  · rw [if_neg h]
    refine ⟨s, rfl, hw, rfl, fun i hi => ?_⟩
    rw [if_neg]
    rw [toUInt64_lt] at h
    omega

theorem remove_spec {s : IntSet} (hw : Wf s) (e : UInt32) :
    ∃ s', remove s e = .ok s' ∧ Wf s' ∧ s'.size = s.size ∧
      ∀ i, i < s.size.toNat → bitAt s' i = if i = e.toNat then false else bitAt s i := by
  unfold remove
  by_cases h : e.toUInt64 < s.size
  · have h' := (toUInt64_lt e s.size).mp h
    have hlen : e.toNat / 64 < s.data.length := by rw [hw]; omega
    rw [if_pos h, div_toNat, word_ok hlen]
    simp only [setWord]
    rw [if_pos hlen]
    refine ⟨_, rfl, ?_, rfl, ?_⟩
    · simpa [Wf] using hw
    · intro i hi
      rw [bitAt_set _ _ _ hlen, UInt64.toNat_and, Nat.testBit_and, not_testBit _ _ (Nat.mod_lt _ (by decide)), bit_toNat,
        Nat.testBit_two_pow]
      by_cases hie : i = e.toNat
      · subst hie; simp
      · rw [if_neg hie]
        split
        · rename_i hd
          have : e.toNat % 64 ≠ i % 64 := by omega
          simp [this, bitAt, hd]
        · rfl
  · rw [if_neg h]
    refine ⟨s, rfl, hw, rfl, fun i hi => ?_⟩
    rw [if_neg]
    rw [toUInt64_lt] at h
    omega

theorem has_spec {s : IntSet} (hw : Wf s) (e : UInt32) :
    has s e = .ok (decide (e.toNat < s.size.toNat) && bitAt s e.toNat) := by
  unfold has
  by_cases h : e.toUInt64 < s.size
  · have h' := (toUInt64_lt e s.size).mp h
    have hlen : e.toNat / 64 < s.data.length := by rw [hw]; omega
    rw [if_pos h, div_toNat, word_ok hlen]
    simp only [h', decide_true, Bool.true_and, Except.ok.injEq]
    rw [Bool.eq_iff_iff, bne_iff_ne, ne_eq, ← UInt64.toNat_inj, UInt64.toNat_and, bit_toNat, UInt64.toNat_zero, and_pow_zero]
    simp only [bitAt]
    cases (s.data.getD (e.toNat / 64) 0).toNat.testBit (e.toNat % 64) <;> simp
  · rw [if_neg h]
    rw [toUInt64_lt] at h
    simp [h]

theorem bitsToLongs_toNat (n : UInt64) (h : n.toNat < 2 ^ 64 - 64) : (bitsToLongs n).toNat = (n.toNat + 63) / 64 := by
  simp only [bitsToLongs, UInt64.toNat_div, UInt64.toNat_sub, UInt64.toNat_add, UInt64.toNat_one]
  have : (64 : UInt64).toNat = 64 := rfl
  rw [this]
  omega

theorem make_spec (n : UInt64) (h : n.toNat < 2 ^ 64 - 64) :
    Wf (make n) ∧ (make n).size = n ∧ ∀ i, bitAt (make n) i = false := by
  refine ⟨?_, rfl, fun i => ?_⟩
  · simp [Wf, make, bitsToLongs_toNat n h]
  · simp only [bitAt, make, List.getD_eq_getElem?_getD, List.getElem?_replicate]
    split <;> simp

theorem run_bind_some {α β : Type} {x : D α} {a : α} (h : Returns x a) (f : α → D β) : (x >>= f) = f a := by
  unfold Returns at h
  show ExceptT.bind x f = f a
  unfold ExceptT.bind
  have hx : x = (some (.ok a) : Option (Except Err α)) := h
  subst hx
  rfl

theorem fillLoop_spec (s : IntSet) (i : UInt32) (hw : Wf s) (hsz : s.size.toNat ≤ 2 ^ 38 - 64)
    (hi : i.toNat ≤ (s.size.toNat + 63) / 64)
    (hprev : ∀ j, j < 64 * i.toNat → bitAt s j = true) :
    ∃ s', Returns (fillLoop s i) s' ∧ Wf s' ∧ s'.size = s.size ∧ ∀ j, j < s.size.toNat → bitAt s' j = true := by
  induction hn : (s.size.toNat + 63) / 64 - i.toNat generalizing s i with
  | zero =>
    rw [fillLoop]
    have h1 : ¬ i.toUInt64 < bitsToLongs s.size := by
      rw [toUInt64_lt, bitsToLongs_toNat _ (by omega)]; omega
    simp only [h1, if_false]
    refine ⟨s, by simp, hw, rfl, fun j hj => hprev j (by omega)⟩
  | succ n ih =>
    rw [fillLoop]
    have h1 : i.toUInt64 < bitsToLongs s.size := by
      rw [toUInt64_lt, bitsToLongs_toNat _ (by omega)]; omega
    have hlen : i.toNat < s.data.length := by rw [hw]; omega
    simp only [h1, if_true]
    rw [run_bind_some ((returns_liftC _ _).mpr (by simp only [setWord]; rw [if_pos hlen]))]
    have h2 : (i + 1).toNat = i.toNat + 1 := by
      rw [UInt32.toNat_add]
      have : (1 : UInt32).toNat = 1 := rfl
      rw [this]
      omega
    apply ih
    · simpa [Wf] using hw
    · exact hsz
    · simp only; omega
    · intro j hj
      rw [bitAt_set _ _ _ hlen]
      split
      · exact ones_testBit _ (Nat.mod_lt _ (by decide))
      · exact hprev j (by omega)
    · simp only; omega

theorem ctz_spec {x : UInt64} (h : x ≠ 0) : ctz x < 64 ∧ x.toNat.testBit (ctz x) = true ∧
    ∀ i, i < ctz x → x.toNat.testBit i = false := by
  have hne : x.toNat ≠ 0 := fun h0 => h (UInt64.toNat_inj.mp h0)
  obtain ⟨j, hj⟩ := Nat.exists_testBit_of_ne_zero hne
  have hj64 : j < 64 := by
    by_contra hge
    rw [Nat.testBit_lt_two_pow (Nat.lt_of_lt_of_le x.toNat_lt (Nat.pow_le_pow_right (by omega) (by omega)))] at hj
    simp at hj
  unfold ctz
  cases hf : (List.range 64).find? (fun i => x.toNat.testBit i) with
  | none =>
    rw [List.find?_range_eq_none] at hf
    have := hf j hj64
    simp [hj] at this
  | some m =>
    rw [List.find?_range_eq_some] at hf
    obtain ⟨h1, h2, h3⟩ := hf
    simp only [Option.getD_some]
    exact ⟨by simpa using h2, h1, fun i hi => by simpa using h3 i hi⟩

theorem load_spec {s : IntSet} (hw : Wf s) (hit : Bool) (e : UInt32) (h : e.toNat < s.size.toNat) :
    ∃ x, load s hit e = .ok x ∧ ∀ j, j < 64 → x.toNat.testBit j = (bitAt s (64 * (e.toNat / 64) + j) == hit) := by
  have hlen : e.toNat / 64 < s.data.length := by rw [hw]; omega
  unfold load
  rw [div_toNat, word_ok hlen]
  refine ⟨_, rfl, fun j hj => ?_⟩
  have h1 : (64 * (e.toNat / 64) + j) / 64 = e.toNat / 64 := by omega
  have h2 : (64 * (e.toNat / 64) + j) % 64 = j := by omega
  simp only [bitAt, h1, h2]
  cases hit
  · simp only [Bool.false_eq_true, if_false]
    rw [not_testBit _ _ hj]
    cases (s.data.getD (e.toNat / 64) 0).toNat.testBit j <;> rfl
  · simp only [if_true]
    cases (s.data.getD (e.toNat / 64) 0).toNat.testBit j <;> rfl

/-- `IsNext`, for a result that went through the conversion to `int`. -/
def IsNextU (n : Nat) (P : Nat → Prop) (lo : Nat) (r : Int) : Prop :=
  (r = -1 ∧ ∀ i, lo ≤ i → i < n → ¬ P i) ∨
  ∃ m : UInt32, r = toInt m ∧ lo ≤ m.toNat ∧ m.toNat < n ∧ P m.toNat ∧ ∀ i, lo ≤ i → i < m.toNat → ¬ P i

theorem findLoop_spec (s : IntSet) (hit : Bool) (lo : Nat) (hw : Wf s) (hsz : s.size.toNat ≤ 2 ^ 32 - 64)
    (e : UInt32) (x : UInt64) (he : e.toNat % 64 = 0) (hlt : e.toNat < s.size.toNat)
    (hlo64 : lo < e.toNat + 64)
    (hx : ∀ j, j < 64 → x.toNat.testBit j = (decide (lo ≤ e.toNat + j) && (bitAt s (e.toNat + j) == hit)))
    (hlo : ∀ i, lo ≤ i → i < e.toNat → bitAt s i ≠ hit) :
    ∃ r, Returns (findLoop s hit e x) r ∧ IsNextU s.size.toNat (fun i => bitAt s i = hit) lo r := by
  induction hn : s.size.toNat - e.toNat using Nat.strong_induction_on generalizing e x with
  | _ n ih =>
    rw [findLoop]
    by_cases h0 : x = 0
    · simp only [h0, if_true]
      have hx0 : ∀ i, lo ≤ i → i < e.toNat + 64 → bitAt s i ≠ hit := by
        intro i hi1 hi2
        by_cases hie : i < e.toNat
        · exact hlo i hi1 hie
        · have := hx (i - e.toNat) (by omega)
          rw [show e.toNat + (i - e.toNat) = i by omega, h0] at this
          simp [hi1] at this
          cases hb : bitAt s i <;> cases hit <;> simp_all
      have h64 : (e + 64).toNat = e.toNat + 64 := by
        rw [UInt32.toNat_add]
        have : (64 : UInt32).toNat = 64 := rfl
        rw [this]; omega
      by_cases hge : (e + 64).toUInt64 ≥ s.size
      · simp only [hge, if_true]
        refine ⟨-1, by simp, .inl ⟨rfl, fun i h1 h2 => hx0 i h1 ?_⟩⟩
        have : ¬ (e + 64).toUInt64 < s.size := by simpa using hge
        rw [toUInt64_lt, h64] at this
        omega
      · simp only [hge, if_false]
        have hlt' : (e + 64).toNat < s.size.toNat := by
          rw [← toUInt64_lt]; simpa using hge
        obtain ⟨x', hl, hx'⟩ := load_spec hw hit (e + 64) hlt'
        rw [run_bind_some ((returns_liftC _ _).mpr hl)]
        refine ih (s.size.toNat - (e + 64).toNat) (by omega) (e + 64) x' (by omega) hlt' (by omega) ?_ ?_ rfl
        · intro j hj
          rw [hx' j hj, show 64 * ((e + 64).toNat / 64) + j = (e + 64).toNat + j by omega]
          rw [decide_eq_true (show lo ≤ (e + 64).toNat + j by omega), Bool.true_and]
        · intro i h1 h2; exact hx0 i h1 (by omega)
    · simp only [h0, if_false]
      obtain ⟨c1, c2, c3⟩ := ctz_spec h0
      have hc : (e + UInt32.ofNat (ctz x)).toNat = e.toNat + ctz x := by
        rw [UInt32.toNat_add, UInt32.toNat_ofNat']
        omega
      have hnone : ∀ i, lo ≤ i → i < e.toNat + ctz x → bitAt s i ≠ hit := by
        intro i hi1 hi2
        by_cases hie : i < e.toNat
        · exact hlo i hi1 hie
        · have := hx (i - e.toNat) (by omega)
          rw [show e.toNat + (i - e.toNat) = i by omega, c3 _ (by omega)] at this
          simp [hi1] at this
          cases hb : bitAt s i <;> cases hit <;> simp_all
      have hyes := hx (ctz x) c1
      rw [c2] at hyes
      simp at hyes
      by_cases hge : (e + UInt32.ofNat (ctz x)).toUInt64 ≥ s.size
      · simp only [hge, if_true]
        have : ¬ (e + UInt32.ofNat (ctz x)).toUInt64 < s.size := by simpa using hge
        rw [toUInt64_lt, hc] at this
        exact ⟨-1, by simp, .inl ⟨rfl, fun i h1 h2 => hnone i h1 (by omega)⟩⟩
      · simp only [hge, if_false]
        have hlt' : (e + UInt32.ofNat (ctz x)).toNat < s.size.toNat := by
          rw [← toUInt64_lt]; simpa using hge
        refine ⟨_, (returns_pure _ _).mpr rfl, .inr ⟨_, rfl, ?_, hlt', ?_, ?_⟩⟩
        · omega
        · rw [hc]; exact hyes.2
        · rw [hc]; exact hnone

theorem findNext_spec (s : IntSet) (hit : Bool) (hw : Wf s) (hsz : s.size.toNat ≤ 2 ^ 32 - 64) (e : UInt32) :
    ∃ r, Returns (findNext s e hit) r ∧ IsNextU s.size.toNat (fun i => bitAt s i = hit) e.toNat r := by
  unfold findNext
  by_cases hge : e.toUInt64 ≥ s.size
  · simp only [hge, if_true]
    have : ¬ e.toUInt64 < s.size := by simpa using hge
    rw [toUInt64_lt] at this
    exact ⟨-1, by simp, .inl ⟨rfl, fun i h1 h2 => by omega⟩⟩
  · simp only [hge, if_false]
    have hlt : e.toNat < s.size.toNat := by rw [← toUInt64_lt]; simpa using hge
    obtain ⟨x, hl, hx⟩ := load_spec hw hit e hlt
    rw [run_bind_some ((returns_liftC _ _).mpr hl)]
    have hr : (e % 64).toNat < 64 := by rw [mod_toNat]; omega
    have hs : (e - e % 64).toNat = 64 * (e.toNat / 64) := by
      rw [UInt32.toNat_sub_of_le _ _ (by rw [UInt32.le_iff_toNat_le, mod_toNat]; omega), mod_toNat]; omega
    apply findLoop_spec s hit e.toNat hw hsz _ _ (by omega) (by omega) (by omega)
    · intro j hj
      rw [UInt64.toNat_and, Nat.testBit_and, hx j hj, shl_ones_testBit _ hr _ hj, hs, mod_toNat, Bool.and_comm]
      congr 1
      rw [decide_eq_decide]
      omega
    · intro i h1 h2; omega

theorem isNextU_congr {n : Nat} {P Q : Nat → Prop} {lo : Nat} {r : Int} (h : IsNextU n P lo r) (hpq : ∀ i, i < n → (P i ↔ Q i)) :
    IsNextU n Q lo r := by
  rcases h with ⟨rfl, h⟩ | ⟨m, rfl, h1, h2, h3, h4⟩
  · exact .inl ⟨rfl, fun i h1 h2 => fun hq => h i h1 h2 ((hpq i h2).mpr hq)⟩
  · exact .inr ⟨m, rfl, h1, h2, (hpq _ h2).mp h3, fun i h5 h6 => fun hq => h4 i h5 h6 ((hpq i (by omega)).mpr hq)⟩

theorem isNext_of_isNextU {n : Nat} {P : Nat → Prop} {lo : Nat} {r : Int} (h : IsNextU n P lo r) (hn : n ≤ 2 ^ 31) :
    IsNext n P lo r := by
  rcases h with h | ⟨m, rfl, h1, h2, h3, h4⟩
  · exact .inl h
  · refine .inr ⟨m.toNat, ?_, h1, h2, h3, h4⟩
    simp only [toInt]; rw [if_pos (by omega)]

end Verif.IntSet
