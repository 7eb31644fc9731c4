import Verif.Model.IdnaGen
import Verif.Proofs.IntSet
import Mathlib.Data.List.Basic

/-! Proofs about `Verif.Model.IdnaGen`. -/

namespace Verif.IdnaGen

variable {σ : Type} [DecidableEq σ]

/-! `generate_test` -/

theorem runTest_neg (l : List (Nat × Nat)) (x : Int) (h : x < 0) : runTest l x = false := by
  induction l with
  | nil => rfl
  | cons e l ih =>
    rw [runTest]
    split
    · simp; omega
    · exact ih

theorem testLoop_spec (status : Nat → σ) (s : σ) (k : Nat) : ∀ (cp : Nat) (prev : Option Nat) (x : Nat),
    prev.getD cp ≤ cp → (∀ z, prev.getD cp ≤ z → z < cp → status z = s) →
    (runTest (testLoop status s k cp prev) x = true ↔
      prev.getD cp ≤ x ∧ status x = s ∧ ∃ y, x < y ∧ y < cp + k ∧ status y ≠ s) := by
  induction k with
  | zero =>
    intro cp prev x hle hall
    simp only [testLoop, runTest, Nat.add_zero, Bool.false_eq_true, false_iff]
    rintro ⟨h1, _, y, h2, h3, h4⟩
    exact h4 (hall y (by omega) h3)
  | succ k ih =>
    intro cp prev x hle hall
    rw [testLoop.eq_def]
    simp only []
    by_cases hcp : status cp = s
    · rw [if_neg (by simpa using hcp)]
      cases prev with
      | some p =>
        simp only [Option.getD_some] at hle hall ⊢
        rw [ih (cp + 1) (some p) x (by simp; omega) (fun z h1 h2 => by
          simp only [Option.getD_some] at h1
          by_cases hz : z = cp
          · rw [hz]; exact hcp
          · exact hall z h1 (by omega))]
        simp only [Option.getD_some, show cp + 1 + k = cp + (k + 1) by omega]
      | none =>
        simp only [Option.getD_none] at hle hall ⊢
        rw [ih (cp + 1) (some cp) x (by simp) (fun z h1 h2 => by
          simp only [Option.getD_some] at h1
          have : z = cp := by omega
          rw [this]; exact hcp)]
        simp only [Option.getD_some, show cp + 1 + k = cp + (k + 1) by omega]
    · rw [if_pos hcp]
      have hrec := ih (cp + 1) none x (by simp) (fun z h1 h2 => by simp only [Option.getD_none] at h1; omega)
      simp only [Option.getD_none, show cp + 1 + k = cp + (k + 1) by omega] at hrec
      cases prev with
      | some p =>
        simp only [Option.getD_some] at hle hall ⊢
        rw [runTest]
        by_cases hx : x < cp
        · rw [if_pos (by omega)]
          simp only [ge_iff_le, Nat.cast_le, decide_eq_true_eq]
          constructor
          · intro h; exact ⟨h, hall x h hx, cp, hx, by omega, hcp⟩
          · rintro ⟨h, _⟩; exact h
        · rw [if_neg (by omega), hrec]
          constructor
          · rintro ⟨h1, h2, h3⟩; exact ⟨by omega, h2, h3⟩
          · rintro ⟨h1, h2, h3⟩
            refine ⟨?_, h2, h3⟩
            by_contra h
            have : x = cp := by omega
            rw [this] at h2; exact hcp h2
      | none =>
        simp only [Option.getD_none] at hle hall ⊢
        rw [hrec]
        constructor
        · rintro ⟨h1, h2, h3⟩; exact ⟨by omega, h2, h3⟩
        · rintro ⟨h1, h2, h3⟩
          refine ⟨?_, h2, h3⟩
          by_contra h
          have : x = cp := by omega
          rw [this] at h2; exact hcp h2

/-! `generate_set` -/

theorem maxOn_spec (status : Nat → σ) (s : σ) (n : Nat) :
    (maxOn status s n = -1 ∧ ∀ x, x < n → status x ≠ s) ∨
    ∃ m : Nat, maxOn status s n = m ∧ m < n ∧ status m = s ∧ ∀ x, m < x → x < n → status x ≠ s := by
  induction n with
  | zero => left; simp [maxOn]
  | succ n ih =>
    rw [maxOn]
    split
    · rename_i h
      right
      exact ⟨n, rfl, by omega, h, fun x h1 h2 => by omega⟩
    · rename_i h
      obtain ⟨h1, h2⟩ | ⟨m, h1, h2, h3, h4⟩ := ih
      · left
        refine ⟨h1, fun x hx => ?_⟩
        by_cases hxn : x = n
        · rw [hxn]; exact h
        · exact h2 x (by omega)
      · right
        refine ⟨m, h1, by omega, h3, fun x h5 h6 => ?_⟩
        by_cases hxn : x = n
        · rw [hxn]; exact h
        · exact h4 x h5 (by omega)

theorem one_shl (k : Nat) (h : k < 64) : ((1 : UInt64) <<< UInt64.ofNat k).toNat = 2 ^ k := by
  rw [UInt64.toNat_shiftLeft, UInt64.toNat_ofNat']
  have h1 : k % 2 ^ 64 % 64 = k := by rw [Nat.mod_eq_of_lt (a := k) (by omega)]; omega
  rw [h1]
  have h2 : 2 ^ k < 2 ^ 64 := Nat.pow_lt_pow_right (by omega) h
  simp only [UInt64.toNat_one, Nat.shiftLeft_eq, Nat.one_mul]
  exact Nat.mod_eq_of_lt h2

/-- Bit `i` of an array of words. -/
def bitOf (words : List UInt64) (i : Nat) : Bool := (words.getD (i / 64) 0).toNat.testBit (i % 64)

theorem setLoop_spec (status : Nat → σ) (s : σ) (k : Nat) : ∀ (words : List UInt64) (cp : Nat),
    (∀ x, cp ≤ x → x < cp + k → x / 64 < words.length) →
    ∃ words', setLoop status s words k cp = .ok words' ∧ words'.length = words.length ∧
      ∀ i, i / 64 < words.length → (bitOf words' i = true ↔ bitOf words i = true ∨ (cp ≤ i ∧ i < cp + k ∧ status i = s)) := by
  induction k with
  | zero =>
    intro words cp _
    refine ⟨words, rfl, rfl, fun i _ => ?_⟩
    constructor
    · exact Or.inl
    · rintro (h | h)
      · exact h
      · omega
  | succ k ih =>
    intro words cp hin
    rw [setLoop]
    split
    · rename_i hs
      have hlt := hin cp (by omega) (by omega)
      rw [List.getElem?_eq_getElem hlt]
      simp only []
      obtain ⟨w', h1, h2, h3⟩ := ih (words.set (cp / 64) (words[cp / 64] ||| 1 <<< UInt64.ofNat (cp % 64))) (cp + 1) (fun x hx1 hx2 => by
        rw [List.length_set]; exact hin x (by omega) (by omega))
      refine ⟨w', h1, by simpa using h2, fun i hi => ?_⟩
      rw [h3 i (by simpa using hi)]
      have hbit : bitOf (words.set (cp / 64) (words[cp / 64] ||| 1 <<< UInt64.ofNat (cp % 64))) i = true ↔ bitOf words i = true ∨ i = cp := by
        simp only [bitOf, List.getD_eq_getElem?_getD, List.getElem?_set]
        by_cases hq : cp / 64 = i / 64
        · rw [if_pos hq, if_pos (by omega)]
          simp only [Option.getD_some, UInt64.toNat_or, Nat.testBit_or, one_shl _ (Nat.mod_lt _ (by omega)), Nat.testBit_two_pow,
            Bool.or_eq_true, decide_eq_true_eq]
          rw [show words[i / 64]? = words[cp / 64]? by rw [hq], List.getElem?_eq_getElem hlt]
          simp only [Option.getD_some]
          constructor
          · rintro (h | h)
            · exact Or.inl h
            · right; omega
          · rintro (h | h)
            · exact Or.inl h
            · right; omega
        · rw [if_neg hq]
          constructor
          · exact Or.inl
          · rintro (h | h)
            · exact h
            · omega
      rw [hbit]
      constructor
      · rintro ((h | rfl) | ⟨h4, h5, h6⟩)
        · exact Or.inl h
        · exact Or.inr ⟨by omega, by omega, hs⟩
        · exact Or.inr ⟨by omega, by omega, h6⟩
      · rintro (h | ⟨h4, h5, h6⟩)
        · exact Or.inl (Or.inl h)
        · by_cases he : i = cp
          · exact Or.inl (Or.inr he)
          · exact Or.inr ⟨by omega, by omega, h6⟩
    · rename_i hs
      obtain ⟨w', h1, h2, h3⟩ := ih words (cp + 1) (fun x hx1 hx2 => hin x (by omega) (by omega))
      refine ⟨w', h1, h2, fun i hi => ?_⟩
      rw [h3 i hi]
      constructor
      · rintro (h | ⟨h4, h5, h6⟩)
        · exact Or.inl h
        · exact Or.inr ⟨by omega, by omega, h6⟩
      · rintro (h | ⟨h4, h5, h6⟩)
        · exact Or.inl h
        · right
          refine ⟨?_, by omega, h6⟩
          by_contra hlt
          have : i = cp := by omega
          rw [this] at h6; exact hs h6

/-- What `generate_set` emits if the largest member is `m`, which is not 0. -/
theorem generateSet_spec (status : Nat → σ) (s : σ) (n m : Nat) (hm : maxOn status s n = m) (hpos : 0 < m) :
    ∃ words, generateSet n status s = .ok (words, (m : Int)) ∧ words.length = (m + 63) / 64 ∧
      ∀ i, i / 64 < words.length → (bitOf words i = true ↔ i < m ∧ status i = s) := by
  have hsize : ((m : Int) + 63).tdiv 64 = ((m + 63) / 64 : Nat) := by
    rw [Int.tdiv_eq_ediv_of_nonneg (by omega)]; omega
  obtain ⟨w, h1, h2, h3⟩ := setLoop_spec status s m (List.replicate ((m + 63) / 64) 0) 0 (fun x _ hx => by
    rw [List.length_replicate]; omega)
  refine ⟨w, ?_, by simpa using h2, fun i hi => ?_⟩
  · rw [generateSet, hm]
    simp only [hsize, Int.toNat_natCast, h1]
    rw [if_neg (by omega)]
  · rw [h3 i (by rw [← h2]; exact hi)]
    have : bitOf (List.replicate ((m + 63) / 64) 0) i = false := by
      simp only [bitOf, List.getD_eq_getElem?_getD, List.getElem?_replicate]
      split <;> simp
    rw [this]
    simp

theorem test_bit (w : UInt64) (k : Nat) (h : k < 64) : (w &&& (1 <<< UInt64.ofNat k) != 0) = w.toNat.testBit k := by
  rw [Bool.eq_iff_iff, bne_iff_ne, ne_eq, ← UInt64.toNat_inj, UInt64.toNat_and, one_shl k h, UInt64.toNat_zero, IntSet.and_pow_zero]
  simp

theorem runSet_in (words : List UInt64) (m i : Nat) (hi : i ≤ m) (hw : i / 64 < words.length) :
    runSet (words, (m : Int)) i = .ok (bitOf words i) := by
  rw [runSet, if_neg (by simpa using hi), if_neg (by omega)]
  simp only [Int.toNat_natCast]
  rw [List.getElem?_eq_getElem hw]
  simp only [Except.ok.injEq]
  rw [test_bit _ _ (Nat.mod_lt _ (by omega))]
  simp [bitOf, List.getD_eq_getElem?_getD, hw]

/-! `generate_mappings` -/

theorem mappings_mem (mapping : Nat → List UInt8) (k : Nat) : ∀ (cp : Nat) (e : Nat × List UInt8), e ∈ mappings mapping k cp ↔
    cp ≤ e.1 ∧ e.1 < cp + k ∧ mapping e.1 ≠ [] ∧ e.2 = mapping e.1 := by
  induction k with
  | zero => intro cp e; simp [mappings]; omega
  | succ k ih =>
    intro cp e
    rw [mappings]
    split
    · rename_i h
      rw [List.mem_cons, ih]
      constructor
      · rintro (rfl | ⟨h1, h2, h3⟩)
        · exact ⟨by simp, by simp, h, rfl⟩
        · exact ⟨by omega, by omega, h3⟩
      · rintro ⟨h1, h2, h3, h4⟩
        by_cases he : e.1 = cp
        · left; ext1
          · exact he
          · rw [h4, he]
        · right; exact ⟨by omega, by omega, h3, h4⟩
    · rename_i h
      rw [ih]
      constructor
      · rintro ⟨h1, h2, h3⟩; exact ⟨by omega, by omega, h3⟩
      · rintro ⟨h1, h2, h3, h4⟩
        refine ⟨?_, by omega, h3, h4⟩
        by_contra hlt
        have : e.1 = cp := by omega
        rw [this] at h3; exact h h3

theorem mappings_sorted (mapping : Nat → List UInt8) (k : Nat) : ∀ cp : Nat, (mappings mapping k cp).Pairwise fun a b => a.1 < b.1 := by
  induction k with
  | zero => intro cp; simp [mappings]
  | succ k ih =>
    intro cp
    rw [mappings]
    split
    · refine List.pairwise_cons.2 ⟨fun e he => ?_, ih _⟩
      have := (mappings_mem mapping k (cp + 1) e).1 he
      simp only; omega
    · exact ih _

theorem minCp_spec (mapping : Nat → List UInt8) (k : Nat) : ∀ cp x : Nat, cp ≤ x → x < cp + k → mapping x ≠ [] →
    minCp mapping k cp ≤ x := by
  induction k with
  | zero => intro cp x h1 h2 _; omega
  | succ k ih =>
    intro cp x h1 h2 h3
    rw [minCp]
    split
    · omega
    · rename_i h
      refine ih _ _ ?_ (by omega) h3
      by_contra hlt
      have : x = cp := by omega
      rw [this] at h3; exact h h3

theorem minCp_nonneg (mapping : Nat → List UInt8) (k : Nat) : ∀ cp : Nat, minCp mapping k cp = -1 ∨ 0 ≤ minCp mapping k cp := by
  induction k with
  | zero => intro cp; exact Or.inl rfl
  | succ k ih =>
    intro cp
    rw [minCp]
    split
    · right; omega
    · exact ih _

theorem maxCp_spec (mapping : Nat → List UInt8) (n : Nat) :
    (maxCp mapping n = -1 ∧ ∀ x, x < n → mapping x = []) ∨
    ∃ m : Nat, maxCp mapping n = m ∧ m < n ∧ mapping m ≠ [] ∧ ∀ x, m < x → x < n → mapping x = [] := by
  induction n with
  | zero => left; simp [maxCp]
  | succ n ih =>
    rw [maxCp]
    split
    · rename_i h
      right
      exact ⟨n, rfl, by omega, h, fun x h1 h2 => by omega⟩
    · rename_i h
      push Not at h
      obtain ⟨h1, h2⟩ | ⟨m, h1, h2, h3, h4⟩ := ih
      · left
        refine ⟨h1, fun x hx => ?_⟩
        by_cases hxn : x = n
        · rw [hxn]; exact h
        · exact h2 x (by omega)
      · right
        refine ⟨m, h1, by omega, h3, fun x h5 h6 => ?_⟩
        by_cases hxn : x = n
        · rw [hxn]; exact h
        · exact h4 x h5 (by omega)

theorem entry_ok (m : MapCode) (i : Nat) (h : i < m.array.length) : entry m i = .ok m.array[i] := by
  rw [entry, if_neg (by omega)]
  simp [h]

/-- The biased binary search finds the first entry not below the code point, if there is one in the window. -/
theorem search_spec (m : MapCode) (cp : Int) (hs : m.array.Pairwise fun a b => a.1 < b.1) (w : Nat) : ∀ (low high : Nat), high - low = w →
    low ≤ high → (hh : high < m.array.length) → cp ≤ m.array[high].1 → (∀ i, (hi : i < m.array.length) → i < low → m.array[i].1 < cp) →
    ∃ r : Nat, Returns (search m cp low high) r ∧ low ≤ r ∧ ∃ hr : r < m.array.length, cp ≤ m.array[r].1 ∧
      ∀ i, (hi : i < m.array.length) → i < r → m.array[i].1 < cp := by
  induction w using Nat.strongRecOn with
  | ind w ih =>
    intro low high hw hle hh hhigh hlow
    rw [search]
    by_cases hlt : low < high
    · rw [if_pos (by omega)]
      have hmid : (4 * (low : Int) + high).tdiv 5 = ((4 * low + high) / 5 : Nat) := by
        rw [Int.tdiv_eq_ediv_of_nonneg (by omega)]; omega
      have hmb : (4 * low + high) / 5 < m.array.length := by omega
      simp only [hmid]
      rw [liftC_bind (entry_ok m _ hmb)]
      by_cases hc : (m.array[(4 * low + high) / 5].1 : Int) < cp
      · rw [if_pos hc]
        obtain ⟨r, h1, h2, h3⟩ := ih (high - ((4 * low + high) / 5 + 1)) (by omega) ((4 * low + high) / 5 + 1) high rfl (by omega) hh hhigh
          (fun i hil hi => by
            by_cases he : i = (4 * low + high) / 5
            · subst he; exact hc
            · have := (List.pairwise_iff_getElem.1 hs) i ((4 * low + high) / 5) (by omega) hmb (by omega)
              omega)
        exact ⟨r, by exact_mod_cast h1, by omega, h3⟩
      · rw [if_neg hc]
        exact ih ((4 * low + high) / 5 - low) (by omega) low ((4 * low + high) / 5) rfl (by omega) hmb (by omega) hlow
    · rw [if_neg (by omega)]
      have : low = high := by omega
      subst this
      exact ⟨low, by simp, le_refl _, hh, hhigh, hlow⟩

theorem mappings_pos (mapping : Nat → List UInt8) (n x : Nat) (hx : x < n) (h : mapping x ≠ []) : (x, mapping x) ∈ mappings mapping n 0 :=
  (mappings_mem mapping n 0 _).2 ⟨by omega, by simpa using hx, h, rfl⟩

theorem lookup_spec (n : Nat) (mapping : Nat → List UInt8) (cp : Int) (h : 0 ≤ cp ∨ ∃ x, x < n ∧ mapping x ≠ []) :
    Returns (lookup (generateMappings n mapping) cp)
      (if 0 ≤ cp ∧ cp < n ∧ mapping cp.toNat ≠ [] then some (mapping cp.toNat) else none) := by
  have harr : (generateMappings n mapping).array = mappings mapping n 0 := rfl
  have hmin : (generateMappings n mapping).min = minCp mapping n 0 := rfl
  have hmax : (generateMappings n mapping).max = maxCp mapping n := rfl
  have hmem := mappings_mem mapping n 0
  rw [lookup, hmin, hmax]
  split
  · rename_i hout
    rw [if_neg, returns_pure]
    rintro ⟨h1, h2, h3⟩
    have := minCp_spec mapping n 0 cp.toNat (by omega) (by omega) h3
    rcases hout with hlt | hgt
    · omega
    · obtain ⟨_, h5⟩ | ⟨m, h5, h6, h7, h8⟩ := maxCp_spec mapping n
      · exact h3 (h5 cp.toNat (by omega))
      · exact h3 (h8 cp.toNat (by omega) (by omega))
  · rename_i hin
    push Not at hin
    obtain ⟨h1, h2⟩ := hin
    obtain ⟨h5, h6⟩ | ⟨m, h5, h6, h7, h8⟩ := maxCp_spec mapping n
    · rcases h with h | ⟨x, h3, h4⟩
      · omega
      · exact absurd (h6 x h3) h4
    have hm := mappings_pos mapping n m h6 h7
    have hlen : 0 < (mappings mapping n 0).length := List.length_pos_of_mem hm
    have hlast : (mappings mapping n 0)[(mappings mapping n 0).length - 1].1 = m := by
      obtain ⟨i, hi, he⟩ := List.getElem_of_mem hm
      have ha := (hmem _).1 (List.getElem_mem (show (mappings mapping n 0).length - 1 < (mappings mapping n 0).length by omega))
      by_contra hne
      have hle : (mappings mapping n 0)[(mappings mapping n 0).length - 1].1 ≤ m := by
        by_contra hgt
        exact ha.2.2.1 (h8 _ (by omega) (by omega))
      by_cases hil : i = (mappings mapping n 0).length - 1
      · subst hil; rw [he] at hne; exact hne rfl
      · have := (List.pairwise_iff_getElem.1 (mappings_sorted mapping n 0)) i ((mappings mapping n 0).length - 1) hi (by omega) (by omega)
        rw [he] at this; simp only at this; omega
    obtain ⟨r, hr1, _, hr2, hr3, hr4⟩ := search_spec (generateMappings n mapping) cp (by rw [harr]; exact mappings_sorted mapping n 0) _ 0
      ((mappings mapping n 0).length - 1) rfl (by omega) (by rw [harr]; omega) (by simp only [harr, hlast]; omega) (fun i _ hi => by omega)
    have hhigh : (generateMappings n mapping).high = (((mappings mapping n 0).length - 1 : Nat) : Int) := by
      show (((mappings mapping n 0).length : Int) - 1) = _
      omega
    rw [hhigh, returns_bind (show Returns (search (generateMappings n mapping) cp 0 (((mappings mapping n 0).length - 1 : Nat) : Int)) r by
      exact_mod_cast hr1), liftC_bind (entry_ok _ r hr2)]
    simp only [harr] at hr2 hr3 hr4 ⊢
    have hr := (hmem _).1 (List.getElem_mem hr2)
    split
    · rename_i hne
      rw [if_neg, returns_pure]
      rintro ⟨h9, h10, h11⟩
      obtain ⟨i, hi, he⟩ := List.getElem_of_mem (mappings_pos mapping n cp.toNat (by omega) h11)
      have hi1 : (mappings mapping n 0)[i].1 = cp.toNat := by rw [he]
      by_cases hir : i < r
      · have := hr4 i hi hir; omega
      · by_cases hir : i = r
        · subst hir; omega
        · have := (List.pairwise_iff_getElem.1 (mappings_sorted mapping n 0)) r i hr2 hi (by omega)
          omega
    · rename_i heq
      push Not at heq
      have hcp : (mappings mapping n 0)[r].1 = cp.toNat := by omega
      rw [if_pos ⟨by omega, by omega, by rw [← hcp]; exact hr.2.2.1⟩, returns_pure, hr.2.2.2, hcp]

end Verif.IdnaGen
