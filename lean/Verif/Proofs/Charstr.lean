import Verif.Model.Charstr
import Verif.Spec.Charstr
import Verif.Base.U8
import Verif.Base.Splice
import Verif.Base.Tac

/-! Helper lemmas for `charstr.c` (ASCII part). -/

namespace Verif.Charstr
open Verif.Spec.Charstr

theorem lcase_eq (c : UInt8) : lcaseChar c = lower c := by
  revert c; apply u8_all; decide +kernel

theorem ucase_eq (c : UInt8) : ucaseChar c = upper c := by
  revert c; apply u8_all; decide +kernel

theorem lower_zero (c : UInt8) : lower c = 0 ↔ c = 0 := by
  revert c; apply u8_all; decide +kernel

theorem lower_zero' : lower 0 = 0 := by decide

theorem u8_lt (a b : UInt8) : (a < b) = (a.toNat < b.toNat) := rfl

theorem caseCmp_spec (a : List UInt8) : ∀ (b t u : List UInt8), 0 ∉ a → 0 ∉ b →
    caseCmp (a ++ 0 :: t) (b ++ 0 :: u) = .ok (lexCmp (a.map lower) (b.map lower)) := by
  induction a with
  | nil =>
    intro b t u _ hb
    cases b with
    | nil => simp [caseCmp, peek, lexCmp]
    | cons y b =>
      have : y ≠ 0 := by intro h; subst h; simp at hb
      simp [caseCmp, peek, lexCmp, this]
  | cons x a ih =>
    intro b t u ha hb
    have hx : x ≠ 0 := by intro h; subst h; simp at ha
    have ha' : 0 ∉ a := by simp at ha; tauto
    cases b with
    | nil =>
      have : lower x ≠ 0 := by rw [Ne, lower_zero]; exact hx
      have h1 : ¬ lower x < 0 := by rw [u8_lt]; simp
      have h2 : lower x > 0 := by
        rw [gt_iff_lt, u8_lt]
        have : (lower x).toNat ≠ 0 := fun h => this (u8_toNat_inj h)
        simp only [UInt8.toNat_zero]; omega
      simp only [List.cons_append, List.nil_append, caseCmp, hx, ne_eq, not_false_eq_true, if_true, lcase_eq, lower_zero', if_neg h1, if_pos h2,
        List.map_cons, List.map_nil, lexCmp]
    | cons y b =>
      have hb' : 0 ∉ b := by simp at hb; tauto
      simp only [List.cons_append, caseCmp, hx, ne_eq, not_false_eq_true, if_true, lcase_eq, List.map_cons, lexCmp, u8_lt, gt_iff_lt]
      split
      · rfl
      · split
        · rfl
        · exact ih b t u ha' hb'

theorem ncaseCmp_spec (n : Nat) : ∀ (a b t u : List UInt8), 0 ∉ a → 0 ∉ b →
    ncaseCmp (a ++ 0 :: t) (b ++ 0 :: u) n = .ok (lexCmp ((a.take n).map lower) ((b.take n).map lower)) := by
  induction n with
  | zero => intros; simp [ncaseCmp, lexCmp]
  | succ n ih =>
    intro a b t u ha hb
    cases a with
    | nil =>
      cases b with
      | nil => simp [ncaseCmp, peek, lexCmp]
      | cons y b =>
        have : y ≠ 0 := by intro h; subst h; simp at hb
        simp [ncaseCmp, peek, lexCmp, this]
    | cons x a =>
      have hx : x ≠ 0 := by intro h; subst h; simp at ha
      have ha' : 0 ∉ a := by simp at ha; tauto
      cases b with
      | nil =>
        have : lower x ≠ 0 := by rw [Ne, lower_zero]; exact hx
        have h1 : ¬ lower x < 0 := by rw [u8_lt]; simp
        have h2 : lower x > 0 := by
          rw [gt_iff_lt, u8_lt]
          have : (lower x).toNat ≠ 0 := fun h => this (u8_toNat_inj h)
          simp only [UInt8.toNat_zero]; omega
        simp only [List.cons_append, List.nil_append, ncaseCmp, hx, ne_eq, not_false_eq_true, if_true, lcase_eq, lower_zero', if_neg h1,
          if_pos h2, List.take_succ_cons, List.take_nil, List.map_cons, List.map_nil, lexCmp]
      | cons y b =>
        have hb' : 0 ∉ b := by simp at hb; tauto
        simp only [List.cons_append, ncaseCmp, hx, ne_eq, not_false_eq_true, if_true, lcase_eq, List.take_succ_cons, List.map_cons, lexCmp,
          u8_lt, gt_iff_lt]
        split
        · rfl
        · split
          · rfl
          · exact ih a b t u ha' hb'

theorem cmp_eq_zero (a : List UInt8) : ∀ b, lexCmp a b = 0 ↔ a = b := by
  induction a with
  | nil => intro b; cases b <;> simp [lexCmp]
  | cons x a ih =>
    intro b
    cases b with
    | nil => simp [lexCmp]
    | cons y b =>
      simp only [lexCmp]
      by_cases h1 : x.toNat < y.toNat
      · rw [if_pos h1]; simp; intro h; subst h; omega
      · by_cases h2 : y.toNat < x.toNat
        · rw [if_neg h1, if_pos h2]; simp; intro h; subst h; omega
        · rw [if_neg h1, if_neg h2, ih]
          have : x = y := u8_toNat_inj (by omega)
          simp [this]

theorem cmp_neg (a : List UInt8) : ∀ b, lexCmp b a = - lexCmp a b := by
  induction a with
  | nil => intro b; cases b <;> simp [lexCmp]
  | cons x a ih =>
    intro b
    cases b with
    | nil => simp [lexCmp]
    | cons y b =>
      simp only [lexCmp]
      by_cases h1 : x.toNat < y.toNat
      · have : ¬ y.toNat < x.toNat := by omega
        simp [h1, this]
      · by_cases h2 : y.toNat < x.toNat
        · simp [h1, h2]
        · simp [h1, h2, ih]

theorem cmp_trans (a : List UInt8) : ∀ b c, lexCmp a b ≤ 0 → lexCmp b c ≤ 0 → lexCmp a c ≤ 0 := by
  induction a with
  | nil => intro b c _ _; cases c <;> simp [lexCmp]
  | cons x a ih =>
    intro b c
    cases b with
    | nil => simp [lexCmp]
    | cons y b =>
      cases c with
      | nil => simp [lexCmp]
      | cons z c =>
        simp only [lexCmp]
        intro h1 h2
        split at h1
        · split at h2
          · rw [if_pos (by omega)]; omega
          · split at h2
            · omega
            · rw [if_pos (by omega)]; omega
        · split at h1
          · omega
          · split at h2
            · rw [if_pos (by omega)]; omega
            · split at h2
              · omega
              · rw [if_neg (by omega), if_neg (by omega)]
                exact ih b c h1 h2

theorem skipPrefix_spec (p : List UInt8) : ∀ (s t u : List UInt8), 0 ∉ s → 0 ∉ p →
    skipPrefix (s ++ 0 :: t) (p ++ 0 :: u) = .ok (if p <+: s then some (s.drop p.length ++ 0 :: t) else none) := by
  induction p with
  | nil => intro s t u _ _; cases s <;> simp [skipPrefix]
  | cons x p ih =>
    intro s t u hs hp
    have hx : x ≠ 0 := by intro h; subst h; simp at hp
    have hp' : 0 ∉ p := by simp at hp; tauto
    cases s with
    | nil => simp [skipPrefix, hx, Ne.symm hx]
    | cons y s =>
      have hs' : 0 ∉ s := by simp at hs; tauto
      simp only [List.cons_append, skipPrefix, hx, ne_eq, not_false_eq_true, if_true, List.cons_prefix_cons, List.length_cons,
        List.drop_succ_cons]
      by_cases hy : y = x
      · subst hy
        simp [ih s t u hs' hp']
      · simp [hy, Ne.symm hy]

theorem caseSkipPrefix_spec (p : List UInt8) : ∀ (s t u : List UInt8), 0 ∉ s → 0 ∉ p →
    caseSkipPrefix (s ++ 0 :: t) (p ++ 0 :: u) =
      .ok (if p.map lower <+: s.map lower then some (s.drop p.length ++ 0 :: t) else none) := by
  induction p with
  | nil => intro s t u _ _; cases s <;> simp [caseSkipPrefix]
  | cons x p ih =>
    intro s t u hs hp
    have hx : x ≠ 0 := by intro h; subst h; simp at hp
    have hp' : 0 ∉ p := by simp at hp; tauto
    cases s with
    | nil =>
      have : ¬ lower x = 0 := by rw [lower_zero]; exact hx
      simp [caseSkipPrefix, hx, lcase_eq, lower_zero', Ne.symm this]
    | cons y s =>
      have hs' : 0 ∉ s := by simp at hs; tauto
      simp only [List.cons_append, caseSkipPrefix, hx, ne_eq, not_false_eq_true, if_true, List.map_cons, List.cons_prefix_cons,
        List.length_cons, List.drop_succ_cons, lcase_eq]
      by_cases hy : lower y = lower x
      · simp [ih s t u hs' hp', hy]
      · simp [hy, Ne.symm hy]

theorem strlen_spec (s t : List UInt8) (h : 0 ∉ s) : strlen (s ++ 0 :: t) = .ok s.length := by
  induction s with
  | nil => rfl
  | cons c s ih =>
    simp only [List.mem_cons, not_or] at h
    simp only [List.cons_append, strlen, Ne.symm h.1, if_false, ih h.2, List.length_cons]

theorem strcmp_spec (a : List UInt8) : ∀ (b t u : List UInt8), 0 ∉ a → 0 ∉ b →
    ∃ r, strcmp (a ++ 0 :: t) (b ++ 0 :: u) = .ok r ∧ (r = 0 ↔ a = b) := by
  induction a with
  | nil =>
    intro b t u _ hb
    cases b with
    | nil => exact ⟨0, by simp [strcmp], by simp⟩
    | cons y b =>
      have : y ≠ 0 := by intro h; subst h; simp at hb
      have h0 : 0 < y := by
        rw [u8_lt]
        have : y.toNat ≠ 0 := fun h => this (u8_toNat_inj h)
        simp only [UInt8.toNat_zero]; omega
      exact ⟨-1, by simp only [List.nil_append, List.cons_append, strcmp, if_pos h0], by simp⟩
  | cons x a ih =>
    intro b t u ha hb
    have hx : x ≠ 0 := by intro h; subst h; simp at ha
    have ha' : 0 ∉ a := by simp at ha; tauto
    cases b with
    | nil =>
      have h1 : ¬ x < 0 := by rw [u8_lt]; simp
      have h2 : x > 0 := by
        rw [gt_iff_lt, u8_lt]
        have : x.toNat ≠ 0 := fun h => hx (u8_toNat_inj h)
        simp only [UInt8.toNat_zero]; omega
      exact ⟨1, by simp only [List.nil_append, List.cons_append, strcmp, if_neg h1, if_pos h2], by simp⟩
    | cons y b =>
      have hb' : 0 ∉ b := by simp at hb; tauto
      simp only [List.cons_append, strcmp]
      by_cases h1 : x < y
      · refine ⟨-1, by rw [if_pos h1], ?_⟩
        rw [u8_lt] at h1
        simp; intro h; subst h; omega
      · by_cases h2 : x > y
        · refine ⟨1, by rw [if_neg h1, if_pos h2], ?_⟩
          rw [gt_iff_lt, u8_lt] at h2
          simp; intro h; subst h; omega
        · rw [if_neg h1, if_neg h2, if_neg hx]
          obtain ⟨r, e, h⟩ := ih b t u ha' hb'
          refine ⟨r, e, ?_⟩
          rw [u8_lt] at h1
          rw [gt_iff_lt, u8_lt] at h2
          have : x = y := u8_toNat_inj (by omega)
          simp [h, this]

theorem dupBytes_spec (s t : List UInt8) (n : Nat) (h : n ≤ s.length) : dupBytes (s ++ t) n = .ok (s.take n ++ [0]) := by
  simp only [dupBytes, List.length_append]
  rw [if_pos (by omega), List.take_append_of_le_length h]

theorem dup_spec (s t : List UInt8) (h : 0 ∉ s) : dup (s ++ 0 :: t) = .ok (s ++ [0]) := by
  simp only [dup, dupstr, strlen_spec s t h, dupBytes_spec s (0 :: t) s.length (Nat.le_refl _), List.take_length]

theorem mapStr_spec (f : UInt8 → UInt8) (s t : List UInt8) (h : 0 ∉ s) : mapStr f (s ++ 0 :: t) = .ok (s.map f ++ 0 :: t) := by
  induction s with
  | nil => rfl
  | cons c s ih =>
    simp only [List.mem_cons, not_or] at h
    simp only [List.cons_append, mapStr, Ne.symm h.1, if_false, ih h.2, List.map_cons]

theorem mapSubstr_spec (f : UInt8 → UInt8) (s t : List UInt8) : mapSubstr f (s ++ t) s.length = .ok (s.map f ++ t) := by
  induction s with
  | nil => cases t <;> rfl
  | cons c s ih => simp only [List.cons_append, List.length_cons, mapSubstr, ih, List.map_cons]

theorem strchr_spec (d : UInt8) (hd : d ≠ 0) (s t : List UInt8) (h : 0 ∉ s) :
    strchr d (s ++ 0 :: t) = .ok (if d ∈ s then some (s.idxOf d) else none) := by
  induction s with
  | nil => simp [strchr, Ne.symm hd]
  | cons c s ih =>
    simp only [List.mem_cons, not_or] at h
    simp only [List.cons_append, strchr, List.mem_cons]
    by_cases hc : c = d
    · subst hc; simp
    · rw [if_neg hc, if_neg (Ne.symm h.1), ih h.2, List.idxOf_cons, show (c == d) = false by simpa using hc]
      by_cases hm : d ∈ s <;> simp [hm, Ne.symm hc]

/-- Cutting at the first delimiter. -/
theorem idxOf_split (d : UInt8) (s : List UInt8) (h : d ∈ s) :
    s = s.take (s.idxOf d) ++ d :: s.drop (s.idxOf d + 1) ∧ d ∉ s.take (s.idxOf d) ∧ s.idxOf d < s.length := by
  induction s with
  | nil => simp at h
  | cons c s ih =>
    by_cases hc : c = d
    · subst hc; simp
    · have hm : d ∈ s := by
        rcases List.mem_cons.mp h with h | h
        · exact absurd h.symm hc
        · exact h
      obtain ⟨h1, h2, h3⟩ := ih hm
      have hi : (c :: s).idxOf d = s.idxOf d + 1 := by rw [List.idxOf_cons, show (c == d) = false by simpa using hc]; rfl
      rw [hi]
      refine ⟨?_, ?_, by simpa using h3⟩
      · rw [List.take_succ_cons, List.drop_succ_cons, List.cons_append, ← h1]
      · rw [List.take_succ_cons, List.mem_cons, not_or]
        exact ⟨Ne.symm hc, h2⟩

theorem intercalate_cons {α : Type} (d : List α) (a : List α) (ps : List (List α)) (h : ps ≠ []) :
    List.intercalate d (a :: ps) = a ++ d ++ List.intercalate d ps := by
  cases ps with
  | nil => exact absurd rfl h
  | cons p ps => simp [List.intercalate, List.intersperse]

theorem split_spec (d : UInt8) (hd : d ≠ 0) (max : Nat) : ∀ (s t : List UInt8), 0 ∉ s →
    ∃ ps, split d max (s ++ 0 :: t) = .ok (ps.map (· ++ [0])) ∧ Split d max s ps := by
  induction max with
  | zero =>
    intro s t h
    refine ⟨[s], by simp [split, dup_spec s t h], ⟨by simp [List.intercalate], by simp, by simp⟩⟩
  | succ max ih =>
    intro s t h
    simp only [split, strchr_spec d hd s t h]
    by_cases hm : d ∈ s
    · obtain ⟨e, hn, hl⟩ := idxOf_split d s hm
      rw [if_pos hm]
      simp only [dupBytes_spec s (0 :: t) _ (Nat.le_of_lt hl)]
      rw [List.drop_append_of_le_length (by omega)]
      have h0 : 0 ∉ s.drop (s.idxOf d + 1) := fun hx => h (List.mem_of_mem_drop hx)
      obtain ⟨ps, e2, hs⟩ := ih (s.drop (s.idxOf d + 1)) t h0
      have hne : ps ≠ [] := by
        intro hx; have := hs.count; rw [hx] at this; simp at this
      rw [e2]
      refine ⟨s.take (s.idxOf d) :: ps, rfl, ?_, ?_, ?_⟩
      · rw [intercalate_cons _ _ _ hne, hs.join]
        conv_rhs => rw [e]
        simp
      · intro p hp
        rw [List.dropLast_cons_of_ne_nil hne] at hp
        rcases List.mem_cons.mp hp with rfl | hp
        · exact hn
        · exact hs.clean p hp
      · have hc : s.count d = (s.drop (s.idxOf d + 1)).count d + 1 := by
          conv_lhs => rw [e]
          rw [List.count_append, List.count_eq_zero.mpr hn]
          simp
        rw [List.length_cons, hs.count, hc]
        omega
    · rw [if_neg hm]
      simp only [dup_spec s t h]
      exact ⟨[s], rfl, by simp [List.intercalate], by simp, by simp [List.count_eq_zero.mpr hm]⟩

theorem splitArray_spec (d : UInt8) (k : Nat) : ∀ (s : List UInt8) (arr : List (Option (List UInt8))) (i : Nat) (ps : List (List UInt8)),
    split d k s = .ok ps → i + k < arr.length →
    splitArray d k s arr i = .ok (i + ps.length - 1, splice arr i (ps.map some)) ∧ 1 ≤ ps.length ∧ ps.length ≤ k + 1 := by
  have last : ∀ (s : List UInt8) (arr : List (Option (List UInt8))) (i : Nat) (ps : List (List UInt8)) (hi : i < arr.length),
      (match dup s with
        | .error e => .error e
        | .ok d => .ok [d]) = (.ok ps : C (List (List UInt8))) →
      arrayLast s arr i = .ok (i + ps.length - 1, splice arr i (ps.map some)) ∧ ps.length = 1 := by
    intro s arr i ps hi h
    cases hd : dup s with
    | error e => rw [hd] at h; simp at h
    | ok d =>
      rw [hd] at h
      simp only [Except.ok.injEq] at h
      subst h
      simp only [arrayLast, hd, store, hi, if_true, List.map_cons, List.map_nil, splice_one hi, List.length_cons, List.length_nil]
      simp
  induction k with
  | zero =>
    intro s arr i ps h hi
    obtain ⟨h1, h2⟩ := last s arr i ps hi h
    exact ⟨h1, by omega, by omega⟩
  | succ k ih =>
    intro s arr i ps h hi
    simp only [split] at h
    simp only [splitArray]
    cases hc : strchr d s with
    | error e => rw [hc] at h; simp at h
    | ok r =>
      rw [hc] at h
      cases r with
      | none =>
        obtain ⟨h1, h2⟩ := last s arr i ps (by omega) h
        exact ⟨h1, by omega, by omega⟩
      | some p =>
        simp only at h ⊢
        cases hb : dupBytes s p with
        | error e => rw [hb] at h; simp at h
        | ok x =>
          rw [hb] at h
          simp only at h ⊢
          cases hs : split d k (s.drop (p + 1)) with
          | error e => rw [hs] at h; simp at h
          | ok ps' =>
            rw [hs] at h
            simp only [Except.ok.injEq] at h
            subst h
            obtain ⟨h1, h2, h3⟩ := ih (s.drop (p + 1)) (arr.set i (some x)) (i + 1) ps' hs (by simp; omega)
            have hi' : i < arr.length := by omega
            simp only [store, hi', if_true, h1, List.length_cons, List.map_cons]
            rw [splice_set hi']
            refine ⟨?_, by omega, by omega⟩
            congr 2
            omega

theorem strstr_spec (d u : List UInt8) (hd : 0 ∉ d) (s t : List UInt8) (h : 0 ∉ s) :
    (strstr (s ++ 0 :: t) (d ++ 0 :: u) = .ok none ∧ ¬ d <:+: s) ∨
    (∃ a b, strstr (s ++ 0 :: t) (d ++ 0 :: u) = .ok (some a.length) ∧ s = a ++ d ++ b ∧
      ∀ a' b', a ++ d ++ b = a' ++ d ++ b' → a.length ≤ a'.length) := by
  induction s with
  | nil =>
    have hs := skipPrefix_spec d [] t u (by simp) hd
    rw [List.nil_append] at hs
    by_cases hp : d <+: []
    · right
      rw [if_pos hp] at hs
      have : d = [] := by simpa using hp
      subst this
      refine ⟨[], [], ?_, rfl, by simp⟩
      rw [List.nil_append, strstr, hs]
      rfl
    · left
      rw [if_neg hp] at hs
      rw [List.nil_append, strstr, hs]
      refine ⟨by simp, fun hx => hp ?_⟩
      simpa using hx
  | cons c s ih =>
    have hc : c ≠ 0 := by intro hx; subst hx; simp at h
    have h' : 0 ∉ s := by simp at h; tauto
    have hs := skipPrefix_spec d (c :: s) t u h hd
    rw [List.cons_append] at hs ⊢
    rw [strstr, hs]
    by_cases hp : d <+: c :: s
    · right
      rw [if_pos hp]
      obtain ⟨b, hb⟩ := hp
      exact ⟨[], b, rfl, by simp [hb], by simp⟩
    · rw [if_neg hp]
      simp only [if_neg hc]
      rcases ih h' with ⟨h1, h2⟩ | ⟨a, b, h1, h2, h3⟩
      · left
        rw [h1]
        refine ⟨rfl, fun hx => ?_⟩
        rcases List.infix_cons_iff.mp hx with hx | hx
        · exact hp hx
        · exact h2 hx
      · right
        refine ⟨c :: a, b, by rw [h1]; rfl, by rw [h2]; rfl, ?_⟩
        intro a' b' he
        cases a' with
        | nil =>
          exfalso; apply hp
          exact ⟨b', by rw [h2]; simpa using he.symm⟩
        | cons x a' =>
          simp only [List.cons_append, List.cons.injEq] at he
          have := h3 a' b' he.2
          simp; omega

theorem splitStr_spec (d u : List UInt8) (hd : 0 ∉ d) (max : Nat) : ∀ (s t : List UInt8), 0 ∉ s →
    ∃ ps, splitStrLoop (d ++ 0 :: u) d.length max (s ++ 0 :: t) = .ok (ps.map (· ++ [0])) ∧ SplitStr d max s ps ∧
      List.intercalate d ps = s ∧ ps ≠ [] ∧ ps.length ≤ max + 1 := by
  induction max with
  | zero =>
    intro s t h
    exact ⟨[s], by simp [splitStrLoop, dup_spec s t h], .limit s, by simp [List.intercalate], by simp, by simp⟩
  | succ max ih =>
    intro s t h
    rcases strstr_spec d u hd s t h with ⟨h1, h2⟩ | ⟨a, b, h1, h2, h3⟩
    · simp only [splitStrLoop, h1, dup_spec s t h]
      exact ⟨[s], rfl, .none _ s h2, by simp [List.intercalate], by simp, by simp⟩
    · subst h2
      have hb : 0 ∉ b := fun hx => h (by simp [hx])
      have e1 : dupBytes (a ++ d ++ b ++ 0 :: t) a.length = .ok (a ++ [0]) := by
        rw [dupBytes_spec _ _ _ (by simp)]; simp
      have e2 : (a ++ d ++ b ++ 0 :: t).drop (a.length + d.length) = b ++ 0 :: t := by
        rw [List.append_assoc (a ++ d), List.drop_left' (by simp)]
      obtain ⟨ps, e3, h4, h5, h6, h7⟩ := ih b t hb
      simp only [splitStrLoop, h1, e1, e2, e3]
      refine ⟨a :: ps, rfl, .cut max a b ps h3 h4, ?_, by simp, by simp; omega⟩
      rw [intercalate_cons _ _ _ h6, h5]

/-- White space as `charstr_char_class` sees it. -/
def isWs (c : UInt8) : Bool := hasClass c WHITESPACE

theorem isWs_zero : isWs 0 = false := by decide

theorem skipWs_spec (s t : List UInt8) (h : 0 ∉ s) :
    (skipWs (s ++ 0 :: t) = .ok none ∧ ∀ c ∈ s, isWs c = true) ∨
    (∃ w r, s = w ++ r ∧ skipWs (s ++ 0 :: t) = .ok (some (r ++ 0 :: t)) ∧ (∀ c ∈ w, isWs c = true) ∧
      ∃ c r', r = c :: r' ∧ isWs c = false) := by
  induction s with
  | nil => left; simp [skipWs]
  | cons c s ih =>
    have hc : c ≠ 0 := by intro hx; subst hx; simp at h
    have h' : 0 ∉ s := by simp at h; tauto
    simp only [List.cons_append, skipWs, if_neg hc]
    by_cases hw : hasClass c WHITESPACE = true
    · rw [if_pos hw]
      rcases ih h' with ⟨h1, h2⟩ | ⟨w, r, h1, h2, h3, h4⟩
      · left
        refine ⟨h1, ?_⟩
        intro x hx
        rcases List.mem_cons.mp hx with rfl | hx
        · exact hw
        · exact h2 x hx
      · right
        refine ⟨c :: w, r, by simp [h1], h2, ?_, h4⟩
        intro x hx
        rcases List.mem_cons.mp hx with rfl | hx
        · exact hw
        · exact h3 x hx
    · rw [if_neg hw]
      right
      exact ⟨[], c :: s, rfl, rfl, by simp, c, s, rfl, by simpa [isWs] using hw⟩

theorem atomLen_spec (s t : List UInt8) (h : 0 ∉ s) :
    ∃ a r, s = a ++ r ∧ atomLen (s ++ 0 :: t) = .ok a.length ∧ (∀ c ∈ a, isWs c = false) ∧ ∀ c ∈ r.head?, isWs c = true := by
  induction s with
  | nil => exact ⟨[], [], rfl, by simp [atomLen], by simp, by simp⟩
  | cons c s ih =>
    have hc : c ≠ 0 := by intro hx; subst hx; simp at h
    have h' : 0 ∉ s := by simp at h; tauto
    simp only [List.cons_append, atomLen]
    by_cases hw : hasClass c WHITESPACE = true
    · rw [if_neg (by simp [hw])]
      exact ⟨[], c :: s, rfl, rfl, by simp, by simp [isWs, hw]⟩
    · rw [if_pos (by simp [hw, hc])]
      obtain ⟨a, r, h1, h2, h3, h4⟩ := ih h'
      rw [h2]
      refine ⟨c :: a, r, by simp [h1], rfl, ?_, h4⟩
      intro x hx
      rcases List.mem_cons.mp hx with rfl | hx
      · simpa [isWs] using hw
      · exact h3 x hx

theorem splitAtoms_spec (n : Nat) : ∀ (s t : List UInt8), s.length ≤ n → 0 ∉ s →
    ∃ as, splitAtoms (s ++ 0 :: t) = .ok (as.map (· ++ [0])) ∧ Atoms isWs s as := by
  induction n with
  | zero =>
    intro s t hn h
    have : s = [] := List.eq_nil_of_length_eq_zero (by omega)
    subst this
    exact ⟨[], by rw [splitAtoms]; simp [skipWs], .done _ (by simp)⟩
  | succ n ih =>
    intro s t hn h
    rw [splitAtoms]
    rcases skipWs_spec s t h with ⟨h1, h2⟩ | ⟨w, r, h1, h2, h3, c, r', h4, h5⟩
    · refine ⟨[], ?_, .done _ h2⟩
      split
      · simp_all
      · rfl
      · simp_all
    · subst h4
      have hr' : 0 ∉ r' := by
        intro hx; apply h; rw [h1]; simp [hx]
      obtain ⟨a, q, g1, g2, g3, g4⟩ := atomLen_spec r' t hr'
      subst g1
      have hq : 0 ∉ q := by intro hx; apply hr'; simp [hx]
      obtain ⟨as, e1, e2⟩ := ih q t (by rw [h1] at hn; simp at hn; omega) hq
      refine ⟨(c :: a) :: as, ?_, ?_⟩
      · split
        · simp_all
        · simp_all
        · rename_i r'' heq
          rw [h2] at heq
          simp only [Except.ok.injEq, Option.some.injEq] at heq
          subst heq
          have k1 : (c :: (a ++ q) ++ 0 :: t).drop 1 = a ++ q ++ 0 :: t := rfl
          have k2 : dupBytes (c :: (a ++ q) ++ 0 :: t) (a.length + 1) = .ok (c :: a ++ [0]) := by
            rw [dupBytes_spec _ _ _ (by simp)]; simp
          have k3 : (c :: (a ++ q) ++ 0 :: t).drop (a.length + 1) = q ++ 0 :: t := by
            simp
          rw [k1, g2]
          simp only [k2, k3, e1, List.map_cons]
      · rw [h1]
        have : w ++ c :: (a ++ q) = w ++ (c :: a) ++ q := by simp
        rw [this]
        refine .atom w (c :: a) q as h3 (by simp) ?_ g4 e2
        intro x hx
        rcases List.mem_cons.mp hx with rfl | hx
        · exact h5
        · exact g3 x hx

theorem stripStart_spec (s t : List UInt8) (h : 0 ∉ s) :
    ∃ a r, s = a ++ r ∧ stripStart (s ++ 0 :: t) = .ok (r ++ 0 :: t) ∧ (∀ c ∈ a, isWs c = true) ∧ ∀ c ∈ r.head?, isWs c = false := by
  induction s with
  | nil => exact ⟨[], [], rfl, by simp [stripStart], by simp, by simp⟩
  | cons c s ih =>
    have hc : c ≠ 0 := by intro hx; subst hx; simp at h
    have h' : 0 ∉ s := by simp at h; tauto
    simp only [List.cons_append, stripStart]
    by_cases hw : hasClass c WHITESPACE = true
    · rw [if_pos (by simp [hw, hc])]
      obtain ⟨a, r, h1, h2, h3, h4⟩ := ih h'
      refine ⟨c :: a, r, by simp [h1], h2, ?_, h4⟩
      intro x hx
      rcases List.mem_cons.mp hx with rfl | hx
      · exact hw
      · exact h3 x hx
    · rw [if_neg (by simp [hw])]
      exact ⟨[], c :: s, rfl, rfl, by simp, by simp [isWs]; simpa using hw⟩

theorem stripEnd_spec (s t : List UInt8) (n : Nat) (hn : n ≤ s.length) :
    ∃ m, stripEnd (s ++ t) n = .ok m ∧ m ≤ n ∧ (∀ c ∈ (s.take n).drop m, isWs c = true) ∧ ∀ c ∈ (s.take m).getLast?, isWs c = false := by
  induction n with
  | zero => exact ⟨0, rfl, by omega, by simp, by simp⟩
  | succ n ih =>
    have hl : n < s.length := by omega
    have hr : rd (s ++ t) n = .ok s[n] := by
      rw [rd_ok (by simp; omega), List.getElem_append_left hl]
    simp only [stripEnd, hr]
    by_cases hw : hasClass s[n] WHITESPACE = true
    · rw [if_pos hw]
      obtain ⟨m, h1, h2, h3, h4⟩ := ih (by omega)
      refine ⟨m, h1, by omega, ?_, h4⟩
      intro c hc
      rw [List.take_succ_eq_append_getElem hl, List.drop_append_of_le_length (by simp; omega)] at hc
      rcases List.mem_append.mp hc with hc | hc
      · exact h3 c hc
      · simp at hc; subst hc; exact hw
    · rw [if_neg hw]
      refine ⟨n + 1, rfl, by omega, ?_, ?_⟩
      · intro c hc; simp at hc
      · intro c hc
        rw [List.take_succ_eq_append_getElem hl] at hc
        rw [List.getLast?_append, List.getLast?_singleton, Option.some_or, Option.mem_def, Option.some.injEq] at hc
        subst hc
        simpa [isWs] using hw

end Verif.Charstr
