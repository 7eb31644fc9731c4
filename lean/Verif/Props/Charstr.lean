import Verif.Proofs.Charstr

/-!
Properties C52 to C61: the ASCII part of `charstr.c`. A C string with contents `s` is a buffer `s ++ 0 :: t` with `0 ∉ s`; `t` is
whatever follows it (possibly nothing), so a read past the NUL would be undefined for `t = []`.
-/

namespace Verif.Charstr
open Verif.Spec.Charstr

/-- C52. `charstr_case_cmp` is the lexicographic comparison of the lower-cased strings. -/
theorem case_cmp_lexicographic (a b t u : List UInt8) (ha : 0 ∉ a) (hb : 0 ∉ b) :
    caseCmp (a ++ 0 :: t) (b ++ 0 :: u) = .ok (lexCmp (a.map lower) (b.map lower)) := caseCmp_spec a b t u ha hb

/-- C52. `charstr_ncase_cmp` is that comparison on the first `n` characters. -/
theorem ncase_cmp_lexicographic (a b t u : List UInt8) (ha : 0 ∉ a) (hb : 0 ∉ b) (n : Nat) :
    ncaseCmp (a ++ 0 :: t) (b ++ 0 :: u) n = .ok (lexCmp ((a.take n).map lower) ((b.take n).map lower)) :=
  ncaseCmp_spec n a b t u ha hb

/-- C52. The arrays need no NUL: each has `n` characters or a NUL before. Nothing behind these is read. -/
theorem ncase_cmp_fields (n : Nat) : ∀ (a b t u : List UInt8), 0 ∉ a → 0 ∉ b → n ≤ a.length ∨ (∃ t', t = 0 :: t') → n ≤ b.length ∨ (∃ u', u = 0 :: u') →
    ncaseCmp (a ++ t) (b ++ u) n = .ok (lexCmp ((a.take n).map lower) ((b.take n).map lower)) := by
  induction n with
  | zero => intros; simp [ncaseCmp, lexCmp]
  | succ n ih =>
    intro a b t u ha hb ht hu
    cases a with
    | nil =>
      obtain ⟨t', rfl⟩ := ht.resolve_left (by simp)
      cases b with
      | nil =>
        obtain ⟨u', rfl⟩ := hu.resolve_left (by simp)
        simpa using ncase_cmp_lexicographic [] [] t' u' ha hb (n + 1)
      | cons y b =>
        have : y ≠ 0 := by intro h; subst h; simp at hb
        simp [ncaseCmp, peek, lexCmp, this]
    | cons x a =>
      have hx : x ≠ 0 := by intro h; subst h; simp at ha
      have ha' : 0 ∉ a := by simp at ha; tauto
      cases b with
      | nil =>
        obtain ⟨u', rfl⟩ := hu.resolve_left (by simp)
        have h1 : ¬ lower x < 0 := by rw [u8_lt]; simp
        have h2 : lower x > 0 := by
          have : lower x ≠ 0 := by rw [Ne, lower_zero]; exact hx
          rw [gt_iff_lt, u8_lt]
          have : (lower x).toNat ≠ 0 := fun h => this (u8_toNat_inj h)
          simp only [UInt8.toNat_zero]; omega
        simp only [List.cons_append, List.nil_append, ncaseCmp, hx, ne_eq, not_false_eq_true, if_true, lcase_eq, lower_zero', if_neg h1,
          if_pos h2, List.take_succ_cons, List.take_nil, List.map_cons, List.map_nil, lexCmp]
      | cons y b =>
        have hb' : 0 ∉ b := by simp at hb; tauto
        simp only [List.cons_append, ncaseCmp, hx, ne_eq, not_false_eq_true, if_true, lcase_eq, List.take_succ_cons, List.map_cons, lexCmp,
          u8_lt, gt_iff_lt]
        split
        · rfl
        · split
          · rfl
          · exact ih a b t u ha' hb' (by simpa using ht) (by simpa using hu)

/-- "AB" and "ab" without a NUL, on two characters -/
example : ncaseCmp [65, 66] [97, 98] 2 = .ok 0 := ncase_cmp_fields 2 [65, 66] [97, 98] [] [] (by decide) (by decide) (.inl (by decide)) (.inl (by decide))

/-- C52. The order: zero means equal up to case, swapping the arguments negates, and it is transitive. -/
theorem case_cmp_order (a b c : List UInt8) :
    (lexCmp (a.map lower) (b.map lower) = 0 ↔ a.map lower = b.map lower) ∧
    lexCmp (b.map lower) (a.map lower) = - lexCmp (a.map lower) (b.map lower) ∧
    (lexCmp (a.map lower) (b.map lower) ≤ 0 → lexCmp (b.map lower) (c.map lower) ≤ 0 → lexCmp (a.map lower) (c.map lower) ≤ 0) :=
  ⟨cmp_eq_zero _ _, cmp_neg _ _, cmp_trans _ _ _⟩

/-- "aB" < "Abc", "AB" = "ab" up to case and "AB" and "abc" agree on two characters -/
example : caseCmp [97, 66, 0] [65, 98, 99, 0] = .ok (-1) ∧ caseCmp [65, 66, 0] [97, 98, 0] = .ok 0 ∧
    ncaseCmp [65, 66, 0] [97, 98, 99, 0] 2 = .ok 0 := by decide +kernel

/-- C53. `charstr_skip_prefix` gives the rest of the string iff the prefix is one. -/
theorem skip_prefix_iff (s p t u : List UInt8) (hs : 0 ∉ s) (hp : 0 ∉ p) :
    skipPrefix (s ++ 0 :: t) (p ++ 0 :: u) = .ok (if p <+: s then some (s.drop p.length ++ 0 :: t) else none) :=
  skipPrefix_spec p s t u hs hp

/-- C53. The same up to ASCII case. -/
theorem case_skip_prefix_iff (s p t u : List UInt8) (hs : 0 ∉ s) (hp : 0 ∉ p) :
    caseSkipPrefix (s ++ 0 :: t) (p ++ 0 :: u) =
      .ok (if p.map lower <+: s.map lower then some (s.drop p.length ++ 0 :: t) else none) :=
  caseSkipPrefix_spec p s t u hs hp

/-- C53. `charstr_ends_with` holds iff the suffix is one. -/
theorem ends_with_iff (s q t u : List UInt8) (hs : 0 ∉ s) (hq : 0 ∉ q) :
    ∃ r, endsWith (s ++ 0 :: t) (q ++ 0 :: u) = .ok r ∧ (r = true ↔ q <:+ s) := by
  simp only [endsWith, strlen_spec s t hs, strlen_spec q u hq]
  by_cases hl : s.length < q.length
  · rw [if_pos hl]
    refine ⟨false, rfl, by simp; intro h; have := h.length_le; omega⟩
  · rw [if_neg hl, List.drop_append_of_le_length (by omega)]
    have h0 : 0 ∉ s.drop (s.length - q.length) := fun h => hs (List.mem_of_mem_drop h)
    obtain ⟨r, e, h⟩ := strcmp_spec (s.drop (s.length - q.length)) q t u h0 hq
    rw [e]
    refine ⟨r == 0, rfl, ?_⟩
    rw [beq_iff_eq, h, List.suffix_iff_eq_drop]
    exact eq_comm

example : skipPrefix [97, 98, 99, 0] [97, 98, 0] = .ok (some [99, 0]) ∧ skipPrefix [97, 0] [97, 98, 0] = .ok none ∧
    caseSkipPrefix [65, 98, 99, 0] [97, 66, 0] = .ok (some [99, 0]) ∧ endsWith [97, 98, 99, 0] [98, 99, 0] = .ok true := by
  decide +kernel

/-! ### C54 -/

/-- charstr.h:34-46: the documented members of each class flag. -/
def documented : List (Nat × (Nat → Bool)) := [
  (CONTROL, fun c => c ≤ 31 || c == 127), (DIGIT, fun c => 48 ≤ c && c ≤ 57), (LOWER, fun c => 97 ≤ c && c ≤ 122),
  (UPPER, fun c => 65 ≤ c && c ≤ 90), (HT, fun c => c == 9), (SPACE, fun c => c == 32), (OCTAL, fun c => 48 ≤ c && c ≤ 55),
  (HEX, fun c => (48 ≤ c && c ≤ 57) || (97 ≤ c && c ≤ 102) || (65 ≤ c && c ≤ 70)), (UNDER, fun c => c == 95),
  (PRINT, fun c => 32 ≤ c && c ≤ 126)]

/-- C54, what holds: every flag but LF, FF, CR is set exactly for its documented characters, for every character code. Missing: the
three flags LF, FF, CR, which are wrong. -/
theorem char_class_partial (c : UInt8) : ∀ d ∈ documented, hasClass c d.1 = d.2 c.toNat := by
  revert c; apply u8_all; decide +kernel

/-- What the three other flags contain in fact. -/
theorem char_class_actual (c : UInt8) : hasClass c LF = (c.toNat == 8) ∧ hasClass c FF = (c.toNat == 10) ∧
    hasClass c CR = (c.toNat == 11) ∧ hasClass c WHITESPACE = (c.toNat ∈ [8, 9, 10, 11, 32]) := by
  revert c; apply u8_all; decide +kernel

/-- C54 fails: line feed is classed as form feed, form feed and carriage return have no white-space class, and backspace is classed
as line feed. -/
theorem char_class_wrong : hasClass 10 LF = false ∧ hasClass 10 FF = true ∧ hasClass 12 FF = false ∧ hasClass 13 CR = false ∧
    hasClass 12 WHITESPACE = false ∧ hasClass 13 WHITESPACE = false ∧ hasClass 8 LF = true ∧ hasClass 8 WHITESPACE = true := by
  decide +kernel

/-! ### C55 -/

/-- C55. The character functions map exactly the ASCII letters. -/
theorem case_char (c : UInt8) : lcaseChar c = lower c ∧ ucaseChar c = upper c := ⟨lcase_eq c, ucase_eq c⟩

/-- C55. The string functions act on every character before the NUL, in place, and touch nothing else. -/
theorem case_str (s t : List UInt8) (hs : 0 ∉ s) :
    lcaseStr (s ++ 0 :: t) = .ok (s.map lower ++ 0 :: t) ∧ ucaseStr (s ++ 0 :: t) = .ok (s.map upper ++ 0 :: t) := by
  simp only [lcaseStr, ucaseStr, mapStr_spec _ s t hs]
  simp [funext lcase_eq, funext ucase_eq]

/-- C55. The substring functions act on exactly the bytes up to `end` (NULs included) and touch nothing else. -/
theorem case_substr (s t : List UInt8) :
    lcaseSubstr (s ++ t) s.length = .ok (s.map lower ++ t) ∧ ucaseSubstr (s ++ t) s.length = .ok (s.map upper ++ t) := by
  simp only [lcaseSubstr, ucaseSubstr, mapSubstr_spec _ s t]
  simp [funext lcase_eq, funext ucase_eq]

/-- C55. Case conversion is idempotent and never creates a NUL, and lower-casing undoes upper-casing up to case. -/
theorem case_idempotent (c : UInt8) : lower (lower c) = lower c ∧ upper (upper c) = upper c ∧ lower (upper c) = lower c ∧
    upper (lower c) = upper c ∧ (lower c = 0 ↔ c = 0) ∧ (upper c = 0 ↔ c = 0) := by
  revert c; apply u8_all; decide +kernel

/-- C55. `charstr_digit_value` is the value of every hexadecimal digit, and the class HEX marks exactly the digits. -/
theorem digit_value_hex (c : UInt8) :
    (hasClass c HEX = (hexValue c).isSome) ∧ ∀ v, hexValue c = some v → digitValue c = v := by
  have : hasClass c HEX = (hexValue c).isSome ∧ (hexValue c = none ∨ hexValue c = some (digitValue c)) := by
    revert c; apply u8_all; decide +kernel
  refine ⟨this.1, fun v hv => ?_⟩
  rcases this.2 with h | h <;> simp_all

/-! ### C56 to C61 -/

/-- C56. `charstr_strip` returns the string without surrounding white space, and NULL for NULL. -/
theorem strip_spec (s t : List UInt8) (hs : 0 ∉ s) :
    (∃ r, strip (some (s ++ 0 :: t)) = .ok (some (r ++ [0])) ∧ Stripped isWs s r) ∧ strip none = .ok none := by
  refine ⟨?_, rfl⟩
  obtain ⟨a, r, h1, h2, h3, h4⟩ := stripStart_spec s t hs
  have hr : 0 ∉ r := by intro h; apply hs; rw [h1]; simp [h]
  obtain ⟨m, e1, e2, e3, e4⟩ := stripEnd_spec r (0 :: t) r.length (Nat.le_refl _)
  simp only [strip, h2, strlen_spec r t hr, e1, dupsubstr, dupBytes_spec r (0 :: t) m e2]
  refine ⟨r.take m, rfl, a, r.drop m, ?_, h3, ?_, ?_, e4⟩
  · rw [h1, List.append_assoc, List.take_append_drop]
  · simpa using e3
  · intro c hc
    apply h4 c
    cases r with
    | nil => simp at hc
    | cons x r =>
      cases m with
      | zero => simp at hc
      | succ m => simpa using hc

/-- C56. The stripped string is unique. -/
theorem stripped_unique (ws : UInt8 → Bool) (s r r' : List UInt8) (h : Stripped ws s r) (h' : Stripped ws s r') : r = r' := by
  have drop1 : ∀ a : List UInt8, (∀ c ∈ a, ws c = true) → ∀ x : List UInt8, (a ++ x).dropWhile ws = x.dropWhile ws := by
    intro a ha x
    induction a with
    | nil => rfl
    | cons c a ih =>
      rw [List.cons_append, List.dropWhile_cons_of_pos (ha c (by simp)), ih (fun y hy => ha y (by simp [hy]))]
  have stay : ∀ x : List UInt8, (∀ c ∈ x.head?, ws c = false) → x.dropWhile ws = x := by
    intro x hx
    cases x with
    | nil => rfl
    | cons c x => rw [List.dropWhile_cons_of_neg]; have := hx c (by simp); simp [this]
  have key : ∀ q : List UInt8, Stripped ws s q → q = ((s.dropWhile ws).reverse.dropWhile ws).reverse := by
    rintro q ⟨a, b, e, ha, hb, h1, h2⟩
    have hbr : (∀ c ∈ b.reverse, ws c = true) := by simpa using hb
    rw [e, List.append_assoc, drop1 a ha]
    by_cases hq : q = []
    · subst hq
      have : ∀ x : List UInt8, (∀ c ∈ x, ws c = true) → x.dropWhile ws = [] := by
        intro x hx
        have := drop1 x hx []
        simpa using this
      rw [List.nil_append, this b hb]
      rfl
    · rw [stay (q ++ b), List.reverse_append, drop1 _ hbr, stay, List.reverse_reverse]
      · intro c hc
        rw [List.head?_reverse] at hc
        exact h2 c hc
      · intro c hc
        apply h1 c
        cases q with
        | nil => exact absurd rfl hq
        | cons x q => simpa using hc
  rw [key r h, key r' h']

example : strip (some [32, 97, 32, 98, 9, 0]) = .ok (some [97, 32, 98, 0]) := by decide +kernel

/-- C57. `charstr_split` with a delimiter other than NUL returns fresh NUL-terminated pieces that satisfy the specification: they
join to the string, only the last may contain the delimiter, and there are as many splits as delimiters up to the limit. -/
theorem split_correct (d : UInt8) (hd : d ≠ 0) (max : Nat) (s t : List UInt8) (hs : 0 ∉ s) :
    ∃ ps, split d max (s ++ 0 :: t) = .ok (ps.map (· ++ [0])) ∧ Split d max s ps := split_spec d hd max s t hs

theorem count_join (d : UInt8) (ps : List (List UInt8)) (h : ∀ p ∈ ps.dropLast, d ∉ p) (hne : ps ≠ []) :
    (List.intercalate [d] ps).count d = ps.length - 1 + (ps.getLast hne).count d := by
  induction ps with
  | nil => exact absurd rfl hne
  | cons p ps ih =>
    cases ps with
    | nil => simp [List.intercalate]
    | cons q ps =>
      rw [intercalate_cons _ _ _ (by simp), List.count_append, List.count_append, ih (fun x hx => h x (by simp [hx])) (by simp)]
      have : d ∉ p := h p (by simp)
      simp [List.count_eq_zero.mpr this]
      omega

/-- C57. When the limit was not reached the last piece has no delimiter either. -/
theorem split_last (d : UInt8) (max : Nat) (s : List UInt8) (ps : List (List UInt8)) (h : Split d max s ps) (hl : ps.length ≤ max) :
    ∀ p ∈ ps, d ∉ p := by
  have hc := h.count
  have hne : ps ≠ [] := by intro hx; rw [hx] at hc; simp at hc
  have hj := count_join d ps h.clean hne
  rw [h.join] at hj
  have h0 : (ps.getLast hne).count d = 0 := by omega
  intro p hp
  rw [← List.dropLast_concat_getLast hne, List.mem_append] at hp
  rcases hp with hp | hp
  · exact h.clean p hp
  · simp at hp; subst hp; exact List.count_eq_zero.mp h0

/-- C57. The pieces are determined by the specification. -/
theorem split_unique (d : UInt8) (max : Nat) : ∀ (s : List UInt8) (ps qs : List (List UInt8)), Split d max s ps → Split d max s qs →
    ps = qs := by
  have key : ∀ (ps qs : List (List UInt8)), List.intercalate [d] ps = List.intercalate [d] qs →
      (∀ p ∈ ps.dropLast, d ∉ p) → (∀ p ∈ qs.dropLast, d ∉ p) → ps.length = qs.length → ps = qs := by
    intro ps
    induction ps with
    | nil => intro qs _ _ _ h; exact (List.eq_nil_of_length_eq_zero h.symm).symm
    | cons p ps ih =>
      intro qs hj h1 h2 hl
      cases qs with
      | nil => simp at hl
      | cons q qs =>
        cases ps with
        | nil =>
          have : qs = [] := List.eq_nil_of_length_eq_zero (by simpa using hl.symm)
          subst this
          simpa [List.intercalate] using hj
        | cons p2 ps =>
          cases qs with
          | nil => simp at hl
          | cons q2 qs =>
            rw [intercalate_cons _ p (p2 :: ps) (by simp), intercalate_cons _ q (q2 :: qs) (by simp)] at hj
            have hp : d ∉ p := h1 p (by simp)
            have hq : d ∉ q := h2 q (by simp)
            have : p = q ∧ List.intercalate [d] (p2 :: ps) = List.intercalate [d] (q2 :: qs) := by
              clear ih hl h1 h2
              generalize List.intercalate [d] (p2 :: ps) = x at hj
              generalize List.intercalate [d] (q2 :: qs) = y at hj
              simp only [List.append_assoc, List.cons_append, List.nil_append] at hj
              induction p generalizing q with
              | nil =>
                cases q with
                | nil => simpa using hj
                | cons b q => simp at hj; simp [hj.1] at hq
              | cons a p ih =>
                cases q with
                | nil => simp at hj; simp [hj.1] at hp
                | cons b q =>
                  simp only [List.cons_append, List.cons.injEq] at hj
                  simp only [List.mem_cons, not_or] at hp hq
                  obtain ⟨e1, e2⟩ := ih q hp.2 hq.2 hj.2
                  exact ⟨by rw [hj.1, e1], e2⟩
            obtain ⟨rfl, hj'⟩ := this
            congr 1
            exact ih (q2 :: qs) hj' (fun x hx => h1 x (by simp [hx])) (fun x hx => h2 x (by simp [hx])) (by simpa using hl)
  intro s ps qs h1 h2
  exact key ps qs (by rw [h1.join, h2.join]) h1.clean h2.clean (by rw [h1.count, h2.count])

example : split 44 1 [97, 44, 98, 44, 99, 0] = .ok [[97, 0], [98, 44, 99, 0]] := by decide +kernel

/-- C57 needs a delimiter other than NUL: splitting "a" at NUL reads past the end of the string. -/
theorem split_nul_ub : split 0 1 [97, 0] = .error .ub := by decide +kernel

/-- C58. `charstr_split_into_array` stores the pieces of `charstr_split` at the start of the array, leaves the rest of the array
alone, returns the index of the last piece, and needs no more than `max_split + 1` elements. -/
theorem split_into_array_correct (d : UInt8) (hd : d ≠ 0) (max : Nat) (s t : List UInt8) (hs : 0 ∉ s)
    (arr : List (Option (List UInt8))) (harr : max + 1 ≤ arr.length) :
    ∃ ps, split d max (s ++ 0 :: t) = .ok ps ∧
      splitIntoArray (s ++ 0 :: t) d arr max = .ok (ps.length - 1, ps.map some ++ arr.drop ps.length) ∧ 1 ≤ ps.length ∧
      ps.length ≤ max + 1 := by
  obtain ⟨ps, e, _⟩ := split_spec d hd max s t hs
  obtain ⟨h1, h2, h3⟩ := splitArray_spec d max (s ++ 0 :: t) arr 0 _ e (by omega)
  refine ⟨_, e, ?_, h2, h3⟩
  rw [splitIntoArray, h1, splice_zero]
  simp

example : splitIntoArray [97, 44, 98, 44, 99, 0] 44 [none, none, none] 1 = .ok (1, [some [97, 0], some [98, 44, 99, 0], none]) := by
  decide +kernel

/-- C59. `charstr_split_str` cuts at the leftmost occurrences, up to the limit; the pieces join to the string. (The delimiter may even
be empty; then every cut is an empty piece.) -/
theorem split_str_correct (d u s t : List UInt8) (hd : 0 ∉ d) (hs : 0 ∉ s) (max : Nat) :
    ∃ ps, splitStr (s ++ 0 :: t) (d ++ 0 :: u) max = .ok (ps.map (· ++ [0])) ∧ SplitStr d max s ps ∧
      List.intercalate d ps = s ∧ 1 ≤ ps.length ∧ ps.length ≤ max + 1 := by
  simp only [splitStr, strlen_spec d u hd]
  obtain ⟨ps, h1, h2, h3, h4, h5⟩ := splitStr_spec d u hd max s t hs
  exact ⟨ps, h1, h2, h3, by have := List.length_pos_iff.mpr h4; omega, h5⟩

/-- C59. The pieces are determined by the specification. -/
theorem split_str_unique (d : List UInt8) (max : Nat) (s : List UInt8) (ps qs : List (List UInt8)) (h1 : SplitStr d max s ps)
    (h2 : SplitStr d max s qs) : ps = qs := by
  induction h1 generalizing qs with
  | limit s =>
    cases h2 with
    | limit => rfl
    | none => rfl
  | none max s h =>
    cases h2 with
    | limit => rfl
    | none => rfl
    | cut max a b qs hl hq => exact absurd ⟨a, b, rfl⟩ h
  | cut max a b ps hl hp ih =>
    generalize he : a ++ d ++ b = s' at h2
    cases h2 with
    | none _ _ h => exact absurd ⟨a, b, he⟩ h
    | cut _ a' b' qs hl' hq =>
      have e1 : a.length = a'.length := by
        have x := hl a' b' he
        have y := hl' a b he.symm
        omega
      rw [List.append_assoc, List.append_assoc] at he
      obtain ⟨rfl, e2⟩ := List.append_inj he e1
      obtain rfl := List.append_cancel_left e2
      rw [ih qs hq]

example : splitStr [97, 45, 45, 45, 98, 0] [45, 45, 0] 5 = .ok [[97, 0], [45, 98, 0]] := by decide +kernel

/-- C60. `charstr_split_atoms` returns the maximal runs of characters that are not white space, in order. -/
theorem split_atoms_correct (s t : List UInt8) (hs : 0 ∉ s) :
    ∃ as, splitAtoms (s ++ 0 :: t) = .ok (as.map (· ++ [0])) ∧ Atoms isWs s as := splitAtoms_spec s.length s t (Nat.le_refl _) hs

/-- Splitting a string at its first character with `p`. -/
theorem run_unique (p : UInt8 → Bool) : ∀ (a b r q : List UInt8), a ++ r = b ++ q → (∀ c ∈ a, p c = true) → (∀ c ∈ b, p c = true) →
    (∀ c ∈ r.head?, p c = false) → (∀ c ∈ q.head?, p c = false) → a = b ∧ r = q := by
  intro a
  induction a with
  | nil =>
    intro b r q he _ hb hr _
    cases b with
    | nil => exact ⟨rfl, by simpa using he⟩
    | cons x b =>
      have h1 := hb x (by simp)
      have h2 := hr x (by simp at he; simp [he])
      rw [h1] at h2; cases h2
  | cons y a ih =>
    intro b r q he ha hb hr hq
    cases b with
    | nil =>
      have h1 := ha y (by simp)
      have h2 := hq y (by simp at he; simp [← he])
      rw [h1] at h2; cases h2
    | cons x b =>
      simp only [List.cons_append, List.cons.injEq] at he
      obtain ⟨e1, e2⟩ := ih b r q he.2 (fun c hc => ha c (by simp [hc])) (fun c hc => hb c (by simp [hc])) hr hq
      exact ⟨by rw [he.1, e1], e2⟩

/-- C60. The atoms are determined by the specification; there are none iff the string is all white space. -/
theorem atoms_unique (ws : UInt8 → Bool) (s : List UInt8) (as bs : List (List UInt8)) (h1 : Atoms ws s as) (h2 : Atoms ws s bs) :
    as = bs ∧ (as = [] ↔ ∀ c ∈ s, ws c = true) := by
  constructor
  · induction h1 generalizing bs with
    | done s h =>
      cases h2 with
      | done => rfl
      | atom w a r bs hw h0 ha hr hb =>
        obtain ⟨c, a', rfl⟩ := List.exists_cons_of_ne_nil h0
        have := h c (by simp)
        rw [ha c (by simp)] at this; cases this
    | atom w a r as hw h0 ha hr h ih =>
      generalize he : w ++ a ++ r = s' at h2
      cases h2 with
      | done _ hs =>
        obtain ⟨c, a', rfl⟩ := List.exists_cons_of_ne_nil h0
        have := hs c (by rw [← he]; simp)
        rw [ha c (by simp)] at this; cases this
      | atom w' a' r' bs hw' h0' ha' hr' hb =>
        rw [List.append_assoc, List.append_assoc] at he
        have hd : ∀ x y : List UInt8, x ≠ [] → (∀ c ∈ x, ws c = false) → ∀ c ∈ (x ++ y).head?, ws c = false := by
          intro x y hx hx2 c hc
          obtain ⟨z, x', rfl⟩ := List.exists_cons_of_ne_nil hx
          simp at hc; subst hc; exact hx2 _ (by simp)
        obtain ⟨rfl, e⟩ := run_unique ws w w' _ _ he hw hw' (hd a r h0 ha) (hd a' r' h0' ha')
        obtain ⟨rfl, rfl⟩ := run_unique (fun c => !ws c) a a' r r' e (by simpa using ha) (by simpa using ha')
          (by simpa using hr) (by simpa using hr')
        rw [ih bs hb]
  · cases h1 with
    | done s h => simpa using h
    | atom w a r as hw h0 ha hr h =>
      simp only [reduceCtorEq, false_iff]
      intro hx
      obtain ⟨c, a', rfl⟩ := List.exists_cons_of_ne_nil h0
      have := hx c (by simp)
      rw [ha c (by simp)] at this; cases this

example : ∃ as, splitAtoms [32, 97, 98, 9, 9, 99, 0] = .ok as ∧ as = [[97, 98, 0], [99, 0]] := by
  refine ⟨_, ?_, rfl⟩
  simp [splitAtoms, skipWs, atomLen, dupBytes, show hasClass 32 WHITESPACE = true by decide +kernel,
    show hasClass 97 WHITESPACE = false by decide +kernel, show hasClass 98 WHITESPACE = false by decide +kernel,
    show hasClass 9 WHITESPACE = true by decide +kernel, show hasClass 99 WHITESPACE = false by decide +kernel]

/-- C61. Duplication: a fresh block with exactly the bytes and a NUL; NULL stays NULL; without an end the whole string is copied. -/
theorem dup_correct (s t u : List UInt8) (hs : 0 ∉ s) :
    dupstr (some (s ++ 0 :: t)) = .ok (some (s ++ [0])) ∧ dupstr none = .ok none ∧
    dupsubstr (some (u ++ t)) (some u.length) = .ok (some (u ++ [0])) ∧
    dupsubstr (some (s ++ 0 :: t)) none = .ok (some (s ++ [0])) ∧ dupsubstr none (some s.length) = .ok none := by
  refine ⟨?_, rfl, ?_, ?_, rfl⟩
  · simp only [dupstr, strlen_spec s t hs, dupBytes_spec s (0 :: t) s.length (Nat.le_refl _), List.take_length]
  · simp only [dupsubstr, dupBytes_spec u t u.length (Nat.le_refl _), List.take_length]
  · simp only [dupsubstr, dupstr, strlen_spec s t hs, dupBytes_spec s (0 :: t) s.length (Nat.le_refl _), List.take_length]

end Verif.Charstr
