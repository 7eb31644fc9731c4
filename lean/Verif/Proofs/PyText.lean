import Mathlib.Data.List.Basic
import Mathlib.Tactic.IntervalCases
import Verif.Model.PyText
import Verif.Spec.DataFiles

/-! The string functions of Python on texts in the formats of the data files. -/

set_option autoImplicit false

namespace Verif.Py
open Verif.Spec.DataFiles (Number digitValue Blank Padded)

/-! ## Splitting -/

theorem split_ne_nil (sep : Char) (s : Str) : split sep s ≠ [] := by
  cases s with
  | nil => simp [split]
  | cons c s =>
    rw [split]
    split
    · simp
    · cases split sep s <;> simp [consHead]

theorem split_none {sep : Char} {s : Str} (h : sep ∉ s) : split sep s = [s] := by
  induction s with
  | nil => rfl
  | cons c s ih =>
    simp only [List.mem_cons, not_or] at h
    rw [split, if_neg (fun e => h.1 e.symm), ih h.2, consHead]

theorem split_cons {sep : Char} {s : Str} (h : sep ∉ s) (t : Str) : split sep (s ++ sep :: t) = s :: split sep t := by
  induction s with
  | nil => rw [List.nil_append, split, if_pos rfl]
  | cons c s ih =>
    simp only [List.mem_cons, not_or] at h
    rw [List.cons_append, split, if_neg (fun e => h.1 e.symm), ih h.2, consHead]

theorem intercalate_cons {sep : Str} {f g : Str} {fs : List Str} : List.intercalate sep (f :: g :: fs) = f ++ (sep ++ List.intercalate sep (g :: fs)) := by
  simp [List.intercalate, List.intersperse]

theorem intercalate_single {sep : Str} {f : Str} : List.intercalate sep [f] = f := by
  simp [List.intercalate, List.intersperse]

theorem split_fields {sep : Char} {fs : List Str} (hne : fs ≠ []) (h : ∀ f ∈ fs, sep ∉ f) : split sep (List.intercalate [sep] fs) = fs := by
  induction fs with
  | nil => exact absurd rfl hne
  | cons f fs ih =>
    cases fs with
    | nil => rw [intercalate_single, split_none (h f (by simp))]
    | cons g gs =>
      rw [intercalate_cons, List.singleton_append, split_cons (h f (by simp)), ih (by simp) (fun x hx => h x (List.mem_cons_of_mem _ hx))]

theorem split_item {sep : Char} {fs : List Str} {t : Str} (h : ∀ f ∈ fs, sep ∉ f) {i : Nat} (hi : i + 1 < fs.length) :
    (split sep (List.intercalate [sep] fs ++ t))[i]? = fs[i]? := by
  induction fs generalizing i with
  | nil => simp at hi
  | cons f fs ih =>
    cases fs with
    | nil => simp at hi
    | cons g gs =>
      rw [intercalate_cons, List.singleton_append, List.append_assoc, List.cons_append, split_cons (h f (by simp))]
      cases i with
      | zero => rfl
      | succ i =>
        rw [List.getElem?_cons_succ, List.getElem?_cons_succ]
        exact ih (fun x hx => h x (List.mem_cons_of_mem _ hx)) (by simpa using hi)

theorem splitMax_cons {sep : Char} {s : Str} (n : Nat) (h : sep ∉ s) (t : Str) : splitMax sep (n + 1) (s ++ sep :: t) = s :: splitMax sep n t := by
  induction s with
  | nil => rw [List.nil_append, splitMax, if_pos rfl]
  | cons c s ih =>
    simp only [List.mem_cons, not_or] at h
    rw [List.cons_append, splitMax, if_neg (fun e => h.1 e.symm), ih h.2, consHead]

theorem splitMax_zero (sep : Char) (s : Str) : splitMax sep 0 s = [s] := by
  cases s <;> rfl

theorem splitMax_fields {sep : Char} {f0 f1 f2 f3 : Str} {fs : List Str} {t : Str} (h : ∀ f ∈ f0 :: f1 :: f2 :: f3 :: fs, sep ∉ f) :
    ∃ r, splitMax sep 3 (List.intercalate [sep] (f0 :: f1 :: f2 :: f3 :: fs) ++ t) = [f0, f1, f2, r] := by
  refine ⟨List.intercalate [sep] (f3 :: fs) ++ t, ?_⟩
  simp only [intercalate_cons, List.append_assoc, List.cons_append, List.nil_append]
  rw [splitMax_cons 2 (h _ (by simp)), splitMax_cons 1 (h _ (by simp)), splitMax_cons 0 (h _ (by simp)), splitMax_zero]

theorem lines_cons {l : Str} (h : '\n' ∉ l) (t : Str) : lines (l ++ '\n' :: t) = (l ++ ['\n']) :: lines t := by
  induction l with
  | nil => rw [List.nil_append, lines, if_pos rfl, List.nil_append]
  | cons c s ih =>
    simp only [List.mem_cons, not_or] at h
    rw [List.cons_append, lines, if_neg (fun e => h.1 e.symm), ih h.2, consHead, List.cons_append]

theorem lines_text {text : Str} {ls : List Str} (h : Verif.Spec.DataFiles.Lines text ls) : lines text = ls.map (· ++ ['\n']) := by
  obtain ⟨h1, rfl⟩ := h
  induction ls with
  | nil => rfl
  | cons l ls ih =>
    rw [List.flatMap_cons, List.append_assoc, List.singleton_append, lines_cons (h1 l (by simp)), ih (fun x hx => h1 x (List.mem_cons_of_mem _ hx)), List.map_cons]

/-! ## White space -/

theorem blank_space {c : Char} (h : Blank c) : isSpace c = true := by
  obtain rfl | rfl := h <;> decide

theorem strip_ends {s : Str} (h1 : ∀ c ∈ s.head?, isSpace c = false) (h2 : ∀ c ∈ s.getLast?, isSpace c = false) {pre post : Str}
    (hpre : ∀ c ∈ pre, isSpace c = true) (hpost : ∀ c ∈ post, isSpace c = true) : strip (pre ++ s ++ post) = s := by
  have drop : ∀ (a b : Str), (∀ c ∈ a, isSpace c = true) → (a ++ b).dropWhile isSpace = b.dropWhile isSpace := by
    intro a b h
    induction a with
    | nil => rfl
    | cons x a ih => rw [List.cons_append, List.dropWhile_cons_of_pos (h x (by simp)), ih (fun c hc => h c (List.mem_cons_of_mem _ hc))]
  have keep : ∀ (b : Str), (∀ c ∈ b.head?, isSpace c = false) → b.dropWhile isSpace = b := by
    intro b h
    cases b with
    | nil => rfl
    | cons x b => exact List.dropWhile_cons_of_neg (by simp [h x (by simp)])
  rw [strip, List.append_assoc, drop _ _ hpre]
  cases s with
  | nil =>
    rw [List.nil_append, show post.dropWhile isSpace = [] by have := drop post [] hpost; simpa using this]
    rfl
  | cons x s =>
    rw [keep (x :: s ++ post) (by simpa using h1), List.reverse_append, drop _ _ (by simpa using hpost), keep (x :: s).reverse (fun c hc => h2 c (by rwa [List.head?_reverse] at hc)), List.reverse_reverse]

theorem strip_self {s : Str} (h1 : ∀ c ∈ s.head?, isSpace c = false) (h2 : ∀ c ∈ s.getLast?, isSpace c = false) : strip s = s := by
  simpa using strip_ends (pre := []) (post := []) h1 h2 (by simp) (by simp)

theorem wordsFrom_word {w : Str} (h : ∀ c ∈ w, isSpace c = false) (v s : Str) : wordsFrom v (w ++ s) = wordsFrom (v ++ w) s := by
  induction w generalizing v with
  | nil => simp
  | cons c w ih =>
    rw [List.cons_append, wordsFrom, if_neg (by simp [h c (by simp)]), ih (fun c hc => h c (List.mem_cons_of_mem _ hc)), List.append_assoc,
      List.singleton_append]

theorem words_join {ws : List Str} (h : ∀ w ∈ ws, w ≠ [] ∧ ∀ c ∈ w, isSpace c = false) (hne : ws ≠ []) : words (List.intercalate [' '] ws) = ws := by
  induction ws with
  | nil => exact absurd rfl hne
  | cons w ws ih =>
    have hw := h w (by simp)
    cases ws with
    | nil =>
      rw [intercalate_single, words, show w = w ++ [] by simp, wordsFrom_word hw.2]
      simp [wordsFrom, hw.1]
    | cons g gs =>
      rw [intercalate_cons, words, wordsFrom_word hw.2, List.nil_append, List.singleton_append, wordsFrom, if_pos (by decide), if_neg hw.1]
      rw [← words, ih (fun x hx => h x (List.mem_cons_of_mem _ hx)) (by simp)]

theorem words_first {w : Str} (h : ∀ c ∈ w, isSpace c = false) (hne : w ≠ []) {post : Str} (hp : ∀ c ∈ post.head?, isSpace c = true) :
    ∃ ws, words (w ++ post) = w :: ws := by
  rw [words, wordsFrom_word h, List.nil_append]
  cases post with
  | nil => exact ⟨[], by simp [wordsFrom, hne]⟩
  | cons c post => exact ⟨wordsFrom [] post, by rw [wordsFrom, if_pos (hp c (by simp)), if_neg hne]⟩

theorem strip_decomp (s : Str) : ∃ pre post, s = pre ++ strip s ++ post ∧ (∀ c ∈ pre, isSpace c = true) ∧ ∀ c ∈ post, isSpace c = true := by
  refine ⟨s.takeWhile isSpace, ((s.dropWhile isSpace).reverse.takeWhile isSpace).reverse, ?_, ?_, ?_⟩
  · rw [strip, List.append_assoc, ← List.reverse_append, List.takeWhile_append_dropWhile, List.reverse_reverse, List.takeWhile_append_dropWhile]
  · intro c hc
    simpa using List.all_eq_true.1 (List.all_takeWhile (p := isSpace) (l := s)) c hc
  · intro c hc
    simpa using List.all_eq_true.1 (List.all_takeWhile (p := isSpace) (l := (s.dropWhile isSpace).reverse)) c (List.mem_reverse.1 hc)

theorem strip_front {w post : Str} (hne : w ≠ []) (h : ∀ c ∈ w, isSpace c = false) {pre : Str} (hpre : ∀ c ∈ pre, isSpace c = true) :
    ∃ p, p <+: post ∧ strip (pre ++ w ++ post) = w ++ p := by
  obtain ⟨a, b, h1, h2, h3⟩ := strip_decomp post
  by_cases hp : ∀ c ∈ post, isSpace c = true
  · exact ⟨[], List.nil_prefix, by
      rw [strip_ends (fun c hc => h c (List.mem_of_mem_head? hc)) (fun c hc => h c (List.mem_of_mem_getLast? hc)) hpre hp, List.append_nil]⟩
  · have hs : strip post ≠ [] := by
      intro e
      rw [e, List.append_nil] at h1
      apply hp
      rw [h1]
      intro c hc
      exact (List.mem_append.1 hc).elim (h2 c) (h3 c)
    refine ⟨a ++ strip post, ⟨b, h1.symm⟩, ?_⟩
    conv_lhs => rw [h1, ← List.append_assoc, List.append_assoc pre]
    refine strip_ends ?_ ?_ hpre h3
    · obtain ⟨x, w, rfl⟩ := List.exists_cons_of_ne_nil hne
      intro c hc
      simp only [List.cons_append, List.head?_cons, Option.mem_def, Option.some.injEq] at hc
      exact h c (by simp [hc])
    · intro c hc
      rw [← List.append_assoc, List.getLast?_append_of_ne_nil _ hs] at hc
      have hr : (strip post).reverse.head? = some c := by rw [List.head?_reverse]; exact hc
      rw [strip, List.reverse_reverse] at hr
      have := List.head?_dropWhile_not isSpace (post.dropWhile isSpace).reverse
      rw [hr] at this
      simpa using this

theorem join_split (sep : Char) (s : Str) : List.intercalate [sep] (split sep s) = s := by
  induction s with
  | nil => rfl
  | cons c s ih =>
    obtain ⟨p, ps, hp⟩ := List.exists_cons_of_ne_nil (split_ne_nil sep s)
    rw [split]
    rw [hp] at ih ⊢
    split
    · rename_i h
      rw [intercalate_cons, ih, h]
      rfl
    · rw [consHead]
      cases ps with
      | nil => rw [intercalate_single] at ih ⊢; rw [ih]
      | cons q qs => rw [intercalate_cons] at ih ⊢; rw [List.cons_append, ih]

theorem split_pieces {sep : Char} {s p : Str} (h : p ∈ split sep s) : sep ∉ p := by
  induction s generalizing p with
  | nil => simp_all [split]
  | cons c s ih =>
    obtain ⟨q, qs, hq⟩ := List.exists_cons_of_ne_nil (split_ne_nil sep s)
    rw [split] at h
    rw [hq] at ih h
    split at h
    · rcases List.mem_cons.1 h with rfl | h
      · simp
      · exact ih h
    · rename_i hc
      rw [consHead] at h
      rcases List.mem_cons.1 h with rfl | h
      · simp only [List.mem_cons, not_or]
        exact ⟨fun e => hc e.symm, ih (by simp)⟩
      · exact ih (List.mem_cons_of_mem _ h)

theorem splitDots_none {s : Str} (h : '.' ∉ s) : splitDots s = [s] ∧ hasDots s = false := by
  induction s with
  | nil => exact ⟨rfl, rfl⟩
  | cons c s ih =>
    simp only [List.mem_cons, not_or] at h
    obtain ⟨h1, h2⟩ := ih h.2
    cases s with
    | nil => exact ⟨rfl, rfl⟩
    | cons d s =>
      rw [splitDots, hasDots, if_neg (fun e => h.1 e.1.symm), h1, h2]
      refine ⟨rfl, ?_⟩
      simp only [Bool.or_false, Bool.and_eq_false_iff, beq_eq_false_iff_ne]
      exact Or.inl fun e => h.1 e.symm

theorem splitDots_two {a b : Str} (ha : '.' ∉ a) (hb : '.' ∉ b) : splitDots (a ++ ['.', '.'] ++ b) = [a, b] ∧ hasDots (a ++ ['.', '.'] ++ b) = true := by
  induction a with
  | nil =>
    rw [List.nil_append, List.cons_append, List.cons_append, List.nil_append, splitDots, hasDots, if_pos ⟨rfl, rfl⟩, (splitDots_none hb).1]
    exact ⟨rfl, by simp⟩
  | cons c a ih =>
    simp only [List.mem_cons, not_or] at ha
    obtain ⟨h1, h2⟩ := ih ha.2
    obtain ⟨d, r, hr⟩ : ∃ d r, a ++ ['.', '.'] ++ b = d :: r := by cases a <;> simp
    rw [List.cons_append, List.cons_append]
    rw [hr] at h1 h2 ⊢
    rw [splitDots, hasDots, if_neg (fun e => ha.1 e.1.symm), h1, h2]
    exact ⟨rfl, by simp⟩

/-! ## Numbers -/

theorem digitValue_cases {c : Char} {d : Nat} (h : digitValue c = some d) :
    (48 ≤ c.toNat ∧ c.toNat ≤ 57 ∧ d = c.toNat - 48) ∨ (97 ≤ c.toNat ∧ c.toNat ≤ 102 ∧ d = c.toNat - 87) ∨ (65 ≤ c.toNat ∧ c.toNat ≤ 70 ∧ d = c.toNat - 55) := by
  unfold digitValue at h
  split at h
  all_goals first | cases h; done | (cases h; decide)

theorem digitValue_digit {base : Nat} {c : Char} {d : Nat} (h : digitValue c = some d) (hd : d < base) : digit base c = some d := by
  have := digitValue_cases h
  rw [digit]
  have e : (if 48 ≤ c.toNat ∧ c.toNat ≤ 57 then c.toNat - 48 else if 97 ≤ c.toNat ∧ c.toNat ≤ 122 then c.toNat - 87 else
      if 65 ≤ c.toNat ∧ c.toNat ≤ 90 then c.toNat - 55 else 36) = d := by
    split
    · omega
    · split
      · omega
      · split <;> omega
  simp only [e, if_pos hd]

/-- All characters are digits. -/
def Digits (s : Str) : Prop := ∀ c ∈ s, ∃ d, digitValue c = some d

theorem number_digits {base : Nat} {s : Str} {v : Nat} (h : Number base s v) : Digits s ∧ s ≠ [] := by
  induction h with
  | one c d h hd => exact ⟨by intro x hx; rw [List.mem_singleton] at hx; exact ⟨d, hx ▸ h⟩, by simp⟩
  | more s v c d hs h hd ih =>
    refine ⟨?_, by simp⟩
    intro x hx
    rw [List.mem_append, List.mem_singleton] at hx
    obtain hx | rfl := hx
    · exact ih.1 x hx
    · exact ⟨d, h⟩

theorem digit_nospace {c : Char} {d : Nat} (h : digitValue c = some d) : isSpace c = false := by
  have := digitValue_cases h
  simp only [isSpace, Bool.or_eq_false_iff, Bool.and_eq_false_iff, decide_eq_false_iff_not, beq_eq_false_iff_ne]
  omega

theorem digits_nospace {s : Str} (h : Digits s) : ∀ c ∈ s, isSpace c = false := fun c hc => digit_nospace (h c hc).choose_spec

theorem digits_snoc {base : Nat} {s : Str} (h : Digits s) {c : Char} {d : Nat} (hc : digitValue c = some d) (hd : d < base) (u : Nat) :
    digits base u (s ++ [c]) = match digits base u s with | some v => some (v * base + d) | none => none := by
  have hdig := digitValue_digit hc hd
  have hc_ : c ≠ '_' := by rintro rfl; cases hc
  induction s generalizing u with
  | nil => simp [digits, hdig]
  | cons x s ih =>
    obtain ⟨y, hy⟩ := h x (by simp)
    have hx_ : x ≠ '_' := by rintro rfl; cases hy
    have ih := ih (fun c hc => h c (List.mem_cons_of_mem _ hc))
    cases s with
    | nil =>
      rw [List.singleton_append]
      conv_lhs => rw [digits, if_neg hx_]
      conv_rhs => rw [digits]
      cases digit base x with
      | none => rfl
      | some z => simp [digits, hdig]
    | cons z s =>
      rw [List.cons_append, List.cons_append]
      conv_lhs => rw [digits, if_neg hx_]
      conv_rhs => rw [digits, if_neg hx_]
      cases digit base x with
      | none => rfl
      | some k => exact ih _

theorem number_value {base : Nat} {s : Str} {v : Nat} (h : Number base s v) : number base s = some v := by
  induction h with
  | one c d h hd => simp [number, digitValue_digit h hd, digits]
  | more s v c d hs h hd ih =>
    obtain ⟨h1, h2⟩ := number_digits hs
    cases s with
    | nil => exact absurd rfl h2
    | cons x s =>
      rw [List.cons_append, number]
      rw [number] at ih
      cases hx : digit base x with
      | none => rw [hx] at ih; cases ih
      | some y =>
        rw [hx] at ih
        simp only at ih ⊢
        rw [digits_snoc (fun c hc => h1 c (List.mem_cons_of_mem _ hc)) h hd, ih]
        simp [Nat.mul_comm]

theorem unprefix_digits {base : Nat} {s : Str} (h : Digits s) : unprefix base s = s := by
  unfold unprefix
  split
  · rename_i x t
    obtain ⟨d, hd⟩ := h x (by simp)
    rw [if_neg]
    rintro ⟨_, rfl | rfl⟩ <;> cases hd
  · rfl

theorem int_padded {base : Nat} {s t : Str} {v : Nat} (h : Number base s v) (hp : Padded t s) : int t base = some v := by
  obtain ⟨pre, post, rfl, h1, h2⟩ := hp
  obtain ⟨h3, h4⟩ := number_digits h
  have h5 := digits_nospace h3
  rw [int, strip_ends (fun c hc => h5 c (List.mem_of_mem_head? hc)) (fun c hc => h5 c (List.mem_of_mem_getLast? hc)) (fun c hc => blank_space (h1 c hc))
    (fun c hc => blank_space (h2 c hc))]
  split
  · obtain ⟨d, hd⟩ := h3 '-' (by simp); cases hd
  · obtain ⟨d, hd⟩ := h3 '+' (by simp); cases hd
  · rw [unprefix_digits h3, number_value h]
    rfl

theorem padded_self (s : Str) : Padded s s := ⟨[], [], by simp⟩

theorem int_number {base : Nat} {s : Str} {v : Nat} (h : Number base s v) : int s base = some v := int_padded h (padded_self s)

theorem nat_padded {base : Nat} {s t : Str} {v : Nat} (h : Number base s v) (hp : Padded t s) : nat t base = .ok v := by
  rw [nat, int_padded h hp]
  rfl

theorem nat_number {base : Nat} {s : Str} {v : Nat} (h : Number base s v) : nat s base = .ok v := nat_padded h (padded_self s)

theorem int_empty (base : Nat) : int [] base = none := by
  simp [int, strip, unprefix, number]

end Verif.Py
