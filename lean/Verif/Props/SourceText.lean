import Verif.Proofs.SourceCalls
import Verif.Props.Charstr

/-!
Property C145: the text of `src/charstr.c:8-324`, read as C, does what C52, C53 and C55 say, and the class table is what C54 says of it. The strings of the caller are
anywhere in memory: in objects of any name, at any index, in the same object or not, with anything behind the NUL. The objects of the file keep their contents.
-/

set_option autoImplicit false

namespace Verif.Source

open Verif.Spec.CSource Verif.Spec.Charstr Verif.Charstr

/-- The object `o` of the caller, which is not one of the file, has the string `a` at index `i`. -/
def StringAt (m : Mem) (o : Str) (i : Nat) (a : List UInt8) : Prop :=
  o ∉ [c!"case_table", c!"char_class", c!"digit_value"] ∧ ∃ s t, find o m = some (bytes s) ∧ s.drop i = a ++ 0 :: t ∧ 0 ∉ a

theorem fresh {o : Str} (h : o ∉ [c!"case_table", c!"char_class", c!"digit_value"]) : find o charstrMem = none := by
  simp only [List.mem_cons, List.not_mem_nil, or_false, not_or] at h
  simp [charstrMem, find, h]

variable {m : Mem} {o o' : Str} {i j : Nat} {a b : List UInt8}

/-- C145. `charstr_case_cmp`, as the text says: any two strings are compared as their lower-case versions are in lexicographic order. -/
theorem source_case_cmp (ha : StringAt m o i a) (hb : StringAt m o' j b) :
    Returns (run charstrHeaders charstr c!"charstr_case_cmp" [(strT, .ptr o i), (strT, .ptr o' j)] m)
      ((.int true 32, .num (lexCmp (a.map lower) (b.map lower))), charstrMem ++ m) := by
  obtain ⟨ho, s, t, hs, hd, h0⟩ := ha
  obtain ⟨ho', p, u, hp, hd', h0'⟩ := hb
  rw [run_cmp (fresh ho) (fresh ho') hs hp, hd, hd', case_cmp_lexicographic a b t u h0 h0']
  exact (returns_pure _ _).mpr rfl

/-- The object `o` has the characters `a` at index `i`, at least `n` of them or followed by a NUL. -/
def FieldAt (m : Mem) (o : Str) (i n : Nat) (a : List UInt8) : Prop :=
  o ∉ [c!"case_table", c!"char_class", c!"digit_value"] ∧ ∃ s t, find o m = some (bytes s) ∧ s.drop i = a ++ t ∧ 0 ∉ a ∧ (n ≤ a.length ∨ ∃ t', t = 0 :: t')

theorem StringAt.field (h : StringAt m o i a) (n : Nat) : FieldAt m o i n a := by
  obtain ⟨ho, s, t, hs, hd, h0⟩ := h
  exact ⟨ho, s, 0 :: t, hs, hd, h0, .inr ⟨t, rfl⟩⟩

/-- C145. `charstr_ncase_cmp`: the same for the first `n` characters, for every `n` that a `size_t` can hold. Arrays of `n` characters need no NUL. -/
theorem source_ncase_cmp {n : Nat} (ha : FieldAt m o i n a) (hb : FieldAt m o' j n b) (hn : n < 2 ^ 64) :
    Returns (run charstrHeaders charstr c!"charstr_ncase_cmp" [(strT, .ptr o i), (strT, .ptr o' j), (.int false 64, .num n)] m)
      ((.int true 32, .num (lexCmp ((a.take n).map lower) ((b.take n).map lower))), charstrMem ++ m) := by
  obtain ⟨ho, s, t, hs, hd, h0, ht⟩ := ha
  obtain ⟨ho', p, u, hp, hd', h0', hu⟩ := hb
  rw [run_ncmp (fresh ho) (fresh ho') hs hp n hn, hd, hd', ncase_cmp_fields n a b t u h0 h0' ht hu]
  exact (returns_pure _ _).mpr rfl

theorem in_bounds {s t : List UInt8} (h : s.drop i = a ++ 0 :: t) : i + a.length < s.length := by
  have := congrArg List.length h
  simp at this
  omega

theorem behind {s t : List UInt8} (h : s.drop i = a ++ 0 :: t) {k : Nat} (hk : k ≤ a.length) : s.length - (a.drop k ++ 0 :: t).length = i + k := by
  have := congrArg List.length h
  simp at this ⊢
  omega

/-- C145. `charstr_skip_prefix` and `charstr_case_starts_with`: a pointer to what follows the prefix if it is one, else NULL. -/
theorem source_skip_prefix (ha : StringAt m o i a) (hb : StringAt m o' j b) : ∀ f ∈ [c!"charstr_skip_prefix", c!"charstr_case_starts_with"],
    Returns (run charstrHeaders charstr f [(strT, .ptr o i), (strT, .ptr o' j)] m)
      ((strT, if b <+: a then .ptr o ((i + b.length : Nat) : Int) else .null), charstrMem ++ m) := by
  intro f hf
  obtain ⟨ho, s, t, hs, hd, h0⟩ := ha
  obtain ⟨ho', p, u, hp, hd', h0'⟩ := hb
  have hi := in_bounds hd
  rw [run_skip (fresh ho) (fresh ho') hs hp (by omega) f hf, hd, hd', skip_prefix_iff a b t u h0 h0']
  by_cases h : b <+: a
  · rw [if_pos h, if_pos h]
    show Returns (pure _) _
    rw [behind hd h.length_le]
    exact (returns_pure _ _).mpr rfl
  · rw [if_neg h, if_neg h]
    exact (returns_pure _ _).mpr rfl

/-- C145. `charstr_case_skip_prefix` and `charstr_ncase_starts_with`: the same up to ASCII case. -/
theorem source_case_skip_prefix (ha : StringAt m o i a) (hb : StringAt m o' j b) : ∀ f ∈ [c!"charstr_case_skip_prefix", c!"charstr_ncase_starts_with"],
    Returns (run charstrHeaders charstr f [(strT, .ptr o i), (strT, .ptr o' j)] m)
      ((strT, if b.map lower <+: a.map lower then .ptr o ((i + b.length : Nat) : Int) else .null), charstrMem ++ m) := by
  intro f hf
  obtain ⟨ho, s, t, hs, hd, h0⟩ := ha
  obtain ⟨ho', p, u, hp, hd', h0'⟩ := hb
  have hi := in_bounds hd
  rw [run_caseSkip (fresh ho) (fresh ho') hs hp (by omega) f hf, hd, hd', case_skip_prefix_iff a b t u h0 h0']
  by_cases h : b.map lower <+: a.map lower
  · rw [if_pos h, if_pos h]
    show Returns (pure _) _
    rw [behind hd (by simpa using h.length_le)]
    exact (returns_pure _ _).mpr rfl
  · rw [if_neg h, if_neg h]
    exact (returns_pure _ _).mpr rfl

/-- C145. The functions of one character, for every value of a `char`: the two cases, the value of a hexadecimal digit, and the class, which is as documented for all
flags but those of line feed, form feed and carriage return, and for these is what C54 says. -/
theorem source_chars (c : UInt8) (m : Mem) :
    Returns (run charstrHeaders charstr c!"charstr_lcase_char" [(charT, .num (schar c))] m) ((charT, .num (schar (lower c))), charstrMem ++ m) ∧
    Returns (run charstrHeaders charstr c!"charstr_ucase_char" [(charT, .num (schar c))] m) ((charT, .num (schar (upper c))), charstrMem ++ m) ∧
    (∃ n : Nat, Returns (run charstrHeaders charstr c!"charstr_digit_value" [(charT, .num (schar c))] m) ((.int false 32, .num n), charstrMem ++ m) ∧
      ∀ v, hexValue c = some v → n = v) ∧
    ∃ n : Nat, Returns (run charstrHeaders charstr c!"charstr_char_class" [(charT, .num (schar c))] m) ((.int false 64, .num n), charstrMem ++ m) ∧
      (∀ d ∈ documented, (n &&& d.1 != 0) = d.2 c.toNat) ∧
      (n &&& LF != 0) = (c.toNat == 8) ∧ (n &&& FF != 0) = (c.toNat == 10) ∧ (n &&& CR != 0) = (c.toNat == 11) := by
  obtain ⟨h1, h2, h3, h4⟩ := run_chars c m
  rw [h1, h2, h3, h4, lcase_eq, ucase_eq]
  have hc := char_class_actual c
  exact ⟨(returns_pure _ _).mpr rfl, (returns_pure _ _).mpr rfl, ⟨_, (returns_pure _ _).mpr rfl, (digit_value_hex c).2⟩,
    ⟨_, (returns_pure _ _).mpr rfl, char_class_partial c, hc.1, hc.2.1, hc.2.2.1⟩⟩

/-- "xAb" and "abc" in two objects, the first from index 1 on. -/
def example145 : Mem := [(c!"u", bytes [120, 65, 98, 0, 9]), (c!"v", bytes [97, 66, 99, 0])]

theorem example145_u : StringAt example145 c!"u" 1 [65, 98] := ⟨by decide, [120, 65, 98, 0, 9], [9], by simp [example145, find], rfl, by decide⟩

theorem example145_v : StringAt example145 c!"v" 0 [97, 66, 99] := ⟨by decide, [97, 66, 99, 0], [], by simp [example145, find], rfl, by decide⟩

example : Returns (run charstrHeaders charstr c!"charstr_case_cmp" [(strT, .ptr c!"u" (1 : Nat)), (strT, .ptr c!"v" (0 : Nat))] example145)
    ((.int true 32, .num (-1)), charstrMem ++ example145) := source_case_cmp example145_u example145_v

example : Returns (run charstrHeaders charstr c!"charstr_ncase_cmp" [(strT, .ptr c!"u" (1 : Nat)), (strT, .ptr c!"v" (0 : Nat)), (.int false 64, .num (2 : Nat))] example145)
    ((.int true 32, .num 0), charstrMem ++ example145) := source_ncase_cmp (example145_u.field 2) (example145_v.field 2) (by decide)

/-- Two characters at the end of an object are compared with two of a string; there is no NUL behind them. -/
example : Returns (run charstrHeaders charstr c!"charstr_ncase_cmp" [(strT, .ptr c!"w" (1 : Nat)), (strT, .ptr c!"w" (0 : Nat)), (.int false 64, .num (2 : Nat))]
      [(c!"w", bytes [97, 65, 98])]) ((.int true 32, .num 1), charstrMem ++ [(c!"w", bytes [97, 65, 98])]) :=
  source_ncase_cmp (n := 2) (a := [65, 98]) (b := [97, 65, 98]) ⟨by decide, [97, 65, 98], [], by simp [find], rfl, by decide, .inl (by decide)⟩
    ⟨by decide, [97, 65, 98], [], by simp [find], rfl, by decide, .inl (by decide)⟩ (by decide)

example : Returns (run charstrHeaders charstr c!"charstr_case_skip_prefix" [(strT, .ptr c!"v" (0 : Nat)), (strT, .ptr c!"u" (1 : Nat))] example145)
    ((strT, .ptr c!"v" (2 : Nat)), charstrMem ++ example145) := source_case_skip_prefix example145_v example145_u _ (.head _)

example : Returns (run charstrHeaders charstr c!"charstr_skip_prefix" [(strT, .ptr c!"v" (0 : Nat)), (strT, .ptr c!"u" (1 : Nat))] example145)
    ((strT, .null), charstrMem ++ example145) := source_skip_prefix example145_v example145_u _ (.head _)

/-- The string is read up to its NUL: without one the call is undefined. -/
example : run charstrHeaders charstr c!"charstr_case_cmp" [(strT, .ptr c!"w" (0 : Nat)), (strT, .ptr c!"w" (0 : Nat))] [(c!"w", bytes [65])] = liftC (.error .ub) := by
  rw [run_cmp (s := [65]) (p := [65]) (fresh (by decide)) (fresh (by decide)) (by simp [find]) (by simp [find])]
  rfl

end Verif.Source
