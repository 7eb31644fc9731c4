import Verif.Proofs.Case
import Verif.Model.Charstr
import Verif.Spec.Utf8

/-!
# C68 with the data of Unicode 13, C100 and C101: categories and letter case (categorize.py, lower_case.py, upper_case.py)

The specification is the lines of `/repo/unicode/UnicodeData.txt` (`lines13`, `caseLines13`).
-/

set_option autoImplicit false

namespace Verif.Categorize
open Verif.Unidata Verif.UniGen
open Verif.Spec.Utf8 (width IsScalar)

/-- The generator runs on the data. -/
theorem category13_succeeds : ∃ code, code13 = .ok code := by
  obtain ⟨code, h, _⟩ := code13_spec
  exact ⟨code, h⟩

/-- C68: `charstr_unicode_category` returns the category in UnicodeData.txt of each assigned code point. Missing: the others, see
`category13_wrong_iff`. -/
theorem category13_exact_partial {code : Code Cat} (h : code13 = .ok code) (cp : Int) (c : Cat) (ha : Assigned lines13 cp c) : category .Cn code cp = c :=
  category_exact_assigned lines13_ordered h .Cn cp c ha

/-- The gaps before a code point that stands alone, with its category. -/
def wrongs : Nat → List (Nat × Nat × Cat) → List (Nat × Nat × Cat)
  | _, [] => []
  | b, r :: rs =>
    if b < r.1 ∧ r.1 = r.2.1 ∧ starts rs (r.1 + 1) r.2.2 = false then (b, r.1 - 1, r.2.2) :: wrongs (r.2.1 + 1) rs
    else wrongs (r.2.1 + 1) rs

theorem wrongs_ge {b : Nat} {rs : List (Nat × Nat × Cat)} (h : chain b rs = true) : ∀ g ∈ wrongs b rs, b ≤ g.1 := by
  induction rs generalizing b with
  | nil => simp [wrongs]
  | cons r rs ih =>
    simp only [chain, Bool.and_eq_true, Nat.ble_eq] at h
    intro g hg
    rw [wrongs] at hg
    split at hg
    · rcases List.mem_cons.1 hg with rfl | hg
      · exact le_refl _
      · have := ih h.2 g hg; omega
    · have := ih h.2 g hg; omega

theorem wrongs_spec {b : Nat} {rs : List (Nat × Nat × Cat)} (h : chain b rs = true) {n : Nat} (hn : b ≤ n) (c : Cat) (hc : c ≠ .Cn) (hne : ∀ r ∈ rs, r.2.2 ≠ .Cn) :
    ((∀ c, ¬ In rs n c) ∧ result rs n = c) ↔ ∃ g ∈ wrongs b rs, g.1 ≤ n ∧ n ≤ g.2.1 ∧ g.2.2 = c := by
  induction rs generalizing b with
  | nil => simp [wrongs, result, hc.symm]
  | cons r rs ih =>
    simp only [chain, Bool.and_eq_true, Nat.ble_eq] at h
    have hge := wrongs_ge h.2
    have hmem := chain_mem h.2
    by_cases h1 : n < r.1
    · have hnot : ∀ c, ¬ In (r :: rs) n c := by
        rintro c ⟨q, hq, q1, q2, _⟩
        rcases List.mem_cons.1 hq with rfl | hq
        · omega
        · have := hmem q hq; omega
      rw [result, if_pos h1, wrongs]
      constructor
      · rintro ⟨_, hr⟩
        split at hr
        · rename_i hcond
          rw [if_pos ⟨by omega, hcond⟩]
          exact ⟨_, List.mem_cons_self, hn, by simp only; omega, hr⟩
        · exact absurd hr hc.symm
      · rintro ⟨g, hg, g1, g2, g3⟩
        refine ⟨hnot, ?_⟩
        split at hg
        · rename_i hcond
          rw [if_pos hcond.2]
          rcases List.mem_cons.1 hg with rfl | hg
          · exact g3
          · have := hge g hg; omega
        · have := hge g hg; omega
    · by_cases h2 : n ≤ r.2.1
      · constructor
        · rintro ⟨h, _⟩
          exact absurd ⟨r, by simp, by omega, by omega, rfl⟩ (h r.2.2)
        · rintro ⟨g, hg, g1, g2, _⟩
          exfalso
          rw [wrongs] at hg
          split at hg
          · rcases List.mem_cons.1 hg with rfl | hg
            · simp only at g1 g2; omega
            · have := hge g hg; omega
          · have := hge g hg; omega
      · rw [result, if_neg h1, if_neg h2, wrongs]
        have hin : (∀ c, ¬ In (r :: rs) n c) ↔ ∀ c, ¬ In rs n c := by
          constructor
          · exact fun h c ⟨q, hq, hh⟩ => h c ⟨q, List.mem_cons_of_mem _ hq, hh⟩
          · rintro h c ⟨q, hq, q1, q2, q3⟩
            rcases List.mem_cons.1 hq with rfl | hq
            · omega
            · exact h c ⟨q, hq, q1, q2, q3⟩
        rw [hin, ih h.2 (by omega) fun q hq => hne q (List.mem_cons_of_mem _ hq)]
        split
        · constructor
          · rintro ⟨g, hg, hh⟩; exact ⟨g, List.mem_cons_of_mem _ hg, hh⟩
          · rintro ⟨g, hg, g1, g2, g3⟩
            rcases List.mem_cons.1 hg with rfl | hg
            · simp only at g1 g2; omega
            · exact ⟨g, hg, g1, g2, g3⟩
        · exact Iff.rfl

/-- The gaps of Unicode 13 before a code point that stands alone. -/
def wrongs13 : List (Nat × Nat × Cat) := wrongs 0 ranges13

theorem ranges13_assigned : ∀ r ∈ ranges13, r.2.2 ≠ .Cn := by
  have : (ranges13.all fun r => r.2.2 != .Cn) = true := by decide +kernel
  intro r hr
  simpa using List.all_eq_true.1 this r hr

/-- C68 is violated just for these unassigned code points: in 111 gaps the function returns the category of the code point behind the gap. -/
theorem category13_wrong_iff {code : Code Cat} (h : code13 = .ok code) (n : Nat) (c : Cat) (hc : c ≠ .Cn) :
    ((∀ c, ¬ Assigned lines13 n c) ∧ category .Cn code n = c) ↔ ∃ g ∈ wrongs13, g.1 ≤ n ∧ n ≤ g.2.1 ∧ g.2.2 = c := by
  obtain ⟨code', h1, h2⟩ := code13_spec
  rw [h, Except.ok.injEq] at h1
  subst h1
  simp only [assigned13, h2]
  exact wrongs_spec ranges13_chain (Nat.zero_le n) c hc ranges13_assigned

/-- They are 716587 of the 1114112 code points. -/
theorem category13_wrong_count : wrongs13.length = 111 ∧ (wrongs13.map fun g => g.2.1 + 1 - g.1).sum = 716587 ∧
    wrongs13.Pairwise (fun a b => a.2.1 < b.1) := by
  have hp : ∀ (b : Nat) (rs : List (Nat × Nat × Cat)), chain b rs = true → (wrongs b rs).Pairwise (fun a b => a.2.1 < b.1) := by
    intro b rs
    induction rs generalizing b with
    | nil => intro _; exact List.Pairwise.nil
    | cons r rs ih =>
      intro h
      simp only [chain, Bool.and_eq_true, Nat.ble_eq] at h
      rw [wrongs]
      split
      · rename_i hc
        refine List.pairwise_cons.2 ⟨fun g hg => ?_, ih _ h.2⟩
        have := wrongs_ge h.2 g hg
        simp only; omega
      · exact ih _ h.2
  exact ⟨by decide +kernel, by decide +kernel, hp 0 ranges13 ranges13_chain⟩

/-- C68 is violated: U+0378 is called a modifier letter, U+038B an upper-case letter, and all of U+3134B..U+E0000 format characters. -/
theorem category13_violated {code : Code Cat} (h : code13 = .ok code) :
    ((∀ c, ¬ Assigned lines13 (0x378 : Nat) c) ∧ category .Cn code (0x378 : Nat) = .Lm) ∧
    ((∀ c, ¬ Assigned lines13 (0x38B : Nat) c) ∧ category .Cn code (0x38B : Nat) = .Lu) ∧
    ∀ n : Nat, 0x3134B ≤ n → n ≤ 0xE0000 → (∀ c, ¬ Assigned lines13 n c) ∧ category .Cn code n = .Cf := by
  refine ⟨?_, ?_, fun n h1 h2 => ?_⟩
  · exact (category13_wrong_iff h _ _ (by decide)).2 ⟨(0x378, 0x379, .Lm), by decide +kernel, by decide, by decide, rfl⟩
  · exact (category13_wrong_iff h _ _ (by decide)).2 ⟨(0x38B, 0x38B, .Lu), by decide +kernel, by decide, by decide, rfl⟩
  · exact (category13_wrong_iff h _ _ (by decide)).2 ⟨(0x3134B, 0xE0000, .Cf), by decide +kernel, h1, h2, rfl⟩

/-- A letter, and an ideograph inside a range. -/
example : ∃ code, code13 = .ok code ∧ category .Cn code (0x41 : Nat) = .Lu ∧ category .Cn code (0x4E01 : Nat) = .Lo ∧ category .Cn code (0x600000 : Nat) = .Cn := by
  obtain ⟨code, h, h2⟩ := code13_spec
  exact ⟨code, h, by rw [h2]; decide +kernel, by rw [h2]; decide +kernel, by rw [h2]; decide +kernel⟩

/-! ### C100: letter case -/

/-- The generators run on the data. -/
theorem case13_succeeds : ∃ l u, lowerMain caseLines13 = .ok l ∧ upperMain caseLines13 = .ok u := by
  obtain ⟨l, hl, _⟩ := lower_spec
  obtain ⟨u, hu, _⟩ := upper_spec
  exact ⟨l, u, hl, hu⟩

variable {l u : List (Nat × Nat)}

theorem lower_fast (hl : lowerMain caseLines13 = .ok l) : (∀ c : Nat, switch l c = lowerFast c) ∧ ∀ c : Int, c < 0 → switch l c = c := by
  obtain ⟨l', h1, h2⟩ := lower_spec
  rw [hl, Except.ok.injEq] at h1
  exact h1 ▸ h2

theorem upper_fast (hu : upperMain caseLines13 = .ok u) : (∀ c : Nat, switch u c = upperFast c) ∧ ∀ c : Int, c < 0 → switch u c = c := by
  obtain ⟨l', h1, h2⟩ := upper_spec
  rw [hu, Except.ok.injEq] at h1
  exact h1 ▸ h2

theorem line_lookup {r : CaseRec Cat} (hr : r ∈ caseLines13) : categoryTable.lookup r.cp = some (r.kind, r.cat) ∧ r.lower = lowerTable.lookup r.cp ∧
    r.upper = upperTable.lookup r.cp := by
  rw [caseLines13, List.mem_map] at hr
  obtain ⟨⟨cp, k, c⟩, hq, rfl⟩ := hr
  exact ⟨(mem_lines13 _ _ _).1 hq, rfl, rfl⟩

theorem lookup_line {c : Nat} {k : Kind} {x : Cat} (h : categoryTable.lookup c = some (k, x)) :
    (⟨⟨c, k, x⟩, lowerTable.lookup c, upperTable.lookup c⟩ : CaseRec Cat) ∈ caseLines13 :=
  List.mem_map.2 ⟨⟨c, k, x⟩, (mem_lines13 _ _ _).2 h, rfl⟩

/-- C100: `charstr_naive_lcase_unicode` returns the lower-case mapping in UnicodeData.txt of an upper-case letter (Lu), if it has one; every
other integer is returned unchanged. -/
theorem lcase13_exact (hl : lowerMain caseLines13 = .ok l) :
    (∀ r ∈ caseLines13, switch l r.cp = if r.cat = .Lu then (r.lower.getD r.cp : Nat) else r.cp) ∧
    ∀ c : Int, (∀ r ∈ caseLines13, (r.cp : Int) ≠ c) → switch l c = c := by
  obtain ⟨h1, h2⟩ := lower_fast hl
  constructor
  · intro r hr
    obtain ⟨g1, g2, _⟩ := line_lookup hr
    rw [h1, lowerFast, g1, g2]
    split
    · rename_i h
      simp only [Option.some.injEq, Prod.mk.injEq] at h
      rw [if_pos h.2]
    · rename_i h
      rw [if_neg]
      intro hx
      exact h r.kind (by rw [hx])
  · intro c hc
    by_cases h : c < 0
    · exact h2 c h
    · obtain ⟨n, rfl⟩ := Int.eq_ofNat_of_zero_le (show 0 ≤ c by omega)
      rw [h1, lowerFast]
      split
      · rename_i h'
        exact absurd rfl (hc _ (lookup_line h'))
      · rfl

/-- C100 for `charstr_naive_ucase_unicode` and lower-case letters (Ll). -/
theorem ucase13_exact (hu : upperMain caseLines13 = .ok u) :
    (∀ r ∈ caseLines13, switch u r.cp = if r.cat = .Ll then (r.upper.getD r.cp : Nat) else r.cp) ∧
    ∀ c : Int, (∀ r ∈ caseLines13, (r.cp : Int) ≠ c) → switch u c = c := by
  obtain ⟨h1, h2⟩ := upper_fast hu
  constructor
  · intro r hr
    obtain ⟨g1, _, g2⟩ := line_lookup hr
    rw [h1, upperFast, g1, g2]
    split
    · rename_i h
      simp only [Option.some.injEq, Prod.mk.injEq] at h
      rw [if_pos h.2]
    · rename_i h
      rw [if_neg]
      intro hx
      exact h r.kind (by rw [hx])
  · intro c hc
    by_cases h : c < 0
    · exact h2 c h
    · obtain ⟨n, rfl⟩ := Int.eq_ofNat_of_zero_le (show 0 ≤ c by omega)
      rw [h1, upperFast]
      split
      · rename_i h'
        exact absurd rfl (hc _ (lookup_line h'))
      · rfl

/-- C100: not all mappings are used: those of title-case letters (U+01C5), Roman numerals (U+2160, U+2170), circled letters (U+24B6, U+24D0)
and U+0345 are not. -/
theorem case13_not_simple (hl : lowerMain caseLines13 = .ok l) (hu : upperMain caseLines13 = .ok u) :
    (lowerTable.lookup 0x1C5 = some 0x1C6 ∧ switch l (0x1C5 : Nat) = 0x1C5) ∧ (lowerTable.lookup 0x2160 = some 0x2170 ∧ switch l (0x2160 : Nat) = 0x2160) ∧
    (lowerTable.lookup 0x24B6 = some 0x24D0 ∧ switch l (0x24B6 : Nat) = 0x24B6) ∧ (upperTable.lookup 0x345 = some 0x399 ∧ switch u (0x345 : Nat) = 0x345) := by
  simp only [(lower_fast hl).1, (upper_fast hu).1]
  refine ⟨⟨?_, ?_⟩, ⟨?_, ?_⟩, ⟨?_, ?_⟩, ?_, ?_⟩ <;> decide +kernel

example : ∃ l u, lowerMain caseLines13 = .ok l ∧ upperMain caseLines13 = .ok u ∧ switch l (0xC4 : Nat) = 0xE4 ∧ switch u (0x161 : Nat) = 0x160 ∧ switch l (0x2014 : Nat) = 0x2014 := by
  obtain ⟨l, u, hl, hu⟩ := case13_succeeds
  refine ⟨l, u, hl, hu, ?_, ?_, ?_⟩ <;> simp only [(lower_fast hl).1, (upper_fast hu).1] <;> decide +kernel

/-! ### C101: what callers can expect of the conversions -/

def isCat (x : Cat) (c : Nat) : Bool := match categoryTable.lookup c with
  | some (_, y) => y == x
  | none => false

theorem lowerTable_ok : lowerTable.ok 0 0x110000 = true := by decide +kernel
theorem upperTable_ok : upperTable.ok 0 0x110000 = true := by decide +kernel

def scalarB (c : Nat) : Bool := c < 0xD800 || (0xE000 ≤ c && c < 0x110000)

/-- The upper-case letters that are not the upper case of their lower case. -/
def lossyUpper : List Nat := [0x130, 0x3F4, 0x1E9E, 0x2126, 0x212A, 0x212B]

/-- The lower-case letters that are not the lower case of their upper case. -/
def lossyLower : List Nat :=
  [0xB5, 0x131, 0x17F, 0x3C2, 0x3D0, 0x3D1, 0x3D5, 0x3D6, 0x3F0, 0x3F1, 0x3F5, 0x1C80, 0x1C81, 0x1C82, 0x1C83, 0x1C84, 0x1C85, 0x1C86, 0x1C87, 0x1C88, 0x1E9B,
   0x1F80, 0x1F81, 0x1F82, 0x1F83, 0x1F84, 0x1F85, 0x1F86, 0x1F87, 0x1F90, 0x1F91, 0x1F92, 0x1F93, 0x1F94, 0x1F95, 0x1F96, 0x1F97,
   0x1FA0, 0x1FA1, 0x1FA2, 0x1FA3, 0x1FA4, 0x1FA5, 0x1FA6, 0x1FA7, 0x1FB3, 0x1FBE, 0x1FC3, 0x1FF3]

theorem lowerTable_facts : (lowerTable.every fun lo hi d => lo == hi && (!isCat .Lu lo || (isCat .Ll d && scalarB d && d != lo &&
    (lossyUpper.elem lo != (upperFast d == lo)) && (width d ≤ width lo || lo == 0x23A || lo == 0x23E)))) = true := by decide +kernel

theorem upperTable_facts : (upperTable.every fun lo hi d => lo == hi && (!isCat .Ll lo || ((isCat .Lu d || isCat .Lt d) && scalarB d && d != lo &&
    (lossyLower.elem lo != (lowerFast d == lo)) && width d ≤ width lo + 1))) = true := by decide +kernel

theorem lower_changes {c d : Nat} (h : lowerFast c = d) (hne : d ≠ c) : isCat .Lu c = true ∧ isCat .Ll d = true ∧ IsScalar d ∧
    (c ∈ lossyUpper ↔ ¬ upperFast d = c) ∧ (width d ≤ width c ∨ c = 0x23A ∨ c = 0x23E) := by
  rw [lowerFast] at h
  split at h
  · rename_i hk
    cases ht : lowerTable.lookup c with
    | none => rw [ht] at h; exact absurd h.symm hne
    | some x =>
      rw [ht] at h
      simp only [Option.getD_some] at h
      subst h
      obtain ⟨lo, hi, hm, h1, h2⟩ := (lookup_iff lowerTable_ok _ _).1 ht
      have := every_mem lowerTable_facts _ _ _ hm
      simp only [Bool.and_eq_true, beq_iff_eq, Bool.or_eq_true, Bool.not_eq_true', bne_iff_ne, ne_eq, decide_eq_true_eq] at this
      obtain ⟨h3, h4⟩ := this
      have : lo = c := by omega
      subst this
      have hLu : isCat .Lu lo = true := by rw [isCat, hk]; rfl
      rw [hLu] at h4
      simp only [Bool.true_eq_false, false_or] at h4
      obtain ⟨⟨⟨⟨g1, g2⟩, _⟩, g3⟩, g4⟩ := h4
      refine ⟨hLu, g1, ?_, ?_, by tauto⟩
      · simp only [scalarB, Bool.or_eq_true, Bool.and_eq_true, decide_eq_true_eq] at g2; exact g2
      · rw [← List.elem_iff]
        generalize lossyUpper.elem lo = e at g3
        cases e <;> simpa using g3
  · exact absurd h.symm hne

theorem upper_changes {c d : Nat} (h : upperFast c = d) (hne : d ≠ c) : isCat .Ll c = true ∧ (isCat .Lu d = true ∨ isCat .Lt d = true) ∧ IsScalar d ∧
    (c ∈ lossyLower ↔ ¬ lowerFast d = c) ∧ width d ≤ width c + 1 := by
  rw [upperFast] at h
  split at h
  · rename_i hk
    cases ht : upperTable.lookup c with
    | none => rw [ht] at h; exact absurd h.symm hne
    | some x =>
      rw [ht] at h
      simp only [Option.getD_some] at h
      subst h
      obtain ⟨lo, hi, hm, h1, h2⟩ := (lookup_iff upperTable_ok _ _).1 ht
      have := every_mem upperTable_facts _ _ _ hm
      simp only [Bool.and_eq_true, beq_iff_eq, Bool.or_eq_true, Bool.not_eq_true', bne_iff_ne, ne_eq, decide_eq_true_eq] at this
      obtain ⟨h3, h4⟩ := this
      have : lo = c := by omega
      subst this
      have hLl : isCat .Ll lo = true := by rw [isCat, hk]; rfl
      rw [hLl] at h4
      simp only [Bool.true_eq_false, false_or] at h4
      obtain ⟨⟨⟨⟨g1, g2⟩, _⟩, g3⟩, g4⟩ := h4
      refine ⟨hLl, g1, ?_, ?_, g4⟩
      · simp only [scalarB, Bool.or_eq_true, Bool.and_eq_true, decide_eq_true_eq] at g2; exact g2
      · rw [← List.elem_iff]
        generalize lossyLower.elem lo = e at g3
        cases e <;> simpa using g3
  · exact absurd h.symm hne

theorem cat_unique {x y : Cat} {c : Nat} (hx : isCat x c = true) (hy : isCat y c = true) : x = y := by
  rw [isCat] at hx hy
  split at hx
  · rename_i h
    rw [h] at hy
    simp only [beq_iff_eq] at hx hy
    rw [← hx, hy]
  · cases hx

theorem lower_not_upper {c : Nat} (h : isCat .Lu c = false) : lowerFast c = c := by
  by_contra hne
  rw [(lower_changes rfl hne).1] at h
  cases h

theorem upper_not_lower {c : Nat} (h : isCat .Ll c = false) : upperFast c = c := by
  by_contra hne
  rw [(upper_changes rfl hne).1] at h
  cases h

/-- C101: converting twice is the same as converting once. -/
theorem case13_idempotent (hl : lowerMain caseLines13 = .ok l) (hu : upperMain caseLines13 = .ok u) (c : Int) :
    switch l (switch l c) = switch l c ∧ switch u (switch u c) = switch u c := by
  obtain ⟨l1, l2⟩ := lower_fast hl
  obtain ⟨u1, u2⟩ := upper_fast hu
  by_cases hc : c < 0
  · rw [l2 c hc, u2 c hc, l2 c hc, u2 c hc]; exact ⟨rfl, rfl⟩
  · obtain ⟨n, rfl⟩ := Int.eq_ofNat_of_zero_le (show 0 ≤ c by omega)
    rw [l1, l1, u1, u1]
    constructor
    · by_cases h : lowerFast n = n
      · rw [h, h]
      · have := lower_changes rfl h
        rw [lower_not_upper]
        by_contra hx
        exact absurd (cat_unique (by simpa using hx) this.2.1) (by decide)
    · by_cases h : upperFast n = n
      · rw [h, h]
      · have := upper_changes rfl h
        rw [upper_not_lower]
        by_contra hx
        rcases this.2.1 with g | g <;> exact absurd (cat_unique (by simpa using hx) g) (by decide)

/-- C101: converting there and back: the six code points listed are the only upper-case letters changed by converting to lower case and then
to upper case, and the 49 listed are the only lower-case letters changed by converting to upper case and then to lower case. -/
theorem case13_round_trip (hl : lowerMain caseLines13 = .ok l) (hu : upperMain caseLines13 = .ok u) :
    (∀ r ∈ caseLines13, r.cat = .Lu → (switch u (switch l r.cp) = r.cp ↔ r.cp ∉ lossyUpper)) ∧
    ∀ r ∈ caseLines13, r.cat = .Ll → (switch l (switch u r.cp) = r.cp ↔ r.cp ∉ lossyLower) := by
  have hmem1 : ∀ c ∈ lossyUpper, lowerFast c ≠ c := by decide +kernel
  have hmem2 : ∀ c ∈ lossyLower, upperFast c ≠ c := by decide +kernel
  constructor
  · intro r hr hcat
    have hc : isCat .Lu r.cp = true := by rw [isCat, (line_lookup hr).1, hcat]; rfl
    rw [(lower_fast hl).1, (upper_fast hu).1, Int.natCast_inj]
    by_cases h : lowerFast r.cp = r.cp
    · rw [h, upper_not_lower (by by_contra hx; exact absurd (cat_unique (by simpa using hx) hc) (by decide))]
      exact ⟨fun _ hm => hmem1 _ hm h, fun _ => rfl⟩
    · rw [(lower_changes rfl h).2.2.2.1, not_not]
  · intro r hr hcat
    have hc : isCat .Ll r.cp = true := by rw [isCat, (line_lookup hr).1, hcat]; rfl
    rw [(upper_fast hu).1, (lower_fast hl).1, Int.natCast_inj]
    by_cases h : upperFast r.cp = r.cp
    · rw [h, lower_not_upper (by by_contra hx; exact absurd (cat_unique (by simpa using hx) hc) (by decide))]
      exact ⟨fun _ hm => hmem2 _ hm h, fun _ => rfl⟩
    · rw [(upper_changes rfl h).2.2.2.1, not_not]

/-- C101: in UTF-8 a converted code point takes at most one byte more; with `charstr_naive_lcase_unicode` that happens for U+023A and U+023E
only. A scalar value becomes a scalar value. -/
theorem case13_width (hl : lowerMain caseLines13 = .ok l) (hu : upperMain caseLines13 = .ok u) (c : Nat) (hs : IsScalar c) :
    (∃ d : Nat, switch l c = d ∧ IsScalar d ∧ (width d ≤ width c ∨ (c = 0x23A ∨ c = 0x23E) ∧ width d = width c + 1)) ∧
    ∃ d : Nat, switch u c = d ∧ IsScalar d ∧ width d ≤ width c + 1 := by
  rw [(lower_fast hl).1, (upper_fast hu).1]
  constructor
  · refine ⟨_, rfl, ?_⟩
    by_cases h : lowerFast c = c
    · rw [h]; exact ⟨hs, .inl (le_refl _)⟩
    · have := lower_changes rfl h
      refine ⟨this.2.2.1, ?_⟩
      rcases this.2.2.2.2 with g | g
      · exact .inl g
      · right
        refine ⟨g, ?_⟩
        rcases g with rfl | rfl <;> decide +kernel
  · refine ⟨_, rfl, ?_⟩
    by_cases h : upperFast c = c
    · rw [h]; exact ⟨hs, by omega⟩
    · exact ⟨(upper_changes rfl h).2.2.1, (upper_changes rfl h).2.2.2.2⟩

/-- C101: on ASCII the conversions are `charstr_lcase_char` and `charstr_ucase_char`. -/
theorem case13_ascii (hl : lowerMain caseLines13 = .ok l) (hu : upperMain caseLines13 = .ok u) (c : UInt8) (hc : c < 128) :
    switch l c.toNat = (Charstr.lcaseChar c).toNat ∧ switch u c.toNat = (Charstr.ucaseChar c).toNat := by
  rw [(lower_fast hl).1, (upper_fast hu).1]
  have : ∀ c : Fin 128, lowerFast c = (Charstr.lcaseChar (UInt8.ofNat c)).toNat ∧ upperFast c = (Charstr.ucaseChar (UInt8.ofNat c)).toNat := by decide +kernel
  have h := this ⟨c.toNat, by rw [UInt8.lt_iff_toNat_lt] at hc; simpa using hc⟩
  simp only [UInt8.ofNat_toNat] at h
  exact ⟨by exact_mod_cast h.1, by exact_mod_cast h.2⟩

/-- A conversion can take more room: U+023A has two bytes, its lower case three. -/
example : ∃ l u, lowerMain caseLines13 = .ok l ∧ upperMain caseLines13 = .ok u ∧ switch l (0x23A : Nat) = 0x2C65 ∧ width 0x23A = 2 ∧ width 0x2C65 = 3 ∧
    switch u (switch l (0x212A : Nat)) = 0x4B := by
  obtain ⟨l, u, hl, hu⟩ := case13_succeeds
  refine ⟨l, u, hl, hu, ?_, by decide, by decide, ?_⟩
  · rw [(lower_fast hl).1]; decide +kernel
  · rw [(lower_fast hl).1, (upper_fast hu).1]; decide +kernel

end Verif.Categorize
