import Verif.Props.Emit
import Verif.Props.DataFiles13

/-!
# C133 with the data of Unicode 13

For every text of the data files that says what the tables in `Verif/Data` record, the C source text that the scripts write means the functions that the rest
of the development is about.
-/

set_option autoImplicit false

namespace Verif.Emit
open Verif.Spec.CText hiding Str
open Verif.Py (Str)
open Verif.PyGen Verif.Unidata Verif.UniGen Verif.Categorize
open Verif.Spec.DataFiles hiding Str Range

variable {text : Str} {es : List Spec.DataFiles.Entry}

theorem unicodeData_small : (unicodeData.every fun _ _ v => Nat.blt v.1 256 && v.2.all fun x => Nat.blt x 0x110000) = true := by decide +kernel
theorem lowerTable_small : (lowerTable.every fun _ _ v => Nat.blt v 0x110000) = true := by decide +kernel
theorem upperTable_small : (upperTable.every fun _ _ v => Nat.blt v 0x110000) = true := by decide +kernel

theorem fits13 (h : Unicode13 es) : Fits es := by
  intro e he
  obtain ⟨h1, h2⟩ := h.case e he
  obtain ⟨h3, h4⟩ := h.row e he
  have hrow : ∀ k d, (k, d) = (unicodeData.lookup e.cp).getD (0, []) → k < 2 ^ 31 ∧ ∀ x ∈ d, x < 2 ^ 31 := by
    intro k d hkd
    cases hl : unicodeData.lookup e.cp with
    | none =>
      rw [hl] at hkd
      cases hkd
      simp
    | some v =>
      rw [hl] at hkd
      obtain rfl : (k, d) = v := hkd
      obtain ⟨lo, hi, hm, _⟩ := (lookup_iff unicodeData_ok _ _).1 hl
      have := every_mem unicodeData_small _ _ _ hm
      simp only [Bool.and_eq_true, List.all_eq_true, Nat.blt_eq] at this
      exact ⟨by omega, fun x hx => by have := this.2 x hx; omega⟩
  obtain ⟨r1, r2⟩ := hrow _ _ h3
  refine ⟨r1, fun v hv => ?_, fun v hv => ?_, fun d hd => ?_⟩
  · rw [h1] at hv
    obtain ⟨lo, hi, hm, _⟩ := (lookup_iff lowerTable_ok _ _).1 hv
    have := every_mem lowerTable_small _ _ _ hm
    simp only [Nat.blt_eq] at this
    omega
  · rw [h2] at hv
    obtain ⟨lo, hi, hm, _⟩ := (lookup_iff upperTable_ok _ _).1 hv
    have := every_mem upperTable_small _ _ _ hm
    simp only [Nat.blt_eq] at this
    omega
  · rw [Option.mem_def] at hd
    rw [hd] at r2
    exact r2

theorem dec13 (h13 : Unicode13 es) {e : Spec.DataFiles.Entry} (he : e ∈ es) : unicode13.decomp e.cp = e.dec := by
  obtain ⟨h1, h2⟩ := h13.row e he
  have hd := fun d => decomp_lookup e.cp d
  rw [← h1] at hd
  cases e' : e.dec with
  | some d =>
    rw [hd, e']
    exact ⟨by rintro rfl; exact h2 e', rfl⟩
  | none =>
    cases hu : unicode13.decomp e.cp with
    | none => rfl
    | some d =>
      have := (hd d).1 hu
      rw [e'] at this
      exact absurd this.2.symm this.1

theorem dec13_none (h13 : Unicode13 es) {cp : Nat} (hc : ∀ e ∈ es, e.cp ≠ cp) : unicode13.decomp cp = none := by
  cases hd : unicode13.decomp cp with
  | none => rfl
  | some d =>
    obtain ⟨h1, h2⟩ := (decomp_lookup _ _).1 hd
    rw [no_row h13 hc] at h2
    exact absurd h2.symm h1

theorem no_entry {cp : Nat} (h : ¬ ∃ e ∈ es, e.cp = cp) : ∀ e ∈ es, (e.cp : Int) ≠ cp := fun e he h' => h ⟨e, he, by omega⟩

/-- C133 with the data of Unicode 13, the combining classes and decompositions: the emitted text means the functions of `unicode13`, and the default for
negative numbers. -/
theorem emitted13_marks (h : UnicodeData text es) (h13 : Unicode13 es) : ∃ ccc dec, cccFile text = .ok ccc ∧ decompFile text = .ok dec ∧
    (∀ cp : Nat, Means header ccc c!"charstr_unicode_canonical_combining_class" [.int cp] (.int (unicode13.ccc cp)) ∧
      Means header dec c!"_charstr_unicode_decomposition" [.int cp] (match unicode13.decomp cp with | some d => .ints (d ++ [0]) | none => .null)) ∧
    ∀ c : Int, c < 0 → Means header ccc c!"charstr_unicode_canonical_combining_class" [.int c] (.int 0) ∧
      Means header dec c!"_charstr_unicode_decomposition" [.int c] .null := by
  obtain ⟨ccc, c1, c2, c3⟩ := emitted_ccc h (datafile13_sound h13) (fits13 h13)
  obtain ⟨dec, d1, d2, d3⟩ := emitted_decomposition h (datafile13_sound h13) (fits13 h13)
  refine ⟨ccc, dec, c1, d1, fun cp => ?_, fun c hc => ⟨c3 c fun e _ => by omega, d3 c fun e _ => by omega⟩⟩
  by_cases hcp : ∃ e ∈ es, e.cp = cp
  · obtain ⟨e, he, rfl⟩ := hcp
    rw [dec13 h13 he, ccc_lookup, ← (h13.row e he).1]
    exact ⟨c2 e he, d2 e he⟩
  · rw [dec13_none h13 fun e he h => hcp ⟨e, he, h⟩, ccc_lookup, no_row h13 fun e he h => hcp ⟨e, he, h⟩]
    exact ⟨c3 _ (no_entry hcp), d3 _ (no_entry hcp)⟩

/-- C133 with the data of Unicode 13, the primary composites: the emitted text means the function of `unicode13`, and -1 if there is no composite. -/
theorem emitted13_composite {xtext : Str} {xs : List Str} (h : UnicodeData text es) (h13 : Unicode13 es) (hx : Lines xtext xs) (hxs : Exclusions xs exclusions) :
    ∃ out, recompFile text xtext = .ok out ∧
      (∀ s c : Nat, Means header out c!"_charstr_unicode_primary_composite" [.int s, .int c] (.int (match unicode13.composite s c with | some p => p | none => -1))) ∧
      ∀ s c : Int, s < 0 ∨ c < 0 → Means header out c!"_charstr_unicode_primary_composite" [.int s, .int c] (.int (-1)) := by
  have h2 : ∀ e ∈ es, ∀ d, e.dec = some d → d.length ≤ 2 := fun e he d hd => decomp_two e.cp d ((dec13 h13 he).trans hd)
  obtain ⟨out, o1, o2, o3⟩ := emitted_composite h hx hxs h2 (fun e he => by have := (datafile13_sound h13).bound e he; omega)
  refine ⟨out, o1, fun s c => ?_, fun s c hsc => o3 s c fun e _ s' c' _ _ hh => by omega⟩
  cases hu : unicode13.composite s c with
  | none =>
    refine o3 s c fun e he s' c' hd hn hsc => ?_
    obtain rfl : s' = s := by omega
    obtain rfl : c' = c := by omega
    have := (composite_iff13 s' c' e.cp).2 ⟨(decomp_iff _ _).1 ((dec13 h13 he).trans hd), hn⟩
    rw [hu] at this
    cases this
  | some p =>
    obtain ⟨k1, k2⟩ := (composite_iff13 _ _ _).1 hu
    have k1 := (decomp_iff _ _).2 k1
    have hex : ∃ e ∈ es, e.dec = some [s, c] ∧ e.cp ∉ exclusions := by
      by_cases hp : ∃ e ∈ es, e.cp = p
      · obtain ⟨e, he, rfl⟩ := hp
        exact ⟨e, he, (dec13 h13 he).symm.trans k1, k2⟩
      · rw [dec13_none h13 fun e he h => hp ⟨e, he, h⟩] at k1
        cases k1
    obtain ⟨e, he, m1, m2⟩ := hex
    have : (es.reverse.find? fun e => decide (e.dec = some [s, c] ∧ e.cp ∉ exclusions)).isSome = true := by
      rw [List.find?_isSome]
      exact ⟨e, List.mem_reverse.2 he, by simp [m1, m2]⟩
    obtain ⟨e', he'⟩ := Option.isSome_iff_exists.1 this
    obtain ⟨n1, as, bs, n2, n3⟩ := List.find?_eq_some_iff_append.1 he'
    rw [decide_eq_true_eq] at n1
    have hes : es = bs.reverse ++ e' :: as.reverse := by have := congrArg List.reverse n2; simpa using this
    have := o2 s c bs.reverse e' as.reverse hes n1.1 n1.2 fun y hy => by
      have := n3 y (List.mem_reverse.1 hy)
      rw [Bool.not_eq_true', decide_eq_false_iff_not] at this
      exact this
    have he'' : e' ∈ es := by rw [hes]; simp
    have hp := (composite_iff13 s c e'.cp).2 ⟨(decomp_iff _ _).1 ((dec13 h13 he'').trans n1.1), n1.2⟩
    rw [hu] at hp
    cases hp
    exact this

/-- C133 with the data of Unicode 13, the flags of the normal forms: the emitted text means the function of `unicode13`, and 0 for negative numbers. -/
theorem emitted13_quick {ptext : Str} {ps : List Str} {qs : List Quick} (hp : Lines ptext ps) (hps : Checking ps qs) (hq : Props13 qs) :
    ∃ out, qcFile 0x110000 ptext = .ok out ∧
      (∀ cp : Nat, Means header out c!"charstr_allowed_unicode_normal_forms" [.int cp] (.int (unicode13.flags cp))) ∧
      ∀ c : Int, c < 0 → Means header out c!"charstr_allowed_unicode_normal_forms" [.int c] (.int 0) := by
  have hb : ∀ q ∈ qs, q.hi < 0x110000 := fun q hq' => (ok_mem (table13_ok q.prop) _ _ _ ((hq q.prop _ _ _).1 ⟨q, hq', rfl, rfl, rfl, rfl⟩)).2.2
  obtain ⟨out, o1, o2, o3⟩ := emitted_quick hp hps hb
  refine ⟨out, o1, fun cp => ?_, fun c hc => o3 c (.inl hc)⟩
  by_cases hcp : cp < 0x110000
  · have := o2 cp _ _ _ _ hcp ((valueOf_iff qs .nfc cp _).2 rfl) ((valueOf_iff qs .nfd cp _).2 rfl) ((valueOf_iff qs .nfkc cp _).2 rfl) ((valueOf_iff qs .nfkd cp _).2 rfl)
    have v1 := value13 hq .nfc cp
    have v2 := value13 hq .nfd cp
    have v3 := value13 hq .nfkc cp
    have v4 := value13 hq .nfkd cp
    simp only [table13] at v1 v2 v3 v4
    have hf : unicode13.flags cp = flag .nfc (valueOf qs .nfc cp) ||| flag .nfd (valueOf qs .nfd cp) ||| flag .nfkc (valueOf qs .nfkc cp) ||| flag .nfkd (valueOf qs .nfkd cp) := by
      simp only [unicode13, genFlags, v1, v2, v3, v4]
      cases valueOf qs .nfc cp <;> cases valueOf qs .nfd cp <;> cases valueOf qs .nfkc cp <;> cases valueOf qs .nfkd cp <;> rfl
    rw [hf]
    exact this
  · rw [unicode13_flags_above (by omega)]
    exact o3 cp (.inr (by omega))

theorem catName_mem (c : Cat) : PyGen.catName c ∈ categoryNames := by cases c <;> decide

/-- C133 with the data of Unicode 13, case and category: the emitted text means the functions made from `caseLines13` and `lines13` (C68, C69; what the latter
says about code points without a category is in `category13_wrong_iff`). -/
theorem emitted13_case (h : UnicodeData text es) (h13 : Unicode13 es) {l u : List (Nat × Nat)} (hl : lowerMain caseLines13 = .ok l)
    (hu : upperMain caseLines13 = .ok u) {code : Code Cat} (hc : code13 = .ok code) :
    ∃ low up cat, lowerFile text = .ok low ∧ upperFile text = .ok up ∧ categoryFile text = .ok cat ∧ ∀ c : Int,
      Means header low c!"charstr_naive_lcase_unicode" [.int c] (.int (switch l c)) ∧
      Means header up c!"charstr_naive_ucase_unicode" [.int c] (.int (switch u c)) ∧
      Means header cat c!"charstr_unicode_category" [.int c] (.int (categoryNames.idxOf (PyGen.catName (category .Cn code c)))) := by
  obtain ⟨low, l1, l2, l3⟩ := emitted_lower h (datafile13_sound h13) (fits13 h13)
  obtain ⟨up, u1, u2, u3⟩ := emitted_upper h (datafile13_sound h13) (fits13 h13)
  obtain ⟨cat, code', c1, c2, _, c3⟩ := emitted_category_partial h (datafile13_sound h13) (fun e he => by
    obtain ⟨r, hr, h1⟩ := mem_recs13 h13 he
    have h2 : e.cat = PyGen.catName r.cat := congrArg Rec.cat h1
    rw [h2]
    exact catName_mem _)
  obtain ⟨code'', c4, c5⟩ := datafile13_category h h13 hc
  rw [c2] at c4
  cases c4
  refine ⟨low, up, cat, l1, u1, c1, fun c => ⟨?_, ?_, ?_⟩⟩
  · by_cases hcp : ∃ e ∈ es, (e.cp : Int) = c
    · obtain ⟨e, he, rfl⟩ := hcp
      obtain ⟨r, hr, r1, r2, r3, r4⟩ := case_line h13 he
      have := l2 e he
      rw [r1, (lcase13_exact hl).1 r hr, r3]
      rw [r2, r1] at this
      simpa only [name_lu, Nat.cast_ite] using this
    · have hcp : ∀ e ∈ es, (e.cp : Int) ≠ c := fun e he h => hcp ⟨e, he, h⟩
      rw [(lcase13_exact hl).2 c (case_other h13 hcp)]
      exact l3 c hcp
  · by_cases hcp : ∃ e ∈ es, (e.cp : Int) = c
    · obtain ⟨e, he, rfl⟩ := hcp
      obtain ⟨r, hr, r1, r2, r3, r4⟩ := case_line h13 he
      have := u2 e he
      rw [r1, (ucase13_exact hu).1 r hr, r4]
      rw [r2, r1] at this
      simpa only [name_ll, Nat.cast_ite] using this
    · have hcp : ∀ e ∈ es, (e.cp : Int) ≠ c := fun e he h => hcp ⟨e, he, h⟩
      rw [(ucase13_exact hu).2 c (case_other h13 hcp)]
      exact u3 c hcp
  · rw [← c5]
    exact (c3 c).2

/-- There are such texts; what is emitted for them takes U+0041 and U+030A to U+00C5, and U+00C5 to these. -/
example : ∃ text xtext dec comp, decompFile text = .ok dec ∧ recompFile text xtext = .ok comp ∧
    Means header dec c!"_charstr_unicode_decomposition" [.int 0xC5] (.ints [0x41, 0x30A, 0]) ∧
    Means header comp c!"_charstr_unicode_primary_composite" [.int 0x41, .int 0x30A] (.int 0xC5) := by
  obtain ⟨text, es, xtext, xs, ptext, ps, qs, h1, h2, h3, h4, h5, h6, h7⟩ := datafile13_exists
  obtain ⟨ccc, dec, _, d1, d2, _⟩ := emitted13_marks h1 h2
  obtain ⟨comp, c1, c2, _⟩ := emitted13_composite h1 h2 h3 h4
  have hd : unicode13.decomp 0xC5 = some [0x41, 0x30A] := (decomp_lookup _ _).2 ⟨by simp, by decide +kernel⟩
  have hc : unicode13.composite 0x41 0x30A = some 0xC5 := (composite_iff13 _ _ _).2 ⟨(decomp_iff _ _).1 hd, by decide +kernel⟩
  have k1 := (d2 0xC5).2
  have k2 := c2 0x41 0x30A
  rw [hd] at k1
  rw [hc] at k2
  exact ⟨text, xtext, dec, comp, d1, c1, k1, k2⟩

/-- The functions made from `caseLines13` and `lines13` exist, and so do texts and what is emitted for them. -/
example : ∃ text low up cat l u code, lowerFile text = .ok low ∧ upperFile text = .ok up ∧ categoryFile text = .ok cat ∧ ∀ c : Int,
    Means header low c!"charstr_naive_lcase_unicode" [.int c] (.int (switch l c)) ∧
    Means header up c!"charstr_naive_ucase_unicode" [.int c] (.int (switch u c)) ∧
    Means header cat c!"charstr_unicode_category" [.int c] (.int (categoryNames.idxOf (PyGen.catName (category .Cn code c)))) := by
  obtain ⟨text, es, _, _, _, _, _, h1, h2, _⟩ := datafile13_exists
  obtain ⟨l, u, hl, hu⟩ := case13_succeeds
  obtain ⟨code, hc⟩ := category13_succeeds
  obtain ⟨low, up, cat, h⟩ := emitted13_case h1 h2 hl hu hc
  exact ⟨text, low, up, cat, l, u, code, h⟩

end Verif.Emit
