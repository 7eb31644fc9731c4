import Verif.Props.ShippedAll
import Verif.Props.Emit13
import Verif.Props.EmitIdna13

/-!
# C141: from the bytes of the data files to the meaning of the C source

C139 and C140 put together with C133 and C134: the scripts and `gen_idna_table` run on the files of the repository write C source, and a call of an emitted
function gives what the line of the file says.
-/

set_option autoImplicit false

namespace Verif.Shipped
open Verif.Spec.CText hiding Str
open Verif.Unidata Verif.UniGen Verif.PyGen Verif.Emit
open Verif.Categorize hiding Entry
open Verif.Spec.DataFiles hiding Range
open Verif.Spec.Unicode (encs)
open Verif.Spec.Uts46 (Row)

/-- The emitted functions for case, combining classes and decompositions, line by line of UnicodeData.txt, and for the numbers without a line. -/
theorem shipped_emitted_lines : ∃ es low up ccc dec, UnicodeData (chars unicodeDataTxt) es ∧ lowerFile (chars unicodeDataTxt) = .ok low ∧
    upperFile (chars unicodeDataTxt) = .ok up ∧ cccFile (chars unicodeDataTxt) = .ok ccc ∧ decompFile (chars unicodeDataTxt) = .ok dec ∧
    (∀ e ∈ es, Means header low c!"charstr_naive_lcase_unicode" [.int e.cp] (.int (if e.cat = ['L', 'u'] then e.lower.getD e.cp else e.cp : Nat)) ∧
      Means header up c!"charstr_naive_ucase_unicode" [.int e.cp] (.int (if e.cat = ['L', 'l'] then e.upper.getD e.cp else e.cp : Nat)) ∧
      Means header ccc c!"charstr_unicode_canonical_combining_class" [.int e.cp] (.int e.ccc) ∧
      Means header dec c!"_charstr_unicode_decomposition" [.int e.cp] (match e.dec with | some d => .ints (d ++ [0]) | none => .null)) ∧
    ∀ c : Int, (∀ e ∈ es, (e.cp : Int) ≠ c) → Means header low c!"charstr_naive_lcase_unicode" [.int c] (.int c) ∧
      Means header up c!"charstr_naive_ucase_unicode" [.int c] (.int c) ∧
      Means header ccc c!"charstr_unicode_canonical_combining_class" [.int c] (.int 0) ∧
      Means header dec c!"_charstr_unicode_decomposition" [.int c] .null := by
  obtain ⟨es, h, h13⟩ := shipped_unicode_data
  have hs := datafile13_sound h13
  have hf := fits13 h13
  obtain ⟨low, l1, l2, l3⟩ := emitted_lower h hs hf
  obtain ⟨up, u1, u2, u3⟩ := emitted_upper h hs hf
  obtain ⟨ccc, c1, c2, c3⟩ := emitted_ccc h hs hf
  obtain ⟨dec, d1, d2, d3⟩ := emitted_decomposition h hs hf
  exact ⟨es, low, up, ccc, dec, h, l1, u1, c1, d1, fun e he => ⟨l2 e he, u2 e he, c2 e he, d2 e he⟩, fun c hc => ⟨l3 c hc, u3 c hc, c3 c hc, d3 c hc⟩⟩

/-- The emitted function for the category. It is right for the code points that have a category; for the others see C68 (`category13_wrong_iff`), which says
exactly where it is wrong. -/
theorem shipped_emitted_category_partial {code : Code Cat} (hc : code13 = .ok code) : ∃ es cat, UnicodeData (chars unicodeDataTxt) es ∧
    categoryFile (chars unicodeDataTxt) = .ok cat ∧
    (∀ cp c, HasCategory es cp c → Means header cat c!"charstr_unicode_category" [.int cp] (.int (categoryNames.idxOf c))) ∧
    ∀ c : Int, Means header cat c!"charstr_unicode_category" [.int c] (.int (categoryNames.idxOf (PyGen.catName (category .Cn code c)))) := by
  obtain ⟨es, h, h13⟩ := shipped_unicode_data
  obtain ⟨l, u, hl, hu⟩ := case13_succeeds
  obtain ⟨_, _, cat, _, _, k1, k2⟩ := emitted13_case h h13 hl hu hc
  obtain ⟨cat', code', c1, c2, c3, _⟩ := emitted_category_partial h (datafile13_sound h13) (fun e he => by
    obtain ⟨r, hr, h1⟩ := mem_recs13 h13 he
    have h2 : e.cat = PyGen.catName r.cat := congrArg Rec.cat h1
    rw [h2]
    exact catName_mem _)
  rw [k1] at c1
  cases c1
  exact ⟨es, cat, h, k1, c3, fun c => (k2 c).2.2⟩

/-- For U+0378, which has no line and is in no range, the emitted function returns the number of `Lm` and not that of `Cn`. -/
theorem shipped_emitted_category_violated : ∃ es cat, UnicodeData (chars unicodeDataTxt) es ∧ categoryFile (chars unicodeDataTxt) = .ok cat ∧
    (∀ c, ¬ HasCategory es 0x378 c) ∧ Means header cat c!"charstr_unicode_category" [.int 0x378] (.int (categoryNames.idxOf ['L', 'm'])) := by
  obtain ⟨es, h, h13⟩ := shipped_unicode_data
  obtain ⟨code, hc⟩ := category13_succeeds
  obtain ⟨_, cat, _, h1, _, h2⟩ := shipped_emitted_category_partial hc
  obtain ⟨⟨v1, v2⟩, _⟩ := category13_violated hc
  refine ⟨es, cat, h, h1, fun c hcat => ?_, ?_⟩
  · have := (assigned_iff _ _).2 hcat
    rw [recs13 h13] at this
    obtain ⟨c', rfl⟩ := assigned_name this
    exact v1 c' ((assigned_named _ _ _).1 this)
  · have := h2 ((0x378 : Nat) : Int)
    rw [v2] at this
    exact this

/-- The emitted functions for normalization mean those of `unicode13`, which the theorems about normalization use. -/
theorem shipped_emitted_normalization {xtext ptext : Str} (hx : IsUtf8 compositionExclusionsTxt xtext) (hp : IsUtf8 normalizationPropsTxt ptext) :
    ∃ ccc dec comp quick, cccFile (chars unicodeDataTxt) = .ok ccc ∧ decompFile (chars unicodeDataTxt) = .ok dec ∧
      recompFile (chars unicodeDataTxt) xtext = .ok comp ∧ qcFile 0x110000 ptext = .ok quick ∧
      (∀ cp : Nat, Means header ccc c!"charstr_unicode_canonical_combining_class" [.int cp] (.int (unicode13.ccc cp)) ∧
        Means header dec c!"_charstr_unicode_decomposition" [.int cp] (match unicode13.decomp cp with | some d => .ints (d ++ [0]) | none => .null) ∧
        Means header quick c!"charstr_allowed_unicode_normal_forms" [.int cp] (.int (unicode13.flags cp)) ∧
        ∀ c : Nat, Means header comp c!"_charstr_unicode_primary_composite" [.int cp, .int c] (.int (match unicode13.composite cp c with | some p => p | none => -1))) ∧
      ∀ c : Int, c < 0 → Means header ccc c!"charstr_unicode_canonical_combining_class" [.int c] (.int 0) ∧
        Means header dec c!"_charstr_unicode_decomposition" [.int c] .null ∧
        Means header quick c!"charstr_allowed_unicode_normal_forms" [.int c] (.int 0) ∧
        ∀ d : Int, Means header comp c!"_charstr_unicode_primary_composite" [.int c, .int d] (.int (-1)) ∧
          Means header comp c!"_charstr_unicode_primary_composite" [.int d, .int c] (.int (-1)) := by
  obtain ⟨es, h, h13⟩ := shipped_unicode_data
  obtain ⟨ls, h1, h2, _⟩ := excl_lines
  obtain ⟨ls', _, h3, h4, _⟩ := props_lines
  obtain ⟨xs, x1, x2⟩ := shipped_exclusions utf8_decoder (IsUtf8.decodes h2 h1 hx)
  obtain ⟨ps, qs, p1, p2, p3⟩ := shipped_props utf8_decoder (IsUtf8.decodes h4 h3 hp)
  obtain ⟨ccc, dec, m1, m2, m3, m4⟩ := emitted13_marks h h13
  obtain ⟨comp, c1, c2, c3⟩ := emitted13_composite h h13 x1 x2
  obtain ⟨quick, q1, q2, q3⟩ := emitted13_quick p1 p2 p3
  exact ⟨ccc, dec, comp, quick, m1, m2, c1, q1, fun cp => ⟨(m3 cp).1, (m3 cp).2, q2 cp, c2 cp⟩,
    fun c hc => ⟨(m4 c hc).1, (m4 c hc).2, q3 c hc, fun d => ⟨c3 c d (.inl hc), c3 d c (.inr hc)⟩⟩⟩

/-- The emitted functions for host names say what IdnaMappingTable.txt does, but for the two code points and the range that C78 and C83 name. -/
theorem shipped_emitted_idna_partial {ls : List (List Nat)} (h : ∀ l ∈ ls, 10 ∉ l) (ht : idnaMappingTxt = ls.flatMap fun l => l ++ [10])
    {buffer : Nat → List UInt8} (hb : ∀ n, (buffer n).length = 100) :
    ∃ out, idnaFile buffer (ls.map fun l => toB (l ++ [10]) ++ [0]) = .ok out ∧ ∀ (c : Nat) (s : Status),
      ((∃ m, Row c s m) ∧ c ≠ 0x3134A ∧ c ≠ 0x2FA1D ∧ c < 0xE01F0 → Means header out (c!"charstr_idna_status_is_" ++ s.name.toList) [.int c] (.int 1)) ∧
      (¬ ((∃ m, Row c s m) ∧ c ≠ 0x3134A ∧ c ≠ 0x2FA1D ∧ c < 0xE01F0) → Means header out (c!"charstr_idna_status_is_" ++ s.name.toList) [.int c] (.int 0)) ∧
      ∀ m, Row c s m → Means header out c!"charstr_idna_mapping" [.int c] (if m = [] then .null else .str ((encs m).map UInt8.toNat)) := by
  obtain ⟨out, h1, h2⟩ := emitted13_idna_partial (shipped_idna h ht) hb
  rw [List.map_map] at h1
  exact ⟨out, h1, h2⟩

/-- For U+3134A, which the file says is valid, the emitted function says that it is not. -/
theorem shipped_emitted_idna_violated {ls : List (List Nat)} (h : ∀ l ∈ ls, 10 ∉ l) (ht : idnaMappingTxt = ls.flatMap fun l => l ++ [10])
    {buffer : Nat → List UInt8} (hb : ∀ n, (buffer n).length = 100) :
    ∃ out, idnaFile buffer (ls.map fun l => toB (l ++ [10]) ++ [0]) = .ok out ∧ Row 0x3134A .valid [] ∧
      Means header out c!"charstr_idna_status_is_valid" [.int 0x3134A] (.int 0) := by
  obtain ⟨out, h1, h2⟩ := shipped_emitted_idna_partial h ht hb
  exact ⟨out, h1, IdnaGen.row_3134A, (h2 0x3134A .valid).2.1 fun h => h.2.1 rfl⟩

/-- The emitted source takes U+0041 and U+030A to U+00C5. -/
example : ∃ xtext ptext comp, IsUtf8 compositionExclusionsTxt xtext ∧ IsUtf8 normalizationPropsTxt ptext ∧ recompFile (chars unicodeDataTxt) xtext = .ok comp ∧
    Means header comp c!"_charstr_unicode_primary_composite" [.int 0x41, .int 0x30A] (.int 0xC5) := by
  obtain ⟨_, ⟨p, hp⟩, ⟨x, hx⟩⟩ := shipped_utf8
  obtain ⟨_, _, comp, _, _, _, h1, _, h2, _⟩ := shipped_emitted_normalization hx hp
  have hd : unicode13.decomp 0xC5 = some [0x41, 0x30A] := (decomp_lookup _ _).2 ⟨by simp, by decide +kernel⟩
  have hc : unicode13.composite 0x41 0x30A = some 0xC5 := (composite_iff13 _ _ _).2 ⟨(decomp_iff _ _).1 hd, by decide +kernel⟩
  have k := (h2 0x41).2.2.2 0x30A
  rw [hc] at k
  exact ⟨x, p, comp, hx, hp, h1, k⟩

/-- The category function of the emitted source exists. -/
example : ∃ code, code13 = .ok code := category13_succeeds

/-- The emitted source for host names maps U+0041 to `a`. -/
example : ∃ (ls : List (List Nat)) (out : Str), (idnaMappingTxt = ls.flatMap fun l => l ++ [10]) ∧
    idnaFile (fun _ => List.replicate 100 0) (ls.map fun l => toB (l ++ [10]) ++ [0]) = .ok out ∧ Means header out c!"charstr_idna_mapping" [.int 0x41] (.str [0x61]) := by
  obtain ⟨ls, h1, h2, _⟩ := idna_lines
  obtain ⟨out, h3, h4⟩ := shipped_emitted_idna_partial h2 h1 (buffer := fun _ => List.replicate 100 0) (by simp)
  refine ⟨ls, out, h1, h3, ?_⟩
  exact (h4 0x41 .mapped).2.2 [0x61] IdnaGen.row_61

end Verif.Shipped
