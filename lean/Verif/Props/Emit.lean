import Verif.Props.DataFiles
import Verif.Proofs.EmitCategory
import Verif.Proofs.EmitRecomp

/-!
# C133: the C source text that the scripts write means what the data files say

For every text in the format of the data files the scripts write C source text that compiles and whose function returns what the lines say. The
meaning of C source text is that of `Verif.Spec.CText`: a lexer, a parser and the semantics of the part of C that occurs.
-/

set_option autoImplicit false

namespace Verif.Emit
open Verif.Spec.CText hiding Str
open Verif.Py Verif.PyGen
open Verif.Categorize hiding Entry
open Verif.Spec.DataFiles hiding Str Range

variable {text : Str} {es : List Entry}

/-- The numbers in the file are below 2³¹. -/
def Fits (es : List Entry) : Prop :=
  ∀ e ∈ es, e.ccc < 2 ^ 31 ∧ (∀ v ∈ e.lower, v < 2 ^ 31) ∧ (∀ v ∈ e.upper, v < 2 ^ 31) ∧ ∀ d ∈ e.dec, ∀ x ∈ d, x < 2 ^ 31

theorem compile_nodup {α : Type} {cases : List (Nat × α)} {f : Nat → Option α} (h : compile cases = .ok f) : (cases.map Prod.fst).Nodup := by
  unfold compile at h
  split at h
  · assumption
  · cases h

theorem find_switch : ∀ (cases : List (Nat × Nat)) (n : Int), (match cases.find? fun c => decide ((c.1 : Int) = n) with
    | some c => (c.2 : Int)
    | none => n) = switch cases n
  | [], n => rfl
  | c :: cases, n => by
    rw [List.find?_cons, switch]
    by_cases h : (c.1 : Int) = n
    · simp [h]
    · simp only [h, decide_false, Ne.symm h, if_false]
      exact find_switch cases n

theorem caseOf_field {want : Str} {field : CaseRec Str → Option Nat} {r : CaseRec Str} {c : Nat × Nat} (h : caseOf want field r = some c) :
    field r = some c.2 := by
  unfold caseOf at h
  split at h
  · obtain ⟨v, hv, rfl⟩ := Option.map_eq_some_iff.1 h
    exact hv
  · cases h

/-- C133, lower_case.py: the emitted text is a C function that maps the code point of a line with category Lu and a code point in field 13 to the
latter, and every other integer to itself. -/
theorem emitted_lower (h : UnicodeData text es) (hs : Sound es) (hf : Fits es) : ∃ out, lowerFile text = .ok out ∧
    (∀ e ∈ es, Means header out c!"charstr_naive_lcase_unicode" [.int e.cp] (.int (if e.cat = ['L', 'u'] then e.lower.getD e.cp else e.cp : Nat))) ∧
    ∀ c : Int, (∀ e ∈ es, (e.cp : Int) ≠ c) → Means header out c!"charstr_naive_lcase_unicode" [.int c] (.int c) := by
  obtain ⟨cases, f, h1, h2, h3, h4⟩ := case_data (want := ['L', 'u']) (field := CaseRec.lower)
    (g := fun e => ⟨recOf e, if e.cat = ['L', 'u'] then e.lower else none, none⟩) (v := Entry.lower) (fun _ => rfl) (fun e he => if_pos he) hs
  have hb : ∀ c ∈ cases, c.2 < 2 ^ 31 := by
    have := caseLoop_spec ['L', 'u'] CaseRec.lower _ (es.map fun e => ⟨recOf e, if e.cat = ['L', 'u'] then e.lower else none, none⟩) (le_refl _) (by
      rw [List.map_map]; exact paired_of hs.ranged)
    rw [this] at h1
    cases h1
    intro c hc
    obtain ⟨r, hr, h5⟩ := List.mem_filterMap.1 hc
    obtain ⟨e, he, rfl⟩ := List.mem_map.1 hr
    have h6 := caseOf_field h5
    simp only at h6
    split at h6
    · exact (hf e he).2.1 _ h6
    · cases h6
  have hm : ∀ n, Means header (lowerOut cases) c!"charstr_naive_lcase_unicode" [.int n] (.int (switch cases n)) := by
    intro n
    rw [← find_switch]
    exact lowerOut_means header (compile_nodup h2) hb n
  refine ⟨lowerOut cases, ?_, fun e he => ?_, fun c hc => ?_⟩
  · rw [lowerFile, mapM_data (fun l e => parseLower_says) h]
    simp only [bind, Except.bind, h1]
  · have := hm e.cp; rw [h3 e he] at this; exact this
  · have := hm c; rw [h4 c hc] at this; exact this

/-- C133, upper_case.py: likewise for category Ll and field 12. -/
theorem emitted_upper (h : UnicodeData text es) (hs : Sound es) (hf : Fits es) : ∃ out, upperFile text = .ok out ∧
    (∀ e ∈ es, Means header out c!"charstr_naive_ucase_unicode" [.int e.cp] (.int (if e.cat = ['L', 'l'] then e.upper.getD e.cp else e.cp : Nat))) ∧
    ∀ c : Int, (∀ e ∈ es, (e.cp : Int) ≠ c) → Means header out c!"charstr_naive_ucase_unicode" [.int c] (.int c) := by
  obtain ⟨cases, f, h1, h2, h3, h4⟩ := case_data (want := ['L', 'l']) (field := CaseRec.upper)
    (g := fun e => ⟨recOf e, none, if e.cat = ['L', 'l'] then e.upper else none⟩) (v := Entry.upper) (fun _ => rfl) (fun e he => if_pos he) hs
  have hb : ∀ c ∈ cases, c.2 < 2 ^ 31 := by
    have := caseLoop_spec ['L', 'l'] CaseRec.upper _ (es.map fun e => ⟨recOf e, none, if e.cat = ['L', 'l'] then e.upper else none⟩) (le_refl _) (by
      rw [List.map_map]; exact paired_of hs.ranged)
    rw [this] at h1
    cases h1
    intro c hc
    obtain ⟨r, hr, h5⟩ := List.mem_filterMap.1 hc
    obtain ⟨e, he, rfl⟩ := List.mem_map.1 hr
    have h6 := caseOf_field h5
    simp only at h6
    split at h6
    · exact (hf e he).2.2.1 _ h6
    · cases h6
  have hm : ∀ n, Means header (upperOut cases) c!"charstr_naive_ucase_unicode" [.int n] (.int (switch cases n)) := by
    intro n
    rw [← find_switch]
    exact upperOut_means header (compile_nodup h2) hb n
  refine ⟨upperOut cases, ?_, fun e he => ?_, fun c hc => ?_⟩
  · rw [upperFile, mapM_data (fun l e => parseUpper_says) h]
    simp only [bind, Except.bind, h1]
  · have := hm e.cp; rw [h3 e he] at this; exact this
  · have := hm c; rw [h4 c hc] at this; exact this

/-- C133, canonical_combining_classes.py: the emitted text is a C function that returns the class in the line of the code point, and 0 if there is none. -/
theorem emitted_ccc (h : UnicodeData text es) (hs : Sound es) (hf : Fits es) : ∃ out, cccFile text = .ok out ∧
    (∀ e ∈ es, Means header out c!"charstr_unicode_canonical_combining_class" [.int e.cp] (.int e.ccc)) ∧
    ∀ c : Int, (∀ e ∈ es, (e.cp : Int) ≠ c) → Means header out c!"charstr_unicode_canonical_combining_class" [.int c] (.int 0) := by
  have h1 := cccLoop_spec _ (es.map fun e => (recOf e, e.ccc)) (le_refl _)
    (by rw [List.map_map, show (Prod.fst ∘ fun e : Entry => (recOf e, e.ccc)) = recOf from rfl]; exact paired_of hs.ranged)
  rw [List.map_map, show ((fun r : Rec Str × Nat => (r.1.cp, r.2)) ∘ fun e : Entry => (recOf e, e.ccc)) = fun e => (e.cp, e.ccc) from rfl] at h1
  have hm := fun n => cccOut_means header (cases := es.map fun e => (e.cp, e.ccc)) (by rw [List.map_map]; exact cps_nodup hs.ascending)
    (by intro c hc; obtain ⟨e, he, rfl⟩ := List.mem_map.1 hc; exact (hf e he).1) n
  refine ⟨cccOut (es.map fun e => (e.cp, e.ccc)), ?_, fun e he => ?_, fun c hc => ?_⟩
  · rw [cccFile, mapM_data (fun l e => parseCcc_says) h]
    simp only [bind, Except.bind, h1]
  · have := hm e.cp
    rw [List.find?_map] at this
    simp only [Function.comp_def] at this
    cases hfd : es.find? fun x => decide ((x.cp : Int) = e.cp) with
    | none => exact absurd (List.find?_eq_none.1 hfd e he) (by simp)
    | some x =>
      have hx := List.find?_some hfd
      simp only [decide_eq_true_eq, Nat.cast_inj] at hx
      have := cp_unique hs.ascending x (List.mem_of_find?_eq_some hfd) e he hx
      simp_all
  · have := hm c
    rw [List.find?_map] at this
    simp only [Function.comp_def] at this
    rw [List.find?_eq_none.2 (by simpa using hc)] at this
    exact this

/-- C133, decomposition.py: the emitted text is a C function that returns a pointer to an array with the canonical mapping in the line of the code point,
ended by 0, and NULL if there is none. -/
theorem emitted_decomposition (h : UnicodeData text es) (hs : Sound es) (hf : Fits es) : ∃ out, decompFile text = .ok out ∧
    (∀ e ∈ es, Means header out c!"_charstr_unicode_decomposition" [.int e.cp] (match e.dec with | some d => .ints (d ++ [0]) | none => .null)) ∧
    ∀ c : Int, (∀ e ∈ es, (e.cp : Int) ≠ c) → Means header out c!"_charstr_unicode_decomposition" [.int c] .null := by
  have hn : ((decompositions (es.map fun e => (e.cp, e.dec))).map Prod.fst).Nodup := by
    have hsub : List.Sublist ((decompositions (es.map fun e => (e.cp, e.dec))).map Prod.fst) (es.map Entry.cp) := by
      clear h hs hf
      induction es with
      | nil => exact List.Sublist.slnil
      | cons e es ih =>
        rw [List.map_cons, decompositions, List.filterMap_cons, List.map_cons]
        cases e.dec with
        | none => exact ih.cons _
        | some d => exact ih.cons_cons _
    exact hsub.nodup (cps_nodup hs.ascending)
  obtain ⟨g1, g2⟩ := decompOut_means (H := header) rfl 0x110000 (ds := decompositions (es.map fun e => (e.cp, e.dec))) (by
    rintro ⟨a, d⟩ hd x hx
    obtain ⟨e, he, _, h5⟩ := mem_decompositions.1 hd
    exact (hf e he).2.2.2 d h5 x hx) hn
  refine ⟨_, by rw [decompFile, mapM_data (fun l e => parseDecomp_says) h]; rfl, fun e he => ?_, fun c hc => ?_⟩
  · cases hd : e.dec with
    | some d => exact g1 (e.cp, d) (mem_decompositions.2 ⟨e, he, rfl, hd⟩) (hs.bound e he)
    | none =>
      refine g2 _ ?_
      rintro ⟨a, d⟩ hm _ hx
      obtain ⟨b, hb, h5, h6⟩ := mem_decompositions.1 hm
      have := cp_unique hs.ascending b hb e he (by simp_all)
      rw [this, hd] at h6
      cases h6
  · refine g2 c ?_
    rintro ⟨a, d⟩ hm _ hx
    obtain ⟨b, hb, h5, _⟩ := mem_decompositions.1 hm
    exact hc b hb (by simp_all)

/-- C133, recomposition.py: if no canonical mapping is longer than two, the emitted text is a C function that returns the code point of the last line
whose mapping is the pair and which is not among the exclusions, and -1 if there is none. -/
theorem emitted_composite {xtext : Str} {xs : List Str} {ns : List Nat} (h : UnicodeData text es) (hx : Lines xtext xs) (hxs : Exclusions xs ns)
    (h2 : ∀ e ∈ es, ∀ d, e.dec = some d → d.length ≤ 2) (hb : ∀ e ∈ es, e.cp < 2 ^ 31) : ∃ out, recompFile text xtext = .ok out ∧
    (∀ (s c : Nat) before e after, es = before ++ e :: after → e.dec = some [s, c] → e.cp ∉ ns → (∀ x ∈ after, ¬ (x.dec = some [s, c] ∧ x.cp ∉ ns)) →
      Means header out c!"_charstr_unicode_primary_composite" [.int s, .int c] (.int e.cp)) ∧
    ∀ s c : Int, (∀ e ∈ es, ∀ s' c' : Nat, e.dec = some [s', c'] → e.cp ∉ ns → ¬ ((s' : Int) = s ∧ (c' : Int) = c)) →
      Means header out c!"_charstr_unicode_primary_composite" [.int s, .int c] (.int (-1)) := by
  obtain ⟨f, h3, h4⟩ := datafile_composite h hx hxs h2
  rw [recompText, lines_text hx, mapM_data (fun l e => parseDecomp_says) h] at h3
  simp only [bind, Except.bind] at h3
  split at h3
  · cases h3
  rename_i ex hex
  split at h3
  · cases h3
  rename_i ps hps
  cases h3
  obtain ⟨r1, r2, r3⟩ := recompositions_spec ps
  obtain ⟨g1, g2⟩ := recompOut_means header r1 r2
  refine ⟨recompOut (recompositions ps), ?_, ?_, ?_⟩
  · rw [recompFile, lines_text hx, mapM_data (fun l e => parseDecomp_says) h]
    simp only [bind, Except.bind, hex, hps]
  · intro s c before e after h5 h6 h7 h8
    refine g1 s c e.cp ?_ (hb e (by rw [h5]; simp))
    rw [r3]
    exact (h4 s c e.cp).2 ⟨before, e, after, h5, rfl, h6, h7, h8⟩
  · intro s c h5
    refine g2 s c ?_
    rintro s' c' rfl rfl
    rw [r3]
    cases hc : (ps.reverse.find? fun p => p.1 == (s', c')).map Prod.snd with
    | none => rfl
    | some p =>
      obtain ⟨b, e, a, h6, rfl, h7, h8, _⟩ := (h4 s' c' p).1 hc
      exact absurd ⟨rfl, rfl⟩ (h5 e (by rw [h6]; simp) s' c' h7 h8)

/-- C133, allowed_in_normal_form.py: the emitted text is a C function that returns the flags for the values of the four properties. -/
theorem emitted_quick {ls : List Str} {qs : List Quick} (h : Lines text ls) (hq : Checking ls qs) (hb : ∀ q ∈ qs, q.hi < 0x110000) :
    ∃ out, qcFile 0x110000 text = .ok out ∧
      (∀ cp v1 v2 v3 v4, cp < 0x110000 → HasValue qs .nfc cp v1 → HasValue qs .nfd cp v2 → HasValue qs .nfkc cp v3 → HasValue qs .nfkd cp v4 →
        Means header out c!"charstr_allowed_unicode_normal_forms" [.int cp] (.int (flag .nfc v1 ||| flag .nfd v2 ||| flag .nfkc v3 ||| flag .nfkd v4 : Nat))) ∧
      ∀ c : Int, c < 0 ∨ 0x110000 ≤ c → Means header out c!"charstr_allowed_unicode_normal_forms" [.int c] (.int 0) := by
  obtain ⟨xs, h1, h2⟩ := checking_says hq hb
  obtain ⟨names, g1, g2, g3⟩ := qcOut_means (n := 0x110000) (qcFlags_of qs)
  refine ⟨_, ?_, ?_, fun c hc => g3 c ?_⟩
  · rw [qcFile, lines_text h, h1]
    simp only [bind, Except.bind, h2, g1]
  · intro cp v1 v2 v3 v4 hcp e1 e2 e3 e4
    rw [valueOf_iff] at e1 e2 e3 e4
    have := g2 cp hcp
    rw [e1, e2, e3, e4] at this
    exact this
  · intro cp hcp; omega

/-- The constant of a category (charstr.h:135-166). -/
def categoryValue (c : Str) : Option Nat := if c ∈ categoryNames then some (categoryNames.idxOf c) else none

theorem category_header : ∀ c k, categoryValue c = some k → header (catName c) = some (.int k) := by
  intro c k h
  unfold categoryValue at h
  split at h
  · rename_i hc
    cases h
    revert hc c
    have : ∀ c ∈ categoryNames, find (catName c) constants = some (categoryNames.idxOf c) := by decide +kernel
    intro c hc
    have h1 : catName c ≠ c!"NULL" := by simp [catName]
    have h2 : catName c ≠ c!"false" := by simp [catName]
    rw [header, if_neg h1, if_neg h2, this c hc]
  · cases h

theorem main_ranges {n : Nat} {recs : List (Rec Str)} {code : Code Str} (ho : Ordered recs) (h : Categorize.main n recs = .ok code) :
    ∃ t : List (Option Str), (∀ (i : Nat) c, t[i]? = some (some c) ↔ Assigned recs i c) ∧ emitBinary (ranges 0 t) = .ok code := by
  rw [Categorize.main] at h
  split at h
  · cases h
  rename_i t ht
  obtain ⟨h1, h2⟩ := readLines_spec recs _ _ _ _ ht ho (by simp) (fun i _ h => by simp at h; simp [h])
  refine ⟨t, fun i c => ?_, h⟩
  rw [h2, Assigned, Records]
  have : (List.replicate n (none : Option Str))[i]? ≠ some (some c) := by
    rw [List.getElem?_replicate]; split <;> simp
  simp [this]

/-- C133, categorize.py: if the categories in the file are among those of charstr.h, the emitted text is a C function that returns the constant of
the category of a code point that the file gives one; for the others it returns that of `category` in C112, see `datafile_category_other`. -/
theorem emitted_category_partial (h : UnicodeData text es) (hs : Sound es) (hc : ∀ e ∈ es, e.cat ∈ categoryNames) :
    ∃ out code, categoryFile text = .ok out ∧ categorizeText 0x110000 text = .ok code ∧
      (∀ cp c, HasCategory es cp c → Means header out c!"charstr_unicode_category" [.int cp] (.int (categoryNames.idxOf c))) ∧
      ∀ cp : Int, category ['C', 'n'] code cp ∈ categoryNames ∧
        Means header out c!"charstr_unicode_category" [.int cp] (.int (categoryNames.idxOf (category ['C', 'n'] code cp))) := by
  obtain ⟨code, h1, h2⟩ := datafile_category_partial h hs
  have hm : Categorize.main 0x110000 (es.map recOf) = .ok code := by rw [← categorize_data _ h]; exact h1
  have hok : Worded code ∧ Valued categoryValue code := by
    obtain ⟨t, g1, g2⟩ := main_ranges (ordered_of hs.ascending) hm
    refine emitBinary_ok _ (le_refl _) g2 fun r hr => ?_
    have hlt := (ranges_lower 0 t r hr).2
    have hin := (ranges_mem 0 t (r.stop - 1) r.cat).1 ⟨r, hr, by omega, by omega, rfl⟩
    have ha := (assigned_iff _ _).1 ((g1 _ _).1 hin)
    have hcat : r.cat ∈ categoryNames ∧ r.stop - 1 < 0x110000 := by
      obtain ⟨e, he, h5, h6⟩ | ⟨a, b, hab, _, _, _, h5, h6⟩ := ha
      · rw [← h6]; have := hs.bound e he; exact ⟨hc e he, by omega⟩
      · have hb : b ∈ es := hab.subset (by simp)
        rw [← h6]; have := hs.bound b hb; exact ⟨hc b hb, by omega⟩
    have hword : ∀ c ∈ categoryNames, ∀ x ∈ c, isWord x = true := by decide +kernel
    exact ⟨hlt, by omega, by rw [categoryValue, if_pos hcat.1]; rfl, hword _ hcat.1⟩
  have key : ∀ cp : Int, category ['C', 'n'] code cp ∈ categoryNames ∧
        Means header (categoryOut code) c!"charstr_unicode_category" [.int cp] (.int (categoryNames.idxOf (category ['C', 'n'] code cp))) := by
    intro cp
    obtain ⟨k, g1, g2⟩ := categoryOut_means (H := header) (val := categoryValue) hok.1 hok.2 (by decide) category_header cp
    unfold categoryValue at g1
    split at g1
    · rename_i hcat; cases g1; exact ⟨hcat, g2⟩
    · cases g1
  refine ⟨categoryOut code, code, by rw [categoryFile, h1]; rfl, h1, fun cp c hcp => ?_, key⟩
  have := (key cp).2
  rw [h2 cp c hcp] at this
  exact this

/-! ### Examples -/

theorem sample_categories : ∀ e ∈ sampleEntries, e.cat ∈ categoryNames := by
  intro e he
  simp only [sampleEntries, List.mem_cons, List.not_mem_nil, or_false] at he
  rcases he with rfl | rfl | rfl | rfl | rfl | rfl <;> decide

/-- C133 fails for categorize.py as C112 does: U+0050 is not in this file, and yet the emitted C function returns the constant of the category of
the line for U+00A8 instead of that of Cn. -/
theorem emitted_category_violated : ∃ out, categoryFile sampleText = .ok out ∧ (∀ c, ¬ HasCategory sampleEntries 0x50 c) ∧
    Means header out c!"charstr_unicode_category" [.int 0x50] (.int (categoryNames.idxOf ['S', 'k'])) := by
  obtain ⟨out, code, h1, h2, _, h3⟩ := emitted_category_partial sample_data sample_sound sample_categories
  obtain ⟨code', h4, h5, h6⟩ := datafile_category_violated
  rw [h2] at h4
  cases h4
  have := (h3 0x50).2
  rw [h6] at this
  exact ⟨out, h1, h5, this⟩

theorem sample_fits : Fits sampleEntries := by
  intro e he
  simp only [sampleEntries, List.mem_cons, List.not_mem_nil, or_false] at he
  rcases he with rfl | rfl | rfl | rfl | rfl | rfl <;> simp

/-- Files for the sample lines: the text compiles and its functions give the values in the lines. -/
example : (∃ out, lowerFile sampleText = .ok out ∧ Means header out c!"charstr_naive_lcase_unicode" [.int 0x41] (.int 0x61) ∧
      Means header out c!"charstr_naive_lcase_unicode" [.int (-7)] (.int (-7))) ∧
    (∃ out, upperFile sampleText = .ok out ∧ Means header out c!"charstr_naive_ucase_unicode" [.int 0xE0] (.int 0xC0)) ∧
    (∃ out, cccFile sampleText = .ok out ∧ Means header out c!"charstr_unicode_canonical_combining_class" [.int 0x300] (.int 230)) ∧
    (∃ out, decompFile sampleText = .ok out ∧ Means header out c!"_charstr_unicode_decomposition" [.int 0xE0] (.ints [0x61, 0x300, 0]) ∧
      Means header out c!"_charstr_unicode_decomposition" [.int 0x41] .null) ∧
    (∃ out, categoryFile sampleText = .ok out ∧ Means header out c!"charstr_unicode_category" [.int 0x41] (.int 9)) := by
  refine ⟨?_, ?_, ?_, ?_, ?_⟩
  · obtain ⟨out, h1, h2, h3⟩ := emitted_lower sample_data sample_sound sample_fits
    exact ⟨out, h1, h2 ⟨0x41, "LATIN CAPITAL LETTER A".toList, ['L', 'u'], 0, none, none, some 0x61⟩ (by simp [sampleEntries]), h3 _ (by simp [sampleEntries])⟩
  · obtain ⟨out, h1, h2, _⟩ := emitted_upper sample_data sample_sound sample_fits
    exact ⟨out, h1, h2 ⟨0xE0, "LATIN SMALL LETTER A WITH GRAVE".toList, ['L', 'l'], 0, some [0x61, 0x300], some 0xC0, none⟩ (by simp [sampleEntries])⟩
  · obtain ⟨out, h1, h2, _⟩ := emitted_ccc sample_data sample_sound sample_fits
    exact ⟨out, h1, h2 ⟨0x300, "COMBINING GRAVE ACCENT".toList, ['M', 'n'], 230, none, none, none⟩ (by simp [sampleEntries])⟩
  · obtain ⟨out, h1, h2, _⟩ := emitted_decomposition sample_data sample_sound sample_fits
    exact ⟨out, h1, h2 ⟨0xE0, "LATIN SMALL LETTER A WITH GRAVE".toList, ['L', 'l'], 0, some [0x61, 0x300], some 0xC0, none⟩ (by simp [sampleEntries]),
      h2 ⟨0x41, "LATIN CAPITAL LETTER A".toList, ['L', 'u'], 0, none, none, some 0x61⟩ (by simp [sampleEntries])⟩
  · obtain ⟨out, code, h1, _, h2, _⟩ := emitted_category_partial sample_data sample_sound sample_categories
    exact ⟨out, h1, h2 _ ['L', 'u'] (.inl ⟨⟨0x41, "LATIN CAPITAL LETTER A".toList, ['L', 'u'], 0, none, none, some 0x61⟩, by simp [sampleEntries], rfl, rfl⟩)⟩

/-- The pair of U+00E0, and another one. -/
example : ∃ out, recompFile sampleText (sampleExclusions.flatMap fun l => l ++ ['\n']) = .ok out ∧
    Means header out c!"_charstr_unicode_primary_composite" [.int 0x61, .int 0x300] (.int 0xE0) ∧
    Means header out c!"_charstr_unicode_primary_composite" [.int 0x62, .int 0x300] (.int (-1)) := by
  obtain ⟨out, h1, h2, h3⟩ := emitted_composite sample_data (xs := sampleExclusions) ⟨by decide +kernel, rfl⟩ sample_exclusions (by simp [sampleEntries]) (by simp [sampleEntries])
  refine ⟨out, h1, h2 _ _ (sampleEntries.take 2) _ (sampleEntries.drop 3) rfl rfl (by simp) ?_, h3 _ _ ?_⟩
  · intro x hx
    simp only [sampleEntries, List.drop_succ_cons, List.drop_zero, List.mem_cons, List.not_mem_nil, or_false] at hx
    obtain rfl | rfl | rfl := hx <;> simp
  · intro e he s c hd _
    simp only [sampleEntries, List.mem_cons, List.not_mem_nil, or_false] at he
    rcases he with rfl | rfl | rfl | rfl | rfl | rfl <;> simp_all <;> omega

/-- U+0341 is not allowed in NFD. -/
example : ∃ out, qcFile 0x110000 (sampleProps.flatMap fun l => l ++ ['\n']) = .ok out ∧
    Means header out c!"charstr_allowed_unicode_normal_forms" [.int 0x341] (.int 4) ∧
    Means header out c!"charstr_allowed_unicode_normal_forms" [.int (-1)] (.int 0) := by
  obtain ⟨out, h1, h2, h3⟩ := emitted_quick (ls := sampleProps) ⟨by decide +kernel, rfl⟩ sample_checks (by simp)
  refine ⟨out, h1, h2 0x341 .yes .no .yes .yes (by decide) ?_ ?_ ?_ ?_, h3 _ (.inl (by decide))⟩ <;> rw [valueOf_iff] <;> decide

/-- The text for one letter. -/
example : lowerOut [(0x41, 0x61)] =
    c!"#include \"charstr.h\"\n\nint charstr_naive_lcase_unicode(int codepoint)\n{\n    switch (codepoint) {\n        case 65: return 97;\n        default: return codepoint;\n    }\n}\n\n" := by
  decide +kernel

/-- The text for two code points with flags. -/
example : qcOut [(0x338, [c!"UNICODE_NFC_MAYBE", c!"UNICODE_NFKC_MAYBE"]), (0x339, []), (0x340, [c!"UNICODE_NFD_DISALLOWED"])] =
    c!"#include \"charstr.h\"\n\nint charstr_allowed_unicode_normal_forms(int codepoint)\n{\n    switch (codepoint) {\n        case 824: return UNICODE_NFC_MAYBE | UNICODE_NFKC_MAYBE;\n        case 832: return UNICODE_NFD_DISALLOWED;\n        default: return 0;\n    }\n}\n" := by
  decide +kernel

/-- The text for two ranges. -/
example : codeText 1 (emitAll [⟨0x41, 0x42, c!"Lu"⟩, ⟨0x61, 0x7B, c!"Ll"⟩]) =
    c!"    if (codepoint < 66)\n        return UNICODE_CATEGORY_Lu;\n    if (codepoint < 123)\n        return codepoint >= 97 ? UNICODE_CATEGORY_Ll : UNICODE_CATEGORY_Cn;\n" := by
  decide +kernel

/-- The meaning of a text is not that of another one: a number with a leading 0 is octal, a label that occurs twice and a name that is not declared do
not compile. -/
example : lex c!"case 010:" = some [.key .case, .num 8, .sym .colon] ∧ (lex c!"case 09:").isNone ∧
    (match program header c!"int f(int x)\n{\n    switch (x) {\n        case 1: return 2;\n        case 1: return 3;\n        default: return 0;\n    }\n}\n" with
      | .error .abort => true
      | _ => false) = true := by
  decide +kernel

end Verif.Emit
