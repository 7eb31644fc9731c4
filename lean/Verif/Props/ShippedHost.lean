import Verif.Props.ShippedNormal
import Verif.Props.Idna13

/-!
# C143: host names by the bytes of the data files

C99 and C129 with the tables of the model gone from both sides: `charstr_idna_encode` calls what the scripts and `gen_idna_table` emit for the files of the
repository, and the result is stated by what the lines of these files say.
-/

set_option autoImplicit false

namespace Verif.Shipped
open Verif.Spec.CText hiding Str
open Verif.Unidata Verif.UniGen Verif.PyGen Verif.Emit
open Verif.Categorize hiding Entry
open Verif.Spec.DataFiles hiding Range
open Verif.Spec.Unicode (encs NFD NFC Excess Ordered)
open Verif.Unicode (Ucd)
open Verif.Spec.Utf8 (IsScalar Seq Legal)
open Verif.Spec.Uts46 (Row Processed Step)
open Verif.Spec.IdnaTable (Line)
open Verif.Spec.Punycode (HostAscii LongAscii)
open Verif.IdnaGen (ascii map13)
open Verif.Puny (Idna Represents Prepared13)

/-- The functions that charstr_puny.c calls are those of the C source emitted for the files of the repository. -/
def EmittedHost (id : Idna) : Prop :=
  ∃ (ls : List (List Nat)) (buffer : Nat → List UInt8) (out cat : Str), (∀ l ∈ ls, 10 ∉ l) ∧ (idnaMappingTxt = ls.flatMap fun l => l ++ [10]) ∧
    (∀ n, (buffer n).length = 100) ∧ idnaFile buffer (ls.map fun l => toB (l ++ [10]) ++ [0]) = .ok out ∧ categoryFile (chars unicodeDataTxt) = .ok cat ∧
    ∀ c : Nat, c < 0x110000 →
      Means header out c!"charstr_idna_status_is_valid" [.int c] (.int (if id.valid c then 1 else 0)) ∧
      Means header out c!"charstr_idna_status_is_deviation" [.int c] (.int (if id.deviation c then 1 else 0)) ∧
      Means header out c!"charstr_idna_status_is_ignored" [.int c] (.int (if id.ignored c then 1 else 0)) ∧
      Means header out c!"charstr_idna_status_is_mapped" [.int c] (.int (if id.mapped c then 1 else 0)) ∧
      Means header out c!"charstr_idna_mapping" [.int c] (match id.mapping c with | some b => .str (b.map UInt8.toNat) | none => .null) ∧
      ∃ k : Nat, Means header cat c!"charstr_unicode_category" [.int c] (.int k) ∧ (id.mc c = true ↔ k = categoryNames.idxOf c!"Mc")

/-- What the lines of UnicodeData.txt, DerivedNormalizationProps.txt and IdnaMappingTable.txt say. -/
structure Readings (es : List Entry) (qs : List Quick) (il : List Line) : Prop where
  data : UnicodeData (chars unicodeDataTxt) es
  props : ∃ ptext ps, IsUtf8 normalizationPropsTxt ptext ∧ Lines ptext ps ∧ Checking ps qs
  idna : ∃ ls : List (List Nat), (∀ l ∈ ls, 10 ∉ l) ∧ (idnaMappingTxt = ls.flatMap fun l => l ++ [10]) ∧ Spec.IdnaTable.File (ls.map fun l => toB (l ++ [10])) il

/-- The lines give the code point the status and the mapping. -/
def Has (il : List Line) (c : Nat) (s : Status) (m : List Nat) : Prop := ∃ l ∈ il, l.About c ∧ l.status = ascii s.name ∧ l.mapping.getD [] = m

/-- Step 1 of UTS #46, section 4, by the lines: characters that are valid or deviations are kept, ignored ones are removed and mapped ones replaced. -/
def Becomes (il : List Line) (y z : List Nat) : Prop :=
  ∃ ms, List.Forall₂ (fun c m => (∃ k, Has il c .valid k ∨ Has il c .deviation k) ∧ m = [c] ∨ (∃ k, Has il c .ignored k) ∧ m = [] ∨ Has il c .mapped m) y ms ∧
    z = ms.flatten

/-- The text passes the quick check for form C, or its decomposition is shorter than the room and recomposition never has more than 100 marks pending. -/
def Short (dm : Nat → Option (List Nat)) (ccc : Nat → Nat) (pc : Nat → Nat → Nat → Prop) (qs : List Quick) (n : Nat) (cps : List Nat) : Prop :=
  (Ordered ccc cps ∧ ∀ c ∈ cps, HasValue qs .nfc c .yes) ∨ ∀ d, NFD dm ccc cps d → (encs d).length < n ∧ ¬ Excess ccc pc 100 d

theorem has_iff {il : List Line} (h : List.Forall₂ IdnaGen.Match il idnaTable.toList) {c : Nat} {s : Status} {m : List Nat} : Has il c s m ↔ Row c s m := by
  obtain ⟨h1, h2⟩ := IdnaGen.matches_mem h
  constructor
  · rintro ⟨l, hl, h3, h4, h5⟩
    obtain ⟨⟨lo, hi, s', m'⟩, hr, k1, k2, k3, k4⟩ := h1 l hl
    simp only at k1 k2 k3 k4
    obtain rfl := name_inj (h4.symm.trans k3)
    obtain rfl := h5.symm.trans k4
    exact ⟨lo, hi, hr, k1 ▸ h3.1, k2 ▸ h3.2⟩
  · rintro ⟨lo, hi, hr, h3, h4⟩
    obtain ⟨l, hl, k1, k2, k3, k4⟩ := h2 _ hr
    exact ⟨l, hl, ⟨k1 ▸ h3, k2 ▸ h4⟩, k3, k4⟩

theorem becomes_iff {il : List Line} (h : List.Forall₂ IdnaGen.Match il idnaTable.toList) {y z : List Nat} : Becomes il y z ↔ Processed y z := by
  refine exists_congr fun ms => and_congr_left fun _ => ?_
  have : ∀ c m, ((∃ k, Has il c .valid k ∨ Has il c .deviation k) ∧ m = [c] ∨ (∃ k, Has il c .ignored k) ∧ m = [] ∨ Has il c .mapped m) ↔ Step c (some m) := by
    intro c m
    simp only [has_iff h]
    constructor
    · rintro (⟨⟨k, h | h⟩, rfl⟩ | ⟨⟨k, h⟩, rfl⟩ | h)
      · exact .valid k h
      · exact .deviation k h
      · exact .ignored k h
      · exact .mapped m h
    · intro h
      cases h with
      | valid k h => exact .inl ⟨⟨k, .inl h⟩, rfl⟩
      | deviation k h => exact .inl ⟨⟨k, .inr h⟩, rfl⟩
      | ignored k h => exact .inr (.inl ⟨⟨k, h⟩, rfl⟩)
      | mapped _ h => exact .inr (.inr h)
  simp only [this]

theorem yes_iff {qs : List Quick} (h : Props13 qs) (c : Nat) : HasValue qs .nfc c .yes ↔ Spec.Unicode.Quick nfcQC.toList c .yes := by
  have h1 := value13 h .nfc c
  rw [valueOf_iff, ← quick_iff nfcQC_ok]
  simp only [table13] at h1
  rw [h1]
  cases valueOf qs .nfc c <;> simp [qcOf13]

theorem short_iff {qs : List Quick} (h : Props13 qs) {n : Nat} {cps : List Nat} :
    Short unicode13.decomp unicode13.ccc Spec.Unicode.Primary qs n cps ↔ Puny.Fits n cps := by
  simp only [Short, Puny.Fits, Puny.Checked, yes_iff h, Unicode.NFD13]

/-- What the emitted functions are, by the tables. -/
structure Agrees (code : Code Cat) (id : Idna) : Prop where
  valid : ∀ c, c < 0x110000 → (id.valid c = true ↔ c ≠ 0x3134A ∧ ∃ m, Row c .valid m)
  deviation : ∀ c, c < 0x110000 → (id.deviation c = true ↔ ∃ m, Row c .deviation m)
  ignored : ∀ c, c < 0x110000 → (id.ignored c = true ↔ ∃ m, Row c .ignored m)
  mapped : ∀ c, c < 0x110000 → (id.mapped c = true ↔ c ≠ 0x2FA1D ∧ ∃ m, Row c .mapped m)
  mapping : ∀ c, c < 0x110000 → ∀ s m, Row c s m → id.mapping c = if m = [] then none else some (encs m)
  mc : ∀ c, c < 0x110000 → (id.mc c = true ↔ category .Cn code c = .Mc)

theorem agrees_represents {code : Code Cat} {id id' : Idna} (h : Agrees code id) (h' : Agrees code id') {f : Nat → Option (List Nat)} (hf : Represents id' f) :
    Represents id f := by
  have h1 : ∀ c, c < 0x110000 → id.valid c = id'.valid c := fun c hc => Bool.eq_iff_iff.2 ((h.valid c hc).trans (h'.valid c hc).symm)
  have h2 : ∀ c, c < 0x110000 → id.deviation c = id'.deviation c := fun c hc => Bool.eq_iff_iff.2 ((h.deviation c hc).trans (h'.deviation c hc).symm)
  have h3 : ∀ c, c < 0x110000 → id.ignored c = id'.ignored c := fun c hc => Bool.eq_iff_iff.2 ((h.ignored c hc).trans (h'.ignored c hc).symm)
  have h4 : ∀ c, c < 0x110000 → id.mapped c = id'.mapped c := fun c hc => Bool.eq_iff_iff.2 ((h.mapped c hc).trans (h'.mapped c hc).symm)
  have h5 : ∀ c, c < 0x110000 → id.mapping c = id'.mapping c := by
    intro c hc
    obtain ⟨s, m, hr⟩ := IdnaGen.row_exists hc
    rw [h.mapping c hc s m hr, h'.mapping c hc s m hr]
  have lt : ∀ c, IsScalar c → c < 0x110000 := fun c hc => by rcases hc with hc | hc <;> omega
  refine ⟨?_, ?_, ?_, ?_⟩
  · intro c hc; rw [h1 c (lt c hc), h2 c (lt c hc)]; exact hf.keep c hc
  · intro c hc; rw [h1 c (lt c hc), h2 c (lt c hc), h3 c (lt c hc)]; exact hf.ignore c hc
  · intro c hc; rw [h1 c (lt c hc), h2 c (lt c hc), h3 c (lt c hc), h4 c (lt c hc), h5 c (lt c hc)]; exact hf.map c hc
  · intro c hc; rw [h1 c (lt c hc), h2 c (lt c hc), h3 c (lt c hc), h4 c (lt c hc)]; exact hf.bad c hc

theorem generated_agrees {e : IdnaGen.Emitted} (he : e.Spec) (code : Code Cat) : Agrees code (e.idna fun c => decide (category .Cn code c = .Mc)) := by
  refine ⟨fun c _ => ?_, fun c _ => he.deviation c, fun c _ => he.ignored c, fun c _ => ?_, fun c _ s m hr => ?_, fun c _ => decide_eq_true_iff⟩
  · obtain ⟨b, h1, h2⟩ := he.valid c
    simp only [IdnaGen.Emitted.idna, h1, h2]
  · obtain ⟨b, h1, h2⟩ := he.mapped c
    simp only [IdnaGen.Emitted.idna, h1, h2]
  · obtain ⟨r, h1, h2⟩ := he.mapping c
    rw [h2 s m hr] at h1
    simp only [IdnaGen.Emitted.idna]
    rw [show (IdnaGen.lookup e.code c).run = some (.ok (if m = [] then none else some (encs m))) from h1]

theorem listed {c : Nat} :
    (((∃ m, Row c .valid m) ∧ c ≠ 0x3134A ∧ c ≠ 0x2FA1D ∧ c < 0xE01F0) ↔ c ≠ 0x3134A ∧ ∃ m, Row c .valid m) ∧
    (((∃ m, Row c .mapped m) ∧ c ≠ 0x3134A ∧ c ≠ 0x2FA1D ∧ c < 0xE01F0) ↔ c ≠ 0x2FA1D ∧ ∃ m, Row c .mapped m) ∧
    (((∃ m, Row c .deviation m) ∧ c ≠ 0x3134A ∧ c ≠ 0x2FA1D ∧ c < 0xE01F0) ↔ ∃ m, Row c .deviation m) ∧
    (((∃ m, Row c .ignored m) ∧ c ≠ 0x3134A ∧ c ≠ 0x2FA1D ∧ c < 0xE01F0) ↔ ∃ m, Row c .ignored m) := by
  have hne : ∀ {s : Status} {m : List Nat}, Row c s m → (s ≠ .valid → c ≠ 0x3134A) ∧ (s ≠ .mapped → c ≠ 0x2FA1D) := by
    intro s m h
    constructor
    · rintro hs rfl
      exact hs (IdnaGen.row_unique h IdnaGen.row_3134A).1
    · rintro hs rfl
      exact hs (IdnaGen.row_unique h IdnaGen.row_2FA1D).1
  refine ⟨⟨fun h => ⟨h.2.1, h.1⟩, ?_⟩, ⟨fun h => ⟨h.2.2.1, h.1⟩, ?_⟩, ⟨fun h => h.1, ?_⟩, ⟨fun h => h.1, ?_⟩⟩
  · rintro ⟨h, m, hr⟩
    have := (IdnaGen.row_last hr).2.1 rfl
    exact ⟨⟨m, hr⟩, h, (hne hr).2 (by decide), by omega⟩
  · rintro ⟨h, m, hr⟩
    have := (IdnaGen.row_last hr).1 rfl
    exact ⟨⟨m, hr⟩, (hne hr).1 (by decide), h, by omega⟩
  · rintro ⟨m, hr⟩
    have := (IdnaGen.row_last hr).2.2
    simp only [reduceCtorEq, false_or] at this
    exact ⟨⟨m, hr⟩, (hne hr).1 (by decide), (hne hr).2 (by decide), by omega⟩
  · rintro ⟨m, hr⟩
    have := (IdnaGen.row_last hr).2.2
    simp only [reduceCtorEq, false_or] at this
    exact ⟨⟨m, hr⟩, (hne hr).1 (by decide), (hne hr).2 (by decide), by omega⟩

theorem flag_means {H : Str → Option V} {text f : Str} {args : List V} {P : Prop} (h1 : P → Means H text f args (.int 1)) (h0 : ¬ P → Means H text f args (.int 0))
    (b : Bool) : Means H text f args (.int (if b then 1 else 0)) ↔ (b = true ↔ P) := by
  by_cases hP : P
  · cases b with
    | true => simpa [hP] using h1 hP
    | false =>
      simp only [Bool.false_eq_true, if_false, hP, iff_true]
      exact iff_of_false (fun h => by cases means_unique h (h1 hP)) (by simp)
  · cases b with
    | true =>
      simp only [if_true, hP, iff_false, not_true_eq_false]
      exact fun h => absurd (V.int.inj (means_unique h (h0 hP))) (by decide)
    | false => simpa [hP] using h0 hP

theorem cat_index {c : Cat} : categoryNames.idxOf (PyGen.catName c) = categoryNames.idxOf c!"Mc" ↔ c = .Mc := by
  cases c <;> decide

theorem str_inj {a b : Option (List UInt8)} (h : (match a with | some b => V.str (b.map UInt8.toNat) | none => .null) = match b with | some b => .str (b.map UInt8.toNat) | none => .null) :
    a = b := by
  cases a <;> cases b
  · rfl
  · cases h
  · cases h
  · rw [List.map_injective_iff.2 (fun _ _ => UInt8.toNat.inj) (V.str.inj h)]

/-- The emitted functions, whatever the buffers. -/
theorem emittedHost_iff {code : Code Cat} (hc : code13 = .ok code) (id : Idna) : EmittedHost id ↔ Agrees code id := by
  constructor
  · rintro ⟨ls, buffer, out, cat, h1, h2, hb, h3, h4, h5⟩
    obtain ⟨out', k1, k2⟩ := shipped_emitted_idna_partial h1 h2 hb
    obtain rfl := Except.ok.inj (h3.symm.trans k1)
    obtain ⟨es, cat', _, k3, _, k4⟩ := shipped_emitted_category_partial hc
    obtain rfl := Except.ok.inj (h4.symm.trans k3)
    refine ⟨fun c hs => ?_, fun c hs => ?_, fun c hs => ?_, fun c hs => ?_, fun c hs s m hr => ?_, fun c hs => ?_⟩
    · rw [← listed.1]
      exact (flag_means (k2 c .valid).1 (k2 c .valid).2.1 _).1 (h5 c hs).1
    · rw [← listed.2.2.1]
      exact (flag_means (k2 c .deviation).1 (k2 c .deviation).2.1 _).1 (h5 c hs).2.1
    · rw [← listed.2.2.2]
      exact (flag_means (k2 c .ignored).1 (k2 c .ignored).2.1 _).1 (h5 c hs).2.2.1
    · rw [← listed.2.1]
      exact (flag_means (k2 c .mapped).1 (k2 c .mapped).2.1 _).1 (h5 c hs).2.2.2.1
    · have := means_unique (h5 c hs).2.2.2.2.1 ((k2 c s).2.2 m hr)
      refine str_inj (this.trans ?_)
      split <;> rfl
    · obtain ⟨k, m1, m2⟩ := (h5 c hs).2.2.2.2.2
      rw [m2, ← cat_index, Int.ofNat.inj (V.int.inj (means_unique m1 (k4 c)))]
  · intro h
    obtain ⟨ls, h2, h1, _⟩ := idna_lines
    obtain ⟨out, k1, k2⟩ := shipped_emitted_idna_partial h1 h2 (buffer := fun _ => List.replicate 100 0) (by simp)
    obtain ⟨es, cat, _, k3, _, k4⟩ := shipped_emitted_category_partial hc
    refine ⟨ls, _, out, cat, h1, h2, by simp, k1, k3, fun c hs => ⟨?_, ?_, ?_, ?_, ?_, _, k4 c, ?_⟩⟩
    · exact (flag_means (k2 c .valid).1 (k2 c .valid).2.1 _).2 ((h.valid c hs).trans listed.1.symm)
    · exact (flag_means (k2 c .deviation).1 (k2 c .deviation).2.1 _).2 ((h.deviation c hs).trans listed.2.2.1.symm)
    · exact (flag_means (k2 c .ignored).1 (k2 c .ignored).2.1 _).2 ((h.ignored c hs).trans listed.2.2.2.symm)
    · exact (flag_means (k2 c .mapped).1 (k2 c .mapped).2.1 _).2 ((h.mapped c hs).trans listed.2.1.symm)
    · obtain ⟨s, m, hr⟩ := IdnaGen.row_exists hs
      rw [h.mapping c hs s m hr]
      by_cases hm : m = []
      · simpa [hm] using (k2 c s).2.2 m hr
      · simpa [hm] using (k2 c s).2.2 m hr
    · rw [h.mc c hs, cat_index]

/-- There are such functions: those of C99. -/
theorem shipped_host_functions : (∃ id, Puny.Real id) ∧ ∀ {id : Idna}, Puny.Real id → EmittedHost id := by
  refine ⟨Puny.real_exists, ?_⟩
  rintro id ⟨e, code, h, hc, rfl⟩
  exact (emittedHost_iff hc _).2 (generated_agrees (Puny.generated_spec h).2 code)

theorem host_represents {id : Idna} (h : EmittedHost id) : Represents id map13 ∧ ∀ c, Puny.Kept c → (id.mc c = true ↔ Assigned lines13 c .Mc) := by
  obtain ⟨e, he⟩ := Puny.generated_exists
  obtain ⟨code, hc⟩ := category13_succeeds
  have h' := (emittedHost_iff hc id).1 h
  have hs := (Puny.generated_spec he).2
  refine ⟨agrees_represents h' (generated_agrees hs code) (IdnaGen.represents13 hs _), fun c hk => ?_⟩
  have hl : c < 0x110000 := by
    obtain ⟨m, h | h⟩ := hk <;> exact IdnaGen.row_lt h
  rw [h'.mc c hl, Puny.category_mark hc c (Puny.kept_facts hk).1]

theorem readings13 : ∃ es qs il, Readings es qs il ∧ Unicode13 es ∧ Props13 qs ∧ List.Forall₂ IdnaGen.Match il idnaTable.toList := by
  obtain ⟨es, h1, h2⟩ := shipped_unicode_data
  obtain ⟨_, ⟨p, hp⟩, _⟩ := shipped_utf8
  obtain ⟨ls, _, k1, k2, _⟩ := props_lines
  obtain ⟨ps, qs, h3, h4, h5⟩ := shipped_props utf8_decoder (IsUtf8.decodes k2 k1 hp)
  obtain ⟨il', l1, l2, il, l3, l4⟩ := idna_lines
  exact ⟨es, qs, il, ⟨h1, ⟨p, ps, hp, h3, h4⟩, il', l2, l1, l3⟩, h2, h5, l4⟩

theorem readings_facts {es : List Entry} {qs : List Quick} {il : List Line} (h : Readings es qs il) :
    Unicode13 es ∧ Props13 qs ∧ List.Forall₂ IdnaGen.Match il idnaTable.toList := by
  obtain ⟨h1, ⟨p, ps, hp, h2, h3⟩, ls, l1, l2, l3⟩ := h
  refine ⟨?_, ?_, ?_⟩
  · obtain ⟨es', k1, k2⟩ := shipped_unicode_data
    rwa [unicodeData_unique h1 k1]
  · obtain ⟨ls, _, k1, k2, _⟩ := props_lines
    obtain ⟨ps', qs', k3, k4, k5⟩ := shipped_props utf8_decoder (IsUtf8.decodes k2 k1 hp)
    obtain rfl := lines_unique h2 k3
    rwa [checking_unique h3 k4]
  · obtain ⟨il', k1, k2⟩ := shipped_idna l1 l2
    rwa [IdnaGen.file_unique l3 k1]

theorem utf8_unique {bytes : List Nat} {t t' : Str} (h : IsUtf8 bytes t) (h' : IsUtf8 bytes t') : t = t' := by
  have hs : ∀ t : Str, ∀ c ∈ t.map Char.toNat, IsScalar c := by
    intro t c hc
    obtain ⟨x, _, rfl⟩ := List.mem_map.1 hc
    rcases x.valid with h | h
    · exact .inl (by simpa using h)
    · exact .inr ⟨by have := h.1; simp only [Char.toNat, UInt32.toNat] at *; omega, by have := h.2; simp only [Char.toNat, UInt32.toNat] at *; omega⟩
  have := Unicode.encs_inj (hs t) (hs t') (h.trans h'.symm)
  exact List.map_injective_iff.2 (fun a b hab => Char.toNat_inj.1 hab) this

/-- The files can be read in just one way. -/
theorem shipped_readings : ∃ es qs il, Readings es qs il ∧ ∀ es' qs' il', Readings es' qs' il' → es' = es ∧ qs' = qs ∧ il' = il := by
  obtain ⟨es, qs, il, h, _⟩ := readings13
  refine ⟨es, qs, il, h, fun es' qs' il' h' => ?_⟩
  obtain ⟨h1, ⟨p, ps, hp, h2, h3⟩, ls, l1, l2, l3⟩ := h
  obtain ⟨k1, ⟨p', ps', kp, k2, k3⟩, ls', m1, m2, m3⟩ := h'
  obtain rfl := utf8_unique hp kp
  obtain rfl := lines_unique h2 k2
  obtain rfl := split_unique l1 m1 (l2.symm.trans m2)
  exact ⟨unicodeData_unique k1 h1, checking_unique k3 h3, IdnaGen.file_unique m3 l3⟩

section
variable {es : List Entry} {qs : List Quick} {il : List Line} (hr : Readings es qs il) {u : Ucd} (hu : Emitted u) {id : Idna} (hid : EmittedHost id)
  {dm : Nat → Option (List Nat)} {ccc : Nat → Nat} {pc : Nat → Nat → Nat → Prop} (hf : Files dm ccc pc) {mark : Nat → Bool}
  (hm : ∀ c : Nat, mark c = true ↔ HasCategory es c c!"Mc") {fresh : Nat → List UInt8} (hfr : ∀ n, (fresh n).length = n)
include hr hu hid hf hm hfr

/-- C143: with what the scripts and `gen_idna_table` emit for the files of the repository, `charstr_idna_encode` returns the ASCII form of the host name after
normalization and step 1 of UTS #46 by the lines of these files, if the name fits and there is one in the limits. It is undefined just when nothing is left of
the name, an assertion fails just when an ASCII label has more than 63 characters and everything before is in order, and in all
other cases the result is NULL. Missing: U+3134A (`shipped_host_violated`), and names that do not fit (C91). -/
theorem shipped_host_partial {t : List UInt8} (h0 : (0 : UInt8) ∉ t) (r : List UInt8) (hna : ∃ c ∈ t, 128 ≤ c.toNat) {cps : List Nat} (hs : Seq Legal t cps)
    (hl : 0x3134A ∉ cps) :
    (∃ res, Puny.idnaEncode u id fresh (t ++ 0 :: r) = liftC res) ∧
    (∀ out, Returns (Puny.idnaEncode u id fresh (t ++ 0 :: r)) (some out) ↔ Short dm ccc pc qs (3 * t.length) cps ∧
      ∃ y z o, NFC dm ccc pc cps y ∧ Becomes il y z ∧ z ≠ [] ∧ (encs z).length ≤ 254 ∧ HostAscii mark z o ∧ out = o ++ [0]) ∧
    (Puny.idnaEncode u id fresh (t ++ 0 :: r) = liftC (.error .ub) ↔ Short dm ccc pc qs (3 * t.length) cps ∧ ∃ y, NFC dm ccc pc cps y ∧ Becomes il y []) ∧
    (Puny.idnaEncode u id fresh (t ++ 0 :: r) = liftC (.error .abort) ↔ Short dm ccc pc qs (3 * t.length) cps ∧
      ∃ y z, NFC dm ccc pc cps y ∧ Becomes il y z ∧ (encs z).length ≤ 254 ∧ LongAscii mark z) := by
  obtain ⟨h13, hq, hi⟩ := readings_facts hr
  obtain ⟨rfl, rfl, rfl⟩ := files13 hf
  obtain rfl := emitted13 hu
  obtain ⟨hrep, hmc⟩ := host_represents hid
  have hmark : ∀ c, Puny.Kept c → id.mc c = mark c := by
    intro c hk
    rw [Bool.eq_iff_iff, hmc c hk, hm, ← assigned_iff, recs13 h13]
    exact (assigned_named lines13 c .Mc).symm
  have hsc := (Unicode.legal_encs hs).2
  have hprep : ∀ z, Puny.Prepared map13 cps z ↔ ∃ y, NFC unicode13.decomp unicode13.ccc Spec.Unicode.Primary cps y ∧ Becomes il y z := by
    intro z
    rw [Puny.prepared_iff hsc hl, Prepared13]
    simp only [becomes_iff hi]
  have hkept : ∀ z, (∃ y, NFC unicode13.decomp unicode13.ccc Spec.Unicode.Primary cps y ∧ Becomes il y z) → ∀ c ∈ z, id.mc c = mark c := by
    rintro z ⟨y, _, hb⟩ c hc
    exact hmark c (Puny.processed_kept ((becomes_iff hi).1 hb) c hc)
  refine ⟨?_, fun out => ?_, ?_, ?_⟩
  · obtain ⟨res, h, _⟩ := Puny.idna_terminates hrep hfr h0 r
    exact ⟨res, h⟩
  · rw [Puny.idna_encode_exact hrep hfr h0 r hna hs, short_iff hq]
    refine and_congr_right fun _ => ?_
    simp only [hprep]
    constructor
    · rintro ⟨z, o, h1, h2, h3, h4, h5⟩
      have h4 := (Puny.host_congr (hkept z h1) o).1 h4
      obtain ⟨y, g1, g2⟩ := h1
      exact ⟨y, z, o, g1, g2, h2, h3, h4, h5⟩
    · rintro ⟨y, z, o, g1, g2, h2, h3, h4, h5⟩
      exact ⟨z, o, ⟨y, g1, g2⟩, h2, h3, (Puny.host_congr (hkept z ⟨y, g1, g2⟩) o).2 h4, h5⟩
  · rw [(Puny.idna_failure_iff hrep hfr h0 r hna hs).1, short_iff hq, hprep]
  · rw [(Puny.idna_failure_iff hrep hfr h0 r hna hs).2, short_iff hq]
    refine and_congr_right fun _ => ?_
    simp only [hprep]
    constructor
    · rintro ⟨z, h1, h3, h4⟩
      have h4 := (Puny.long_congr (hkept z h1)).1 h4
      obtain ⟨y, g1, g2⟩ := h1
      exact ⟨y, z, g1, g2, h3, h4⟩
    · rintro ⟨y, z, g1, g2, h3, h4⟩
      exact ⟨z, ⟨y, g1, g2⟩, h3, (Puny.long_congr (hkept z ⟨y, g1, g2⟩)).2 h4⟩

/-- The full statement fails: by the lines U+3134A is valid, it is normalized and its ASCII form is "xn--2o8n", but the result is NULL. -/
theorem shipped_host_violated (r : List UInt8) :
    Returns (Puny.idnaEncode u id fresh (encs [0x3134A] ++ 0 :: r)) none ∧ NFC dm ccc pc [0x3134A] [0x3134A] ∧ Becomes il [0x3134A] [0x3134A] ∧
      HostAscii mark [0x3134A] (Puny.bytes "xn--2o8n") := by
  obtain ⟨h13, hq, hi⟩ := readings_facts hr
  obtain ⟨rfl, rfl, rfl⟩ := files13 hf
  obtain rfl := emitted13 hu
  obtain ⟨id', hid'⟩ := Puny.real_exists
  have hm' : Puny.IsMark mark := by
    intro c
    rw [hm, ← assigned_iff, recs13 h13]
    exact assigned_named lines13 c .Mc
  obtain ⟨-, h1, h2, h3⟩ := Puny.idna13_refuses_valid hid' hfr r
  refine ⟨?_, h1, (becomes_iff hi).2 h2, h3 mark hm'⟩
  obtain ⟨res, k1, k2⟩ := Puny.idna_quick (host_represents hid).1 hfr (cps := [0x3134A]) (by decide) (by decide) (by decide)
    (by unfold Puny.Quick; rw [unicode13_eq]; decide +kernel) r
  rw [k1, Puny.encodes_none k2 (by decide +kernel)]
  rfl

end

/-- There are such functions and such data, and with them "B\u00FCcher.example", its second letter decomposed, has an ASCII form. -/
example {fresh : Nat → List UInt8} (hfr : ∀ n, (fresh n).length = n) : ∃ es qs il u id dm ccc pc, Readings es qs il ∧ Emitted u ∧ EmittedHost id ∧ Files dm ccc pc ∧
    Returns (Puny.idnaEncode u id fresh (encs (Puny.points "Bu\u0308cher.example") ++ [0])) (some (Puny.bytes "xn--bcher-kva.example" ++ [0])) := by
  obtain ⟨u, hu, _⟩ := shipped_emitted_functions
  obtain ⟨dm, ccc, pc, hf, _⟩ := shipped_files
  obtain ⟨id, hid⟩ := Puny.real_exists
  obtain ⟨es, qs, il, hr, _⟩ := shipped_readings
  refine ⟨es, qs, il, u, id, dm, ccc, pc, hr, hu, shipped_host_functions.2 hid, hf, ?_⟩
  obtain rfl := emitted13 hu
  exact Puny.idna13_sample hid hfr []

end Verif.Shipped
