import Verif.Props.ShippedEmit
import Verif.Proofs.Unambiguous

/-!
# C142: normalization by the bytes of the data files

C70, C86 and C87 say what the functions for normalization do, in terms of the tables of the model. Here the tables are gone from both sides: the functions
call what the scripts emit for the files of the repository, and the normal forms are those of the standard for what the lines of these files say.
-/

set_option autoImplicit false

namespace Verif.Shipped
open Verif.Spec.CText hiding Str
open Verif.Unidata Verif.UniGen Verif.PyGen Verif.Emit
open Verif.Categorize hiding Entry
open Verif.Spec.DataFiles hiding Range
open Verif.Spec.Unicode hiding Quick
open Verif.Unicode Verif.Utf8 Verif.Spec.Utf8

/-- The character data that the lines `es` of UnicodeData.txt and the code points `xs` of CompositionExclusions.txt give: the mapping of a character, its class,
and the primary composites (D111 to D114), which are starters that map to a pair of which the first is a starter, and are not excluded. -/
structure Given (es : List Entry) (xs : List Nat) (dm : Nat → Option (List Nat)) (ccc : Nat → Nat) (pc : Nat → Nat → Nat → Prop) : Prop where
  maps : ∀ e ∈ es, dm e.cp = e.dec
  maps_other : ∀ c, (∀ e ∈ es, e.cp ≠ c) → dm c = none
  marks : ∀ e ∈ es, ccc e.cp = e.ccc
  marks_other : ∀ c, (∀ e ∈ es, e.cp ≠ c) → ccc c = 0
  composite : ∀ s c p, pc s c p ↔ (∃ e ∈ es, e.cp = p ∧ e.dec = some [s, c]) ∧ p ∉ xs ∧ ccc s = 0 ∧ ccc p = 0

/-- The character data in the files of the repository. -/
def Files (dm : Nat → Option (List Nat)) (ccc : Nat → Nat) (pc : Nat → Nat → Nat → Prop) : Prop :=
  ∃ es xtext xls xs, UnicodeData (chars unicodeDataTxt) es ∧ IsUtf8 compositionExclusionsTxt xtext ∧ Lines xtext xls ∧ Exclusions xls xs ∧ Given es xs dm ccc pc

/-- The functions of `u` are those of the C source that the scripts emit for the files of the repository. -/
def Emitted (u : Ucd) : Prop :=
  ∃ xtext ptext ccc dec comp quick, IsUtf8 compositionExclusionsTxt xtext ∧ IsUtf8 normalizationPropsTxt ptext ∧
    cccFile (chars unicodeDataTxt) = .ok ccc ∧ decompFile (chars unicodeDataTxt) = .ok dec ∧ recompFile (chars unicodeDataTxt) xtext = .ok comp ∧
    qcFile 0x110000 ptext = .ok quick ∧ ∀ cp : Nat,
      Means header ccc c!"charstr_unicode_canonical_combining_class" [.int cp] (.int (u.ccc cp)) ∧
      Means header dec c!"_charstr_unicode_decomposition" [.int cp] (match u.decomp cp with | some d => .ints (d ++ [0]) | none => .null) ∧
      Means header quick c!"charstr_allowed_unicode_normal_forms" [.int cp] (.int (u.flags cp)) ∧
      ∀ c : Nat, Means header comp c!"_charstr_unicode_primary_composite" [.int cp, .int c] (.int (match u.composite cp c with | some p => p | none => -1))

theorem means_unique {H : Str → Option V} {text f : Str} {args : List V} {v w : V} (h : Means H text f args v) (h' : Means H text f args w) : v = w := by
  obtain ⟨G, g, h1, h2, h3⟩ := h
  obtain ⟨G', g', k1, k2, k3⟩ := h'
  obtain rfl := Except.ok.inj (h1.symm.trans k1)
  have := h2.symm.trans k2
  cases this
  exact returns_unique h3 k3

theorem given13 {es : List Entry} (h13 : Unicode13 es) : Given es exclusions unicode13.decomp unicode13.ccc Primary := by
  have hccc : ∀ e ∈ es, unicode13.ccc e.cp = e.ccc := fun e he => by rw [ccc_lookup, ← (h13.row e he).1]
  refine ⟨fun e he => dec13 h13 he, fun c hc => dec13_none h13 hc, hccc, fun c hc => by rw [ccc_lookup, no_row h13 hc]; rfl, fun s c p => ?_⟩
  rw [Primary, ← ccc_iff, ← ccc_iff, ← decomp_iff]
  refine and_congr_left fun _ => ⟨fun h => ?_, ?_⟩
  · by_cases hp : ∃ e ∈ es, e.cp = p
    · obtain ⟨e, he, rfl⟩ := hp
      exact ⟨e, he, rfl, (dec13 h13 he).symm.trans h⟩
    · rw [dec13_none h13 fun e he h' => hp ⟨e, he, h'⟩] at h
      cases h
  · rintro ⟨e, he, rfl, h⟩
    exact (dec13 h13 he).trans h

theorem given_unique {es : List Entry} {xs : List Nat} {dm dm' : Nat → Option (List Nat)} {ccc ccc' : Nat → Nat} {pc pc' : Nat → Nat → Nat → Prop}
    (h : Given es xs dm ccc pc) (h' : Given es xs dm' ccc' pc') : dm = dm' ∧ ccc = ccc' ∧ pc = pc' := by
  have h1 : dm = dm' := by
    funext c
    by_cases hc : ∃ e ∈ es, e.cp = c
    · obtain ⟨e, he, rfl⟩ := hc
      rw [h.maps e he, h'.maps e he]
    · rw [h.maps_other c fun e he h => hc ⟨e, he, h⟩, h'.maps_other c fun e he h => hc ⟨e, he, h⟩]
  have h2 : ccc = ccc' := by
    funext c
    by_cases hc : ∃ e ∈ es, e.cp = c
    · obtain ⟨e, he, rfl⟩ := hc
      rw [h.marks e he, h'.marks e he]
    · rw [h.marks_other c fun e he h => hc ⟨e, he, h⟩, h'.marks_other c fun e he h => hc ⟨e, he, h⟩]
  subst h2
  exact ⟨h1, rfl, by funext s c p; exact propext ((h.composite s c p).trans (h'.composite s c p).symm)⟩

/-- The files give character data, and but one. -/
theorem shipped_files : ∃ dm ccc pc, Files dm ccc pc ∧ ∀ dm' ccc' pc', Files dm' ccc' pc' → dm' = dm ∧ ccc' = ccc ∧ pc' = pc := by
  obtain ⟨es, h, h13⟩ := shipped_unicode_data
  obtain ⟨ls, h1, h2, _⟩ := excl_lines
  obtain ⟨_, _, x, hx⟩ := shipped_utf8
  obtain ⟨xls, x1, x2⟩ := shipped_exclusions utf8_decoder (IsUtf8.decodes h2 h1 hx)
  refine ⟨unicode13.decomp, unicode13.ccc, Primary, ⟨es, x, xls, exclusions, h, hx, x1, x2, given13 h13⟩, ?_⟩
  rintro dm' ccc' pc' ⟨es', x', xls', xs', h', hx', x1', x2', hg⟩
  obtain rfl := unicodeData_unique h' h
  obtain ⟨xls'', x1'', x2''⟩ := shipped_exclusions utf8_decoder (IsUtf8.decodes h2 h1 hx')
  obtain rfl := lines_unique x1' x1''
  obtain rfl := exclusions_unique x2' x2''
  exact given_unique hg (given13 h13)

theorem files13 {dm : Nat → Option (List Nat)} {ccc : Nat → Nat} {pc : Nat → Nat → Nat → Prop} (h : Files dm ccc pc) :
    dm = unicode13.decomp ∧ ccc = unicode13.ccc ∧ pc = Primary := by
  obtain ⟨es, x, xls, xs, h1, hx, x1, x2, hg⟩ := h
  obtain ⟨es', h', h13⟩ := shipped_unicode_data
  obtain rfl := unicodeData_unique h' h1
  obtain ⟨ls, k1, k2, _⟩ := excl_lines
  obtain ⟨xls', x1', x2'⟩ := shipped_exclusions utf8_decoder (IsUtf8.decodes k2 k1 hx)
  obtain rfl := lines_unique x1' x1
  obtain rfl := exclusions_unique x2' x2
  exact given_unique hg (given13 h13)

theorem mapping_inj {a b : Option (List Nat)} (h : (match a with | some d => V.ints (d ++ [0]) | none => .null) = match b with | some d => .ints (d ++ [0]) | none => .null) :
    a = b := by
  cases a <;> cases b
  · rfl
  · cases h
  · cases h
  · rw [List.append_cancel_right (V.ints.inj h)]

theorem pair_inj {a b : Option Nat} (h : V.int (match a with | some p => p | none => -1) = V.int (match b with | some p => p | none => -1)) : a = b := by
  cases a <;> cases b <;> have h := V.int.inj h
  · rfl
  · simp only at h; omega
  · simp only at h; omega
  · rw [Int.ofNat.inj h]

theorem emitted13 {u : Ucd} (h : Emitted u) : u = unicode13 := by
  obtain ⟨x, p, ccc, dec, comp, quick, hx, hp, h1, h2, h3, h4, h5⟩ := h
  obtain ⟨ccc', dec', comp', quick', k1, k2, k3, k4, k5, _⟩ := shipped_emitted_normalization hx hp
  obtain rfl := Except.ok.inj (h1.symm.trans k1)
  obtain rfl := Except.ok.inj (h2.symm.trans k2)
  obtain rfl := Except.ok.inj (h3.symm.trans k3)
  obtain rfl := Except.ok.inj (h4.symm.trans k4)
  have e1 : u.ccc = unicode13.ccc := by
    funext cp
    exact Int.ofNat.inj (V.int.inj (means_unique (h5 cp).1 (k5 cp).1))
  have e2 : u.decomp = unicode13.decomp := by
    funext cp
    exact mapping_inj (means_unique (h5 cp).2.1 (k5 cp).2.1)
  have e3 : u.flags = unicode13.flags := by
    funext cp
    exact Int.ofNat.inj (V.int.inj (means_unique (h5 cp).2.2.1 (k5 cp).2.2.1))
  have e4 : u.composite = unicode13.composite := by
    funext s c
    exact pair_inj (means_unique ((h5 s).2.2.2 c) ((k5 s).2.2.2 c))
  obtain ⟨a, b, c, d⟩ := u
  simp only at e1 e2 e3 e4
  subst e1 e2 e3 e4
  rfl

/-- The scripts emit functions for the files, and but one function under each name. -/
theorem shipped_emitted_functions : ∃ u, Emitted u ∧ ∀ u', Emitted u' → u' = u := by
  obtain ⟨_, ⟨p, hp⟩, ⟨x, hx⟩⟩ := shipped_utf8
  obtain ⟨ccc, dec, comp, quick, h1, h2, h3, h4, h5, _⟩ := shipped_emitted_normalization hx hp
  exact ⟨unicode13, ⟨x, p, ccc, dec, comp, quick, hx, hp, h1, h2, h3, h4, h5⟩, fun _ h => emitted13 h⟩

variable {u : Ucd} (hu : Emitted u) {dm : Nat → Option (List Nat)} {ccc : Nat → Nat} {pc : Nat → Nat → Nat → Prop} (hf : Files dm ccc pc)
include hu hf

/-- Decomposition: normalization form D. -/
theorem shipped_decompose {p : Pos} {t : List UInt8} (hp : Input p t) {cps : List Nat} (hs : Seq Loose t cps) :
    ∃ y, NFD dm ccc cps y ∧ (encs y).length ≤ 3 * t.length ∧ ∀ (buf : List UInt8) (e : Nat), e ≤ buf.length → (encs y).length < e →
      Returns (decompose u p buf (some e)) (.ptr (encs y).length, encs y ++ 0 :: buf.drop ((encs y).length + 1)) := by
  obtain ⟨rfl, rfl, rfl⟩ := files13 hf
  obtain rfl := emitted13 hu
  exact unicode_decompose_13 hp hs

/-- Recomposition: the composition of D117. It fails only for bytes that cannot be decoded, for more than 100 combining marks after a starter and for want of
room. -/
theorem shipped_recompose {p : Pos} {t : List UInt8} (hp : Input p t) {cps : List Nat} {b : Bool} (hs : Scan Loose t cps b)
    {buf : List UInt8} {e : Nat} (he : e ≤ buf.length) :
    ∃ y, Compose ccc pc [] cps y ∧ (encs y).length ≤ t.length ∧ ∃ r buf', Returns (recompose u p buf (some e)) (r, buf') ∧
      buf'.length = buf.length ∧ buf'.drop e = buf.drop e ∧
      (b = true → ¬ Excess ccc pc 100 cps → (encs y).length < e → r = .ptr (encs y).length ∧ buf' = encs y ++ 0 :: buf.drop ((encs y).length + 1)) ∧
      (∀ q, r = .ptr q → b = true ∧ ¬ Excess ccc pc 100 cps ∧ (encs y).length < e) ∧
      (∀ errno, r = .null errno → errno = .eilseq ∧ b = false ∨ errno = .enobufs ∧ Excess ccc pc 100 cps ∨ errno = .eoverflow ∧ e ≤ (encs y).length) := by
  obtain ⟨rfl, rfl, rfl⟩ := files13 hf
  obtain rfl := emitted13 hu
  exact unicode_recompose_correct hp hs he

/-- Both, one after the other: normalization form C, for texts without more than 100 combining marks in a row. -/
theorem shipped_normalize {p : Pos} {t : List UInt8} (hp : Input p t) {cps : List Nat} (hs : Seq Legal t cps)
    {buf buf2 : List UInt8} {e e2 : Nat} (he : e ≤ buf.length) (he2 : e2 ≤ buf2.length) (hr : 3 * t.length + 1 ≤ e) (hr2 : 3 * t.length + 1 ≤ e2)
    (hrun : ∀ d, NFD dm ccc cps d → ∀ x b y, d = x ++ b ++ y → (∀ c ∈ b, ccc c ≠ 0) → b.length ≤ 100) :
    ∃ d y, NFD dm ccc cps d ∧ NFC dm ccc pc cps y ∧
      Returns (decompose u p buf (some e)) (.ptr (encs d).length, encs d ++ 0 :: buf.drop ((encs d).length + 1)) ∧
      Returns (recompose u (encs d ++ 0 :: buf.drop ((encs d).length + 1), none) buf2 (some e2))
        (.ptr (encs y).length, encs y ++ 0 :: buf2.drop ((encs y).length + 1)) := by
  obtain ⟨rfl, rfl, rfl⟩ := files13 hf
  obtain rfl := emitted13 hu
  obtain ⟨rfl, hsc⟩ := legal_encs hs
  have h0 : 0 ∉ cps := by
    rw [← encs_zero hsc]
    obtain ⟨r, _, h, _⟩ := hp
    exact h
  obtain ⟨d, h1, h2, h3⟩ := unicode_decompose_13 hp (seq_loose hs)
  have hsd := nfd_scalar h1 hsc
  obtain ⟨y, h4, h5⟩ := unicode_recompose_room_partial (input_encs hsd (nfd_nonzero h1 h0) (buf.drop ((encs d).length + 1))) (scan_true.1 (scan_encs hsd))
    (hrun d h1) he2 (by omega)
  exact ⟨d, y, h1, ⟨d, h1, h4⟩, h3 buf e he (by omega), h5⟩

/-- The check for normalization form D is exact, but for the encodings that the decoder accepts although they are not legal; a text that the check for form C
accepts is in that form. -/
theorem shipped_checks {p : Pos} {t : List UInt8} (hp : Input p t) : ∃ r r', canonicallyDecomposed u p = .ok r ∧ canonicallyComposed u p = .ok r' ∧
    (r = true ↔ ∃ cps, Seq Loose t cps ∧ NFD dm ccc cps cps) ∧ (r' = true → ∃ cps, Seq Loose t cps ∧ NFC dm ccc pc cps cps) := by
  obtain ⟨rfl, rfl, rfl⟩ := files13 hf
  obtain rfl := emitted13 hu
  obtain ⟨r, h1, h2⟩ := unicode_decomposed_check_partial hp
  obtain ⟨r', h3, h4⟩ := unicode_composed_check_partial hp
  exact ⟨r, r', h1, h3, h2, h4⟩

omit hu hf

/-- There are such functions and such data; by the data the Ångström sign (U+212B) with a mark above and one below has these normal forms. -/
example : ∃ u dm ccc pc, Emitted u ∧ Files dm ccc pc ∧ Seq Legal (encs [0x212B, 0x301, 0x323]) [0x212B, 0x301, 0x323] ∧
    NFD dm ccc [0x212B, 0x301, 0x323] [0x41, 0x323, 0x30A, 0x301] ∧ NFC dm ccc pc [0x212B, 0x301, 0x323] [0x1EA0, 0x30A, 0x301] := by
  obtain ⟨u, hu, _⟩ := shipped_emitted_functions
  obtain ⟨dm, ccc, pc, hf, _⟩ := shipped_files
  refine ⟨u, dm, ccc, pc, hu, hf, seq_encs (by decide), ?_⟩
  obtain ⟨rfl, rfl, rfl⟩ := files13 hf
  have h : NFD13 [0x212B, 0x301, 0x323] [0x41, 0x323, 0x30A, 0x301] := by
    unfold NFD13; rw [unicode13_eq]
    exact nfd_iff.2 ⟨[0x41, 0x30A] ++ ([0x301] ++ ([0x323] ++ [])), .cons (fullF_full 5 _ _ (by decide +kernel))
      (.cons (fullF_full 5 _ _ (by decide +kernel)) (.cons (fullF_full 5 _ _ (by decide +kernel)) .nil)), by decide +kernel⟩
  refine ⟨h, nfc_primary.2 ⟨_, h, (compose_iff tables.toTable).2 ?_⟩⟩
  rw [unicode13_eq]
  decide +kernel

end Verif.Shipped
