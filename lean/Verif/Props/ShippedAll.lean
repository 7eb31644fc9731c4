import Verif.Props.Shipped
import Verif.Proofs.ShippedUtf8
import Verif.Data.Text.Idna0
import Verif.Data.Text.Idna1
import Verif.Data.Text.Idna2
import Verif.Data.Text.Idna3
import Verif.Data.Text.Idna4
import Verif.Data.Text.Idna5
import Verif.Data.Text.Idna6
import Verif.Data.Text.Idna7
import Verif.Data.Text.Props0
import Verif.Data.Text.Props1
import Verif.Data.Text.Props2
import Verif.Data.Text.Props3
import Verif.Data.Text.Props4
import Verif.Data.Text.Props5
import Verif.Data.Text.Props6
import Verif.Data.Text.Props7
import Verif.Data.Text.Exclusions0

/-!
# C140: the other data files of the repository

IdnaMappingTable.txt, DerivedNormalizationProps.txt and CompositionExclusions.txt, byte for byte. With C139 this removes the data files from the trusted base:
what the generators emit is known for the bytes that the repository has.
-/

set_option autoImplicit false

namespace Verif.Shipped
open Verif.Unidata Verif.UniGen Verif.PyGen
open Verif.Spec.DataFiles
open Verif.Spec.Unicode (encs)

/-! ## IdnaMappingTable.txt -/

def idnaPieces : List Piece :=
  Idna0.chunks ++ Idna1.chunks ++ Idna2.chunks ++ Idna3.chunks ++ Idna4.chunks ++ Idna5.chunks ++ Idna6.chunks ++ Idna7.chunks

/-- The bytes of /repo/idna/IdnaMappingTable.txt. -/
def idnaMappingTxt : List Nat := idnaPieces.flatMap Piece.bytes

theorem idnaPieces_ok : AllIdna idnaPieces := by
  intro c h
  simp only [idnaPieces, List.mem_append] at h
  rcases h with ((((((h | h) | h) | h) | h) | h) | h) | h
  · exact Idna0.ok c h
  · exact Idna1.ok c h
  · exact Idna2.ok c h
  · exact Idna3.ok c h
  · exact Idna4.ok c h
  · exact Idna5.ok c h
  · exact Idna6.ok c h
  · exact Idna7.ok c h

theorem idnaPieces_linked : linkedG idnaPieces 0 0x110000 = true := by decide +kernel
theorem idnaPieces_total : totalG idnaPieces = size idnaTable := by decide +kernel

theorem idna_lines : ∃ ls : List (List Nat), idnaMappingTxt = ls.flatMap (fun l => l ++ [10]) ∧ (∀ l ∈ ls, 10 ∉ l) ∧ IdnaGen.Text13 (ls.map fun l => toB (l ++ [10])) :=
  idna_text13 (idnaPieces_total ▸ partsG (fun c hc => Piece.idna (idnaPieces_ok c hc)) idnaPieces_linked)

/-- The lines of the file, each with its line feed. -/
theorem shipped_idna {ls : List (List Nat)} (h : ∀ l ∈ ls, 10 ∉ l) (ht : idnaMappingTxt = ls.flatMap fun l => l ++ [10]) :
    IdnaGen.Text13 (ls.map fun l => toB (l ++ [10])) := by
  obtain ⟨ls', h1, h2, h3⟩ := idna_lines
  rwa [split_unique h h2 (ht.symm.trans h1)]

/-- gen_idna_table run on the file emits the tables that the theorems about host names use. -/
theorem shipped_idna_emitted : ∃ e, Puny.Generated e ∧ ∀ ls : List (List Nat), (∀ l ∈ ls, 10 ∉ l) → (idnaMappingTxt = ls.flatMap fun l => l ++ [10]) →
    ∀ buffer : Nat → List UInt8, (∀ n, (buffer n).length = 100) → IdnaGen.main buffer (ls.map fun l => toB (l ++ [10]) ++ [0]) = .ok e := by
  obtain ⟨e, _, he⟩ := Puny.idna13_succeeds
  have key : ∀ ls : List (List Nat), (∀ l ∈ ls, 10 ∉ l) → (idnaMappingTxt = ls.flatMap fun l => l ++ [10]) →
      ∀ buffer : Nat → List UInt8, (∀ n, (buffer n).length = 100) → IdnaGen.main buffer (ls.map fun l => toB (l ++ [10]) ++ [0]) = .ok e := by
    intro ls h1 h2 buffer hb
    have := he _ (shipped_idna h1 h2) buffer hb
    rwa [List.map_map] at this
  obtain ⟨ls, h1, h2, h3⟩ := idna_lines
  exact ⟨e, ⟨_, fun _ => List.replicate 100 0, h3, by simp, he _ h3 _ (by simp)⟩, key⟩

/-- The file has lines as the theorem wants them. -/
example : ∃ ls : List (List Nat), (∀ l ∈ ls, 10 ∉ l) ∧ idnaMappingTxt = ls.flatMap fun l => l ++ [10] := by
  obtain ⟨ls, h1, h2, _⟩ := idna_lines
  exact ⟨ls, h2, h1⟩

/-- The file begins so. -/
example : ∃ c cs, idnaPieces = c :: cs ∧ (chars c.bytes).take 25 = "# IdnaMappingTable.txt\n# ".toList := by
  exact ⟨_, _, rfl, by decide +kernel⟩

/-! ## Decoding

The scripts read text, the theorems of this file are about bytes. Any decoder of lines will do that keeps ASCII (`Decoder`);
Latin-1 and UTF-8 are such. -/

/-- The text of a file. -/
def Decodes (d : List Nat → Str) (bytes : List Nat) (text : Str) : Prop :=
  ∃ ls : List (List Nat), (∀ l ∈ ls, 10 ∉ l) ∧ bytes = ls.flatMap (fun l => l ++ [10]) ∧ text = ls.flatMap fun l => d l ++ ['\n']

/-- `text` in UTF-8. -/
def IsUtf8 (bytes : List Nat) (text : Str) : Prop := encs (text.map Char.toNat) = toB bytes

theorem IsUtf8.decodes {cs : List Piece} {ls : List (List Nat)} (h1 : ∀ l ∈ ls, 10 ∉ l) (h2 : cs.flatMap Piece.bytes = ls.flatMap fun l => l ++ [10]) {text : Str}
    (h : IsUtf8 (cs.flatMap Piece.bytes) text) : Decodes utf8 (cs.flatMap Piece.bytes) text := by
  refine ⟨ls, h1, h2, utf8_lines (fun l hl c hc => pieces_bytes cs c ?_) (by rw [← h2]; exact h)⟩
  rw [h2]
  exact List.mem_flatMap.2 ⟨l, hl, by simp [hc]⟩

/-! ## DerivedNormalizationProps.txt -/

def propsPieces : List Piece :=
  Props0.chunks ++ Props1.chunks ++ Props2.chunks ++ Props3.chunks ++ Props4.chunks ++ Props5.chunks ++ Props6.chunks ++ Props7.chunks

/-- The bytes of /repo/unicode/DerivedNormalizationProps.txt. -/
def normalizationPropsTxt : List Nat := propsPieces.flatMap Piece.bytes

theorem propsPieces_ok : AllProps propsPieces := by
  intro c h
  simp only [propsPieces, List.mem_append] at h
  rcases h with ((((((h | h) | h) | h) | h) | h) | h) | h
  · exact Props0.ok c h
  · exact Props1.ok c h
  · exact Props2.ok c h
  · exact Props3.ok c h
  · exact Props4.ok c h
  · exact Props5.ok c h
  · exact Props6.ok c h
  · exact Props7.ok c h

theorem propsPieces_linked : linkedG propsPieces 0 0x1000000 = true := by decide +kernel
theorem propsPieces_total : totalG propsPieces = tableSizes := by decide +kernel

theorem props_lines : ∃ (ls : List (List Nat)) (qs : List Quick), normalizationPropsTxt = ls.flatMap (fun l => l ++ [10]) ∧ (∀ l ∈ ls, 10 ∉ l) ∧ Props13 qs ∧
    ∀ d, Decoder d → Checking (ls.map d) qs :=
  props_checking (propsPieces_total ▸ partsG (fun c hc => Piece.props (propsPieces_ok c hc)) propsPieces_linked)

/-- The file has the format of DerivedNormalizationProps.txt, and says of the four quick checks what the tables do. -/
theorem shipped_props {d : List Nat → Str} (hd : Decoder d) {text : Str} (h : Decodes d normalizationPropsTxt text) :
    ∃ ps qs, Lines text ps ∧ Checking ps qs ∧ Props13 qs := by
  obtain ⟨ls, h1, h2, rfl⟩ := h
  obtain ⟨ls', qs, h3, h4, h5, h6⟩ := props_lines
  rw [← split_unique h1 h4 (h2.symm.trans h3)] at h6
  refine ⟨ls.map d, qs, ⟨?_, by rw [List.flatMap_map]⟩, h6 d hd, h5⟩
  intro l hl
  obtain ⟨x, hx, rfl⟩ := List.mem_map.1 hl
  exact hd.feed x (h1 x hx)

example : ∃ text, Decodes chars normalizationPropsTxt text := by
  obtain ⟨ls, _, h1, h2, _⟩ := props_lines
  exact ⟨_, ls, h2, h1, rfl⟩

/-! ## CompositionExclusions.txt -/

/-- The bytes of /repo/unicode/CompositionExclusions.txt. -/
def compositionExclusionsTxt : List Nat := Exclusions0.chunks.flatMap Piece.bytes

theorem exclPieces_linked : linkedG Exclusions0.chunks 0 81 = true := by decide +kernel
theorem exclPieces_total : totalG Exclusions0.chunks = exclusions.length := by decide +kernel

theorem excl_lines : ∃ ls : List (List Nat), compositionExclusionsTxt = ls.flatMap (fun l => l ++ [10]) ∧ (∀ l ∈ ls, 10 ∉ l) ∧
    ∀ d, Decoder d → Exclusions (ls.map d) exclusions :=
  excl_reading (exclPieces_total ▸ partsG (fun c hc => Piece.excl (Exclusions0.ok c hc)) exclPieces_linked)

/-- The file has the format of CompositionExclusions.txt, and lists the characters of the table. -/
theorem shipped_exclusions {d : List Nat → Str} (hd : Decoder d) {text : Str} (h : Decodes d compositionExclusionsTxt text) :
    ∃ xs, Lines text xs ∧ Exclusions xs exclusions := by
  obtain ⟨ls, h1, h2, rfl⟩ := h
  obtain ⟨ls', h3, h4, h6⟩ := excl_lines
  rw [← split_unique h1 h4 (h2.symm.trans h3)] at h6
  refine ⟨ls.map d, ⟨?_, by rw [List.flatMap_map]⟩, h6 d hd⟩
  intro l hl
  obtain ⟨x, hx, rfl⟩ := List.mem_map.1 hl
  exact hd.feed x (h1 x hx)

example : ∃ text, Decodes chars compositionExclusionsTxt text := by
  obtain ⟨ls, h1, h2, _⟩ := excl_lines
  exact ⟨_, ls, h2, h1, rfl⟩

/-! ## The scripts on the files -/

/-- canonical_combining_classes.py, decomposition.py, recomposition.py and allowed_in_normal_form.py run on the files of the repository emit the functions of
`unicode13`, which the theorems about normalization use. -/
theorem shipped_functions {d : List Nat → Str} (hd : Decoder d) {xtext ptext : Str} (hx : Decodes d compositionExclusionsTxt xtext)
    (hp : Decodes d normalizationPropsTxt ptext) :
    ∃ ccc decomp comp flags, cccText (chars unicodeDataTxt) = .ok ccc ∧ decompText (chars unicodeDataTxt) = .ok decomp ∧
      recompText (chars unicodeDataTxt) xtext = .ok comp ∧ qcText 0x110000 ptext = .ok flags ∧
      (∀ cp, ccc cp = unicode13.ccc cp) ∧ (∀ cp, decomp cp = (unicode13.decomp cp).map (· ++ [0])) ∧
      (∀ s c, comp s c = unicode13.composite s c) ∧ ∀ cp, flags cp = unicode13.flags cp := by
  obtain ⟨es, h1, h2⟩ := shipped_unicode_data
  obtain ⟨ps, qs, h3, h4, h5⟩ := shipped_props hd hp
  obtain ⟨xs, h6, h7⟩ := shipped_exclusions hd hx
  exact datafile13_functions h1 h2 h6 h7 h3 h4 h5

example : ∃ d xtext ptext, Decoder d ∧ Decodes d compositionExclusionsTxt xtext ∧ Decodes d normalizationPropsTxt ptext := by
  obtain ⟨ls, h1, h2, _⟩ := excl_lines
  obtain ⟨ls', _, h3, h4, _⟩ := props_lines
  exact ⟨chars, _, _, latin1, ⟨ls, h2, h1, rfl⟩, ⟨ls', h4, h3, rfl⟩⟩

/-- The texts are those whose UTF-8 form is in the files. -/
theorem shipped_functions_utf8 {xtext ptext : Str} (hx : IsUtf8 compositionExclusionsTxt xtext) (hp : IsUtf8 normalizationPropsTxt ptext) :
    ∃ ccc decomp comp flags, cccText (chars unicodeDataTxt) = .ok ccc ∧ decompText (chars unicodeDataTxt) = .ok decomp ∧
      recompText (chars unicodeDataTxt) xtext = .ok comp ∧ qcText 0x110000 ptext = .ok flags ∧
      (∀ cp, ccc cp = unicode13.ccc cp) ∧ (∀ cp, decomp cp = (unicode13.decomp cp).map (· ++ [0])) ∧
      (∀ s c, comp s c = unicode13.composite s c) ∧ ∀ cp, flags cp = unicode13.flags cp := by
  obtain ⟨ls, h1, h2, _⟩ := excl_lines
  obtain ⟨ls', _, h3, h4, _⟩ := props_lines
  exact shipped_functions utf8_decoder (IsUtf8.decodes h2 h1 hx) (IsUtf8.decodes h4 h3 hp)

/-- The files are in UTF-8. -/
theorem shipped_utf8 : (∃ text, IsUtf8 idnaMappingTxt text) ∧ (∃ text, IsUtf8 normalizationPropsTxt text) ∧ ∃ text, IsUtf8 compositionExclusionsTxt text :=
  ⟨two_pieces (by decide +kernel), two_pieces (by decide +kernel), two_pieces (by decide +kernel)⟩

example : ∃ xtext ptext, IsUtf8 compositionExclusionsTxt xtext ∧ IsUtf8 normalizationPropsTxt ptext := by
  obtain ⟨_, ⟨p, hp⟩, ⟨x, hx⟩⟩ := shipped_utf8
  exact ⟨x, p, hx, hp⟩

end Verif.Shipped
