import Verif.Proofs.IdnaRead

/-!
# C98: reading `IdnaMappingTable.txt` (gen_idna_table.c, `main`)

The specification is the format of the file (Spec/IdnaTable.lean).
-/

set_option autoImplicit false

namespace Verif.IdnaGen
open Verif.Spec.IdnaTable Verif.Charstr
open Verif.Spec.Charstr (Stripped Atoms hexValue)
open Verif.Spec.Unicode (encs)

/-- The lines about a code point. -/
def About (ls : List Line) (cp : Nat) : List Line := ls.filter fun l => decide (l.About cp)

/-- C98: if just one line is about each code point, the generator records the status of that line, and its mapping in UTF-8. -/
theorem idna_read_exact {lines : List (List UInt8)} {ls : List Line} (h : File lines ls) (hok : ∀ l ∈ ls, l.Ok) {buffer : Nat → List UInt8}
    (hb : ∀ n, (buffer n).length = 100) (hone : ∀ cp, cp < 0x110000 → (About ls cp).length = 1) :
    ∃ t, readTable buffer (lines.map (· ++ [0])) = .ok t ∧ (∀ cp, 0x110000 ≤ cp → t cp = ⟨none, none⟩) ∧
      ∀ l ∈ ls, ∀ cp, l.About cp → (t cp).status = some (l.status ++ [0]) ∧ (t cp).mapping = l.mapping.map (encs · ++ [0]) := by
  obtain ⟨t, h1, h2, h3⟩ := (readTable_file h hok hb).1 hone
  exact ⟨t, h1, h3, fun l hl cp ha => by rw [h2 l hl cp ha]; exact ⟨rfl, rfl⟩⟩

/-- C98: if there is no line about a code point, or more than one, the generator stops with a failed assertion. -/
theorem idna_read_rejects {lines : List (List UInt8)} {ls : List Line} (h : File lines ls) (hok : ∀ l ∈ ls, l.Ok) {buffer : Nat → List UInt8}
    (hb : ∀ n, (buffer n).length = 100) (hone : ∃ cp, cp < 0x110000 ∧ (About ls cp).length ≠ 1) :
    readTable buffer (lines.map (· ++ [0])) = .error .abort ∧ main buffer (lines.map (· ++ [0])) = .error .abort := by
  have := (readTable_file h hok hb).2 hone
  exact ⟨this, by simp only [main, this]; rfl⟩

/-! A file for which the hypotheses hold. -/

def ascii (s : String) : List UInt8 := s.toList.map fun c => UInt8.ofNat c.toNat

/-- Numbers are read from left to right. -/
theorem hex_of {s : List UInt8} {v : Nat} (h : s ≠ [] ∧ s.foldl (fun (a : Option Nat) c => match a, hexValue c with
    | some a, some d => some (16 * a + d)
    | _, _ => none) (some 0) = some v) : Hex s v := by
  obtain ⟨hne, h⟩ := h
  induction s using List.reverseRecOn generalizing v with
  | nil => exact absurd rfl hne
  | append_singleton s c ih =>
    rw [List.foldl_append, List.foldl_cons, List.foldl_nil] at h
    generalize hx : s.foldl _ (some 0) = x at h
    cases x with
    | none => cases h
    | some a =>
      cases hc : hexValue c with
      | none => simp [hc] at h
      | some d =>
        simp only [hc, Option.some.injEq] at h
        subst h
        by_cases hs : s = []
        · subst hs
          simp only [List.foldl_nil, Option.some.injEq] at hx
          subst hx
          simpa using Hex.one c d hc
        · exact .more s a c d (ih hs hx) hc

def sampleFile : List (List UInt8) :=
  [ascii "# Status\n", ascii "\n", ascii "0000..0040    ; valid                 # 1.1\n", ascii "0041          ; mapped ; 0061 0301     # 1.1  A\n",
   ascii "0042..10FFFF  ; valid ;; NV8\n"]

def sampleLines : List Line := [⟨0, 0x40, ascii "valid", none⟩, ⟨0x41, 0x41, ascii "mapped", some [0x61, 0x301]⟩, ⟨0x42, 0x10FFFF, ascii "valid", some []⟩]

theorem sample_file : File sampleFile sampleLines := by
  refine .silent _ _ _ ⟨[], ascii "# Status\n", rfl, by decide, by decide, by decide, by decide⟩ <|
    .silent _ _ _ ⟨ascii "\n", [], rfl, by decide, by decide, by decide, by decide⟩ <| .line _ _ _ _ ?_ <| .line _ _ _ _ ?_ <| .line _ _ _ _ ?_ .nil
  · refine ⟨ascii "0000..0040    ; valid                 ", ascii "# 1.1\n", ascii "0000..0040    ", ascii " valid                 ", [], by decide,
      by decide, by decide, by decide, by decide, by decide, by decide, ?_, ?_, by decide, .inl ⟨rfl, rfl⟩⟩
    · exact ⟨ascii "0000..0040", ⟨[], ascii "    ", by decide, by decide, by decide, by decide, by decide⟩,
        .inr ⟨ascii "0000", ascii "0040", by decide, hex_of (by decide), hex_of (by decide)⟩⟩
    · exact ⟨ascii " ", ascii "                 ", by decide, by decide, by decide, by decide, by decide⟩
  · refine ⟨ascii "0041          ; mapped ; 0061 0301     ", ascii "# 1.1  A\n", ascii "0041          ", ascii " mapped ", [ascii " 0061 0301     "], by decide,
      by decide, by decide, by decide, by decide, by decide, by decide, ?_, ?_, by decide, .inr ⟨_, [], _, rfl, rfl, ?_⟩⟩
    · exact ⟨ascii "0041", ⟨[], ascii "          ", by decide, by decide, by decide, by decide, by decide⟩, .inl ⟨hex_of (by decide), rfl⟩⟩
    · exact ⟨ascii " ", ascii " ", by decide, by decide, by decide, by decide, by decide⟩
    · refine ⟨[ascii "0061", ascii "0301"], ?_, .cons (hex_of (by decide)) (.cons (hex_of (by decide)) .nil)⟩
      exact .atom (ascii " ") (ascii "0061") (ascii " 0301     ") _ (by decide) (by decide) (by decide) (by decide)
        (.atom (ascii " ") (ascii "0301") (ascii "     ") _ (by decide) (by decide) (by decide) (by decide) (.done _ (by decide)))
  · refine ⟨ascii "0042..10FFFF  ; valid ;; NV8\n", [], ascii "0042..10FFFF  ", ascii " valid ", [[], ascii " NV8\n"], by decide,
      by decide, by decide, by decide, by decide, by decide, by decide, ?_, ?_, by decide, .inr ⟨[], _, _, rfl, rfl, ?_⟩⟩
    · exact ⟨ascii "0042..10FFFF", ⟨[], ascii "  ", by decide, by decide, by decide, by decide, by decide⟩,
        .inr ⟨ascii "0042", ascii "10FFFF", by decide, hex_of (by decide), hex_of (by decide)⟩⟩
    · exact ⟨ascii " ", ascii " ", by decide, by decide, by decide, by decide, by decide⟩
    · exact ⟨[], .done _ (by decide), .nil⟩

theorem sample_ok : (∀ l ∈ sampleLines, l.Ok) ∧ ∀ cp, cp < 0x110000 → (About sampleLines cp).length = 1 := by
  constructor
  · intro l hl
    simp only [sampleLines, List.mem_cons, List.not_mem_nil, or_false] at hl
    rcases hl with rfl | rfl | rfl <;> refine ⟨by decide, by decide, ?_⟩ <;> simp [Spec.Utf8.IsScalar] <;> decide
  · intro cp hcp
    simp only [About, sampleLines, List.filter_cons, List.filter_nil, Line.About]
    by_cases h1 : cp ≤ 0x40
    · have a : ¬ 65 ≤ cp := by omega
      have b : ¬ 66 ≤ cp := by omega
      simp [h1, a, b]
    · by_cases h2 : cp = 0x41
      · simp [h2]
      · have a : ¬ cp ≤ 65 := by omega
        have b : 66 ≤ cp ∧ cp ≤ 1114111 := by omega
        simp [h1, a, b]

/-- The sample is read. -/
example (buffer : Nat → List UInt8) (hb : ∀ n, (buffer n).length = 100) :
    ∃ t, readTable buffer (sampleFile.map (· ++ [0])) = .ok t ∧ (t 0x41).status = some (ascii "mapped" ++ [0]) ∧
      (t 0x41).mapping = some [0x61, 0xCC, 0x81, 0] ∧ (t 0x1234).status = some (ascii "valid" ++ [0]) := by
  obtain ⟨t, h1, _, h2⟩ := idna_read_exact sample_file sample_ok.1 hb sample_ok.2
  refine ⟨t, h1, (h2 ⟨0x41, 0x41, ascii "mapped", some [0x61, 0x301]⟩ (by simp [sampleLines]) 0x41 ⟨le_refl _, le_refl _⟩).1, ?_, (h2 ⟨0x42, 0x10FFFF, ascii "valid", some []⟩ (by simp [sampleLines]) 0x1234 ⟨?_, ?_⟩).1⟩
  · rw [(h2 ⟨0x41, 0x41, ascii "mapped", some [0x61, 0x301]⟩ (by simp [sampleLines]) 0x41 ⟨le_refl _, le_refl _⟩).2]; decide
  · simp
  · simp

/-- Without its last line it is rejected. -/
example (buffer : Nat → List UInt8) (hb : ∀ n, (buffer n).length = 100) : main buffer ([] : List (List UInt8)) = .error .abort :=
  (idna_read_rejects (lines := []) (ls := []) .nil (by simp) hb ⟨0, by omega, by simp [About]⟩).2

/-- The status a line gives to a code point of an empty table. -/
def statusAfter (line : List UInt8) (cp : Nat) : Option (Option (List UInt8)) :=
  match readLine (List.replicate 100 0) empty (line ++ [0]) with
  | .ok t => some (t cp).status
  | .error _ => none

/-- What is not in the format is not noticed: a line that does not begin with a number sets the status of U+0000 or of what its first letters
give in hexadecimal, and a carriage return becomes part of the status (compare `char_class_wrong`). -/
theorem idna_read_lenient :
    statusAfter (ascii "zero;status\n") 0 = some (some (ascii "status" ++ [0])) ∧
    statusAfter (ascii "code point;status\n") 0xC = some (some (ascii "status" ++ [0])) ∧
    statusAfter (ascii "0041;valid\r\n") 0x41 = some (some (ascii "valid\r" ++ [0])) := by
  decide +kernel

end Verif.IdnaGen
