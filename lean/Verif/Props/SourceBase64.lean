import Verif.Proofs.SourceBase64
import Verif.Props.Base64

/-!
Property C148: the text of `src/base64.c:8-36`, read as C, does what C40 says of `base64_encoding_size`, and its two tables are what RFC 4648 and the header say, but for the
two elements of the decoding table that C39 names: the comma that is missing at the end of line 27 is in the text.
-/

set_option autoImplicit false

namespace Verif.Source

open Verif.Spec.CSource Verif.Spec.Base64 Verif.Base64

/-- Element `i` of the array `o` of integers. -/
def elementAt (M : Mem) (o : Str) (i : Nat) : Option V := (find o M).bind fun rows => rows[i]?.bind fun r => find [] r

/-- C148. A call of `base64_encoding_size`, as the text says: the result is the number of characters if `size_t` has it, and otherwise `(size_t) -1`. The tables
are in memory then, and the objects of the caller as they were. -/
theorem source_encoding_size (n : UInt64) (m : Mem) :
    Returns (run noHeaders base64Tables c!"base64_encoding_size" [(sizeT, .num n.toNat)] m)
      ((sizeT, .num (if (n.toNat + 2) / 3 * 4 < 2 ^ 64 then (n.toNat + 2) / 3 * 4 else 2 ^ 64 - 1 : Nat)), base64Mem ++ m) := by
  rw [run_size, base64_encoding_size_exact]
  exact (returns_pure _ _).mpr rfl

/-- C148. The tables, in the memory after any call that returns: the alphabet of RFC 4648, and the decoding table, which has 256 elements and is as documented but for
127 and 255. -/
theorem source_base64_tables (n : UInt64) (m : Mem) {r : T × V} {M : Mem}
    (h : Returns (run noHeaders base64Tables c!"base64_encoding_size" [(sizeT, .num n.toNat)] m) (r, M)) :
    (∀ i < 64, ∃ b : UInt8, elementAt M c!"base64_bitfield_encoding" i = some (.num b.toNat) ∧ docDecoding b = i) ∧
    (∀ b : UInt8, ∃ n : Int, elementAt M c!"base64_bitfield_decoding" b.toNat = some (.num n) ∧ (b ≠ 127 → b ≠ 255 → n = docDecoding b) ∧
      (b = 127 → n = -2) ∧ (b = 255 → n = 0)) ∧
    elementAt M c!"base64_bitfield_encoding" 64 = none ∧ elementAt M c!"base64_bitfield_decoding" 256 = none := by
  rw [run_size] at h
  obtain rfl : M = base64Mem ++ m := (Prod.mk.inj ((returns_pure _ _).mp h)).2.symm
  have f1 : find c!"base64_bitfield_encoding" (base64Mem ++ m) = some alphabetRows := by simp [base64Mem, find]
  have f2 : find c!"base64_bitfield_decoding" (base64Mem ++ m) = some decodingRows := by simp [base64Mem, find]
  have l1 : bitfieldEncoding.length = 64 := by decide +kernel
  have l2 : bitfieldDecoding.length = 256 := by decide +kernel
  have hd : ∀ i : Fin 64, docDecoding (bitfieldEncoding.getD i 0) = (i : Nat) := by decide +kernel
  refine ⟨fun i hi => ⟨bitfieldEncoding[i], ?_, ?_⟩, fun b => ⟨decodingOf b, ?_, base64_decoding_table_partial b, ?_, ?_⟩, ?_, ?_⟩
  · simp [elementAt, f1, alphabetRows, l1, hi, find]
  · have := hd ⟨i, hi⟩
    simpa [List.getD, l1, hi] using this
  · have hb := b.toNat_lt
    have h : b.toNat < bitfieldDecoding.length := by omega
    simp [elementAt, f2, decodingRows, decodingOf, List.getD, h, find]
  · rintro rfl; decide +kernel
  · rintro rfl; decide +kernel
  · simp [elementAt, f1, alphabetRows, l1]
  · simp [elementAt, f2, decodingRows, l2]

example : Returns (run noHeaders base64Tables c!"base64_encoding_size" [(sizeT, .num (10 : UInt64).toNat)] [(c!"u", bytes [1])])
    ((sizeT, .num (16 : Nat)), base64Mem ++ [(c!"u", bytes [1])]) := source_encoding_size 10 _

example : Returns (run noHeaders base64Tables c!"base64_encoding_size" [(sizeT, .num (13835058055282163713 : UInt64).toNat)] [])
    ((sizeT, .num (2 ^ 64 - 1 : Nat)), base64Mem) := source_encoding_size 13835058055282163713 []

example : elementAt base64Mem c!"base64_bitfield_encoding" 64 = none := (source_base64_tables 10 [] (source_encoding_size 10 [])).2.2.1

end Verif.Source
