import Verif.Proofs.SourceUtf8
import Verif.Data.Source.Base64
import Verif.Model.Base64

/-! src/base64.c:8-36: what the text parses to, its tables, and the execution of `base64_encoding_size`. -/

set_option autoImplicit false

namespace Verif.Source

open Verif.Spec.CSource Verif.Base64

abbrev sizeT : T := .int false 64

def sizeE : E := .bin c!"*" (.bin c!"/" (.bin c!"+" (.var c!"binary_size") (lit 2)) (lit 3)) (lit 4)

def sizeBody : S :=
  .seq (.decl sizeT c!"encoding_size" (some sizeE))
    (.seq (.ite (.bin c!"<" (.var c!"encoding_size") (.var c!"binary_size")) (.ret (.unary c!"-" (lit 1))) .skip) (.seq (.ret (.var c!"encoding_size")) .skip))

def entry (n : Int) : E := if n < 0 then .unary c!"-" (lit (-n).toNat) else lit n.toNat

/-- The 255 elements; the one at 127 goes over the end of base64.c:27. -/
def decodingInits : List (List E) :=
  (bitfieldDecoding.take 127).map (fun n => [entry n]) ++ [[.bin c!"-" (entry (-1)) (lit 1)]] ++ ((bitfieldDecoding.drop 128).take 127).map fun n => [entry n]

def alphabet : List Nat := bitfieldEncoding.map UInt8.toNat

def base64Decls : List Decl := [
  .func sizeT c!"base64_encoding_size" [(sizeT, c!"binary_size")] sizeBody,
  .text c!"base64_bitfield_encoding" (some 64) alphabet,
  .array charT c!"base64_bitfield_decoding" (some 256) decodingInits]

theorem base64_parses : (lex base64Tables).bind parse = some base64Decls := by decide +kernel

/-- The headers define nothing that the text uses. -/
def noHeaders : Headers := ⟨fun _ => none, fun _ => none⟩

def decodingRows : List Row := bitfieldDecoding.map fun n => [([], .num n)]

def alphabetRows : List Row := bitfieldEncoding.map fun b => [([], .num (b.toNat : Int))]

def base64Mem : Mem := [(c!"base64_bitfield_decoding", decodingRows), (c!"base64_bitfield_encoding", alphabetRows)]

def base64Types : List (Str × T) := [(c!"base64_bitfield_decoding", charT), (c!"base64_bitfield_encoding", charT)]

theorem base64_objects : objects ⟨⟨noHeaders, [], []⟩, [], []⟩ base64Decls = .ok ⟨⟨noHeaders, [], []⟩, base64Types, base64Mem⟩ := by
  have h1 : rows ⟨noHeaders, [], []⟩ [(charT, [])] decodingInits = .ok (decodingRows.take 255) := ok_of_option (by decide +kernel)
  have h2 : pad [(charT, [])] (some 256) (decodingRows.take 255) = .ok decodingRows := ok_of_option (by decide +kernel)
  have h3 : pad [(charT, [])] (some 64) alphabetRows = .ok alphabetRows := ok_of_option (by decide +kernel)
  have h4 : (alphabet.map fun (n : Nat) => ([([], V.num (n : Int))] : Row)) = alphabetRows := by simp [alphabet, alphabetRows]
  have h5 : alphabet.length = 64 := by decide +kernel
  simp only [objects, base64Decls, members, find, h1, h2, h4, h5, if_true, h3]
  rfl

def base64Fun : List (T × V) → Mem → D ((T × V) × Mem) :=
  invoke ⟨noHeaders, [], []⟩ (fun x => find x base64Types) sizeT [(sizeT, c!"binary_size")] sizeBody

theorem base64_compiles : compile noHeaders base64Decls = .ok ⟨⟨noHeaders, [], [(c!"base64_encoding_size", base64Fun)]⟩, base64Types, base64Mem⟩ := by
  simp only [compile, base64_objects]
  rfl

section
variable {c : Ctx} {ty : Str → Option T}

theorem u64_ops (M : Mem) (n : Nat) (hn : n < 2 ^ 64) :
    binary M c!"+" (sizeT, .num n) (intT, .num (2 : Nat)) = .ok (sizeT, .num ((n + 2) % 2 ^ 64 : Nat)) ∧
    binary M c!"/" (sizeT, .num n) (intT, .num (3 : Nat)) = .ok (sizeT, .num (n / 3 : Nat)) ∧
    binary M c!"*" (sizeT, .num n) (intT, .num (4 : Nat)) = .ok (sizeT, .num (n * 4 % 2 ^ 64 : Nat)) := by
  have h : (n : Int) % 18446744073709551616 = n := by omega
  refine ⟨?_, ?_, ?_⟩
  · simp [binary, isInt, promote, usual, conv, arith, result, h]
  · have h' : ((n : Int) / 3) % 18446744073709551616 = (n : Int) / 3 := by omega
    simp [binary, isInt, promote, usual, conv, arith, result, h, h', Int.tdiv_eq_ediv_of_nonneg]
  · simp [binary, isInt, promote, usual, conv, arith, result, h]

theorem u64_less (M : Mem) (a b : Nat) (ha : a < 2 ^ 64) (hb : b < 2 ^ 64) : binary M c!"<" (sizeT, .num a) (sizeT, .num b) = .ok (flag (decide (a < b))) := by
  have h : (a : Int) % 18446744073709551616 = a := by omega
  have h' : (b : Int) % 18446744073709551616 = b := by omega
  simp [binary, isInt, promote, usual, conv, arith, h, h']

theorem convert_size {n : Nat} (h : n < 2 ^ 64) : convert sizeT (.num n) = .ok (.num n) := by
  have h : (n : Int) % 18446744073709551616 = n := by omega
  simp [convert, conv, h]

theorem size_exec (n : Nat) (hn : n < 2 ^ 64) (M : Mem) : ∃ v : T × V, sizeBody.exec c ty ⟨[(c!"binary_size", sizeT, .num n)], M⟩ = pure (.ret v M) ∧
    convert sizeT v.2 = .ok (.num (if (n + 2) % 2 ^ 64 / 3 * 4 % 2 ^ 64 < n then 2 ^ 64 - 1 else (n + 2) % 2 ^ 64 / 3 * 4 % 2 ^ 64 : Nat)) := by
  have h1 := bin_op (op := c!"+") (by decide) (by decide) (local_eq (c := c) (ty := ty) (M := M) (x := c!"binary_size") (l := [(c!"binary_size", sizeT, .num n)]) (t := sizeT)
    (v := .num n) (by simp [find])) (lit_eq (n := 2) (by decide) _) (u64_ops M n hn).1
  have h2 := bin_op (op := c!"/") (by decide) (by decide) h1 (lit_eq (n := 3) (by decide) _) (u64_ops M _ (by omega)).2.1
  have h3 := bin_op (op := c!"*") (by decide) (by decide) h2 (lit_eq (n := 4) (by decide) _) (u64_ops M _ (by omega)).2.2
  have hk : (n + 2) % 2 ^ 64 / 3 * 4 % 2 ^ 64 < 2 ^ 64 := by omega
  generalize hv : (n + 2) % 2 ^ 64 / 3 * 4 % 2 ^ 64 = k at h3 hk ⊢
  have h4 := decl_eq (t := sizeT) (x := c!"encoding_size") h3 (convert_size hk)
  have h5 := bin_op (op := c!"<") (by decide) (by decide)
    (local_eq (c := c) (ty := ty) (M := M) (x := c!"encoding_size") (l := [(c!"encoding_size", sizeT, .num k), (c!"binary_size", sizeT, .num n)]) (t := sizeT) (v := .num k) (by simp [find]))
    (local_eq (x := c!"binary_size") (t := sizeT) (v := .num n) (by simp [find])) (u64_less M k n hk hn)
  have h6 := local_eq (c := c) (ty := ty) (M := M) (x := c!"encoding_size") (l := [(c!"encoding_size", sizeT, .num k), (c!"binary_size", sizeT, .num n)]) (t := sizeT) (v := .num k)
    (by simp [find])
  unfold sizeBody sizeE
  rw [seq_next h4]
  dsimp only
  by_cases h : k < n
  · have hr : (S.ret (.unary c!"-" (lit 1))).exec c ty ⟨[(c!"encoding_size", sizeT, .num k), (c!"binary_size", sizeT, .num n)], M⟩ = pure (.ret (intT, .num (-1)) M) := by
      simp [S.exec, E.eval, constType, unaryOp, promote, result, map_liftC_ok]
    refine ⟨(intT, .num (-1)), seq_ret ?_, ?_⟩
    · rw [if_then h5 (by rw [flag_truth]; simp [h]), hr]
    · rw [if_pos h]; rfl
  · refine ⟨(sizeT, .num k), ?_, ?_⟩
    · rw [seq_next (s' := ⟨[(c!"encoding_size", sizeT, .num k), (c!"binary_size", sizeT, .num n)], M⟩) (by rw [if_else h5 (by rw [flag_truth]; simp [h])]; rfl)]
      exact seq_ret (ret_eq h6)
    · rw [if_neg h]; exact convert_size hk

end

theorem run_size (n : UInt64) (m : Mem) :
    run noHeaders base64Tables c!"base64_encoding_size" [(sizeT, .num n.toNat)] m = pure ((sizeT, .num (encodingSize n).toNat), base64Mem ++ m) := by
  have hn := n.toNat_lt
  rw [run_eq (g := base64Fun) base64_parses base64_compiles (by simp [find])]
  obtain ⟨v, h1, h2⟩ := size_exec (c := ⟨noHeaders, [], []⟩) (ty := fun x => find x base64Types) n.toNat hn (base64Mem ++ m)
  have hb : bindArgs [(sizeT, c!"binary_size")] [(sizeT, .num n.toNat)] = .ok [(c!"binary_size", sizeT, .num n.toNat)] := by
    have h : (n.toNat : Int) % 18446744073709551616 = n.toNat := by omega
    simp [bindArgs, convert, conv, h]
  have hr := invoke_ret hb h1 h2
  have he : (encodingSize n).toNat = if (n.toNat + 2) % 2 ^ 64 / 3 * 4 % 2 ^ 64 < n.toNat then 2 ^ 64 - 1 else (n.toNat + 2) % 2 ^ 64 / 3 * 4 % 2 ^ 64 := by
    have e : ((n + 2) / 3 * 4).toNat = (n.toNat + 2) % 2 ^ 64 / 3 * 4 % 2 ^ 64 := by
      simp [UInt64.toNat_mul, UInt64.toNat_div, UInt64.toNat_add]
    simp only [encodingSize, UInt64.lt_iff_toNat_lt]
    split <;> rename_i h <;> rw [e] at h
    · rw [if_pos h]; rfl
    · rw [if_neg h, e]
  rw [he]
  exact hr

end Verif.Source
