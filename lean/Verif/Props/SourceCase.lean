import Verif.Proofs.SourceCase
import Verif.Props.SourceText
import Verif.Props.SourceUtf8

/-!
Property C147: the text of `src/charstr.c:344-376`, read as C together with lines 8 to 324, converts strings and parts of strings in place, as C55 says. The bytes are
anywhere in memory, with anything before and behind them; the objects of the file and the other objects keep their contents (`source_encode_memory` says what `withObj` is).
-/

set_option autoImplicit false

namespace Verif.Source

open Verif.Spec.CSource Verif.Spec.Charstr Verif.Charstr

variable {m : Mem} {o : Str} {i : Nat} {a s t : List UInt8}

/-- C147. `charstr_lcase_str` and `charstr_ucase_str`: every character in front of the NUL is converted, nothing else changes, and `s` is returned. -/
theorem source_case_str (ho : o ∉ [c!"case_table", c!"char_class", c!"digit_value"]) (hs : find o m = some (bytes s)) (hd : s.drop i = a ++ 0 :: t) (h0 : 0 ∉ a) :
    Returns (run charstrHeaders caseText c!"charstr_lcase_str" [(strT, .ptr o i)] m)
      ((strT, .ptr o i), charstrMem ++ withObj o (bytes (s.take i ++ a.map lower ++ 0 :: t)) m) ∧
    Returns (run charstrHeaders caseText c!"charstr_ucase_str" [(strT, .ptr o i)] m)
      ((strT, .ptr o i), charstrMem ++ withObj o (bytes (s.take i ++ a.map upper ++ 0 :: t)) m) := by
  have h := case_str a t h0
  rw [run_lcase_str (fresh ho) hs, run_ucase_str (fresh ho) hs, hd, h.1, h.2]
  simp only [converted, List.append_assoc]
  exact ⟨(returns_pure _ _).mpr rfl, (returns_pure _ _).mpr rfl⟩

/-- C147. `charstr_lcase_substr` and `charstr_ucase_substr`: every byte in front of `end` is converted, also behind a NUL, nothing else changes, and `s` is returned. -/
theorem source_case_substr (ho : o ∉ [c!"case_table", c!"char_class", c!"digit_value"]) (hs : find o m = some (bytes s)) (hd : s.drop i = a ++ t) :
    Returns (run charstrHeaders caseText c!"charstr_lcase_substr" [(strT, .ptr o i), (strT, .ptr o ((i + a.length : Nat) : Int))] m)
      ((strT, .ptr o i), charstrMem ++ withObj o (bytes (s.take i ++ a.map lower ++ t)) m) ∧
    Returns (run charstrHeaders caseText c!"charstr_ucase_substr" [(strT, .ptr o i), (strT, .ptr o ((i + a.length : Nat) : Int))] m)
      ((strT, .ptr o i), charstrMem ++ withObj o (bytes (s.take i ++ a.map upper ++ t)) m) := by
  have h := case_substr a t
  rw [run_lcase_substr (fresh ho) hs, run_ucase_substr (fresh ho) hs, hd, h.1, h.2]
  simp only [converted, List.append_assoc]
  exact ⟨(returns_pure _ _).mpr rfl, (returns_pure _ _).mpr rfl⟩

/-- "x", "aB" and NUL, and another object. -/
def example147 : Mem := [(c!"v", bytes [65]), (c!"u", bytes [120, 97, 66, 0, 67])]

example : Returns (run charstrHeaders caseText c!"charstr_ucase_str" [(strT, .ptr c!"u" (1 : Nat))] example147)
    ((strT, .ptr c!"u" (1 : Nat)), charstrMem ++ [(c!"v", bytes [65]), (c!"u", bytes [120, 65, 66, 0, 67])]) :=
  (source_case_str (o := c!"u") (a := [97, 66]) (t := [67]) (s := [120, 97, 66, 0, 67]) (by decide) (by simp [example147, find]) rfl (by decide)).2

/-- From the last character to behind the NUL. -/
example : Returns (run charstrHeaders caseText c!"charstr_lcase_substr" [(strT, .ptr c!"u" (2 : Nat)), (strT, .ptr c!"u" (5 : Nat))] example147)
    ((strT, .ptr c!"u" (2 : Nat)), charstrMem ++ [(c!"v", bytes [65]), (c!"u", bytes [120, 97, 98, 0, 99])]) :=
  (source_case_substr (o := c!"u") (i := 2) (a := [66, 0, 67]) (t := []) (s := [120, 97, 66, 0, 67]) (by decide) (by simp [example147, find]) rfl).1

/-- Without a NUL the text reads past the object. -/
example : run charstrHeaders caseText c!"charstr_lcase_str" [(strT, .ptr c!"v" (0 : Nat))] example147 = liftC (.error .ub) :=
  (run_lcase_str (o := c!"v") (i := 0) (s := [65]) (m := example147) (by decide) (by simp [example147, find])).trans rfl

end Verif.Source
