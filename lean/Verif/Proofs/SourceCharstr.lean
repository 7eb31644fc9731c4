import Verif.Proofs.Source
import Verif.Data.Source.Charstr
import Verif.Model.Charstr

/-! src/charstr.c:8-324: what the text parses to, and its tables. -/

set_option autoImplicit false

namespace Verif.Source

open Verif.Spec.CSource Verif.Charstr

abbrev charT : T := .int true 8
abbrev strT : T := .ptr (.int true 8)

/-- `case_table[*(unsigned char *) x++].lower` -/
def lowerOf (x : Str) : E := .field (.index (.var c!"case_table") (.unary c!"*" (.cast (.ptr (.int false 8)) (.incr 1 (.var x))))) c!"lower"

/-- charstr.c:86-91 -/
def cmpRound : S :=
  .seq (.decl (.int false 8) c!"ac" (some (lowerOf c!"a"))) (.seq (.decl (.int false 8) c!"bc" (some (lowerOf c!"b")))
    (.seq (.ite (.bin c!"<" (.var c!"ac") (.var c!"bc")) (.ret (.unary c!"-" (.num 1 false false))) .skip)
      (.seq (.ite (.bin c!">" (.var c!"ac") (.var c!"bc")) (.ret (.num 1 false false)) .skip) .skip)))

def cmpEnd : S := .seq (.ite (.unary c!"*" (.var c!"b")) (.ret (.unary c!"-" (.num 1 false false))) .skip) (.seq (.ret (.num 0 false false)) .skip)

def cmpBody : S := .seq (.while (.unary c!"*" (.var c!"a")) cmpRound) cmpEnd

def ncmpEnd : S :=
  .seq (.ite (.bin c!"&&" (.var c!"n") (.unary c!"*" (.var c!"b"))) (.ret (.unary c!"-" (.num 1 false false))) .skip) (.seq (.ret (.num 0 false false)) .skip)

def ncmpBody : S := .seq (.for (.bin c!"&&" (.var c!"n") (.unary c!"*" (.var c!"a"))) (.incr (-1) (.var c!"n")) cmpRound) ncmpEnd

def tableBody (x : Str) : S := .seq (.ret (.index (.var x) (.cast (.int false 8) (.var c!"c")))) .skip

def caseBody (x : Str) : S := .seq (.ret (.field (.index (.var c!"case_table") (.cast (.int false 8) (.var c!"c"))) x)) .skip

/-- `while (*prefix) if (a != b) return NULL; return s;` -/
def prefixBody (a b : E) : S :=
  .seq (.while (.unary c!"*" (.var c!"prefix")) (.ite (.bin c!"!=" a b) (.ret (.var c!"NULL")) .skip)) (.seq (.ret (.var c!"s")) .skip)

def next (x : Str) : E := .unary c!"*" (.incr 1 (.var x))

def skipBody : S := prefixBody (next c!"s") (next c!"prefix")

def caseSkipBody : S := prefixBody (.call1 c!"charstr_lcase_char" (next c!"s")) (.call1 c!"charstr_lcase_char" (next c!"prefix"))

def twice (f : Str) : S := .seq (.ret (.call2 f (.var c!"s") (.var c!"prefix"))) .skip

def endsBody : S :=
  .seq (.decl (.int false 64) c!"len" (some (.call1 c!"strlen" (.var c!"s")))) (.seq (.decl (.int false 64) c!"suffix_len" (some (.call1 c!"strlen" (.var c!"suffix"))))
    (.seq (.ite (.bin c!"<" (.var c!"len") (.var c!"suffix_len")) (.ret (.var c!"false")) .skip)
      (.seq (.ret (.unary c!"!" (.call2 c!"strcmp" (.bin c!"-" (.bin c!"+" (.var c!"s") (.var c!"len")) (.var c!"suffix_len")) (.var c!"suffix")))) .skip)))

def caseMembers : List (T × Str) := [(.int true 8, c!"lower"), (.int true 8, c!"upper")]

def caseInits : List (List E) := caseTable.map fun r => [.num r.1.toNat false false, .num r.2.toNat false false]

def digitInits : List (List E) := digitTable.map fun d => [.num d false false]

/-- `A | B | C` -/
def flags : List Str → E
  | [] => .num 0 false false
  | x :: xs => xs.foldl (fun e y => .bin c!"|" e (.var (c!"CHARSTR_" ++ y))) (.var (c!"CHARSTR_" ++ x))

/-- charstr.c:114-241, runs of equal elements. -/
def classRuns : List (Nat × List Str) := [
  (8, [c!"CONTROL"]), (1, [c!"CONTROL", c!"LF"]), (1, [c!"CONTROL", c!"HT"]), (1, [c!"CONTROL", c!"FF"]), (1, [c!"CONTROL", c!"CR"]), (20,
  [c!"CONTROL"]), (1, [c!"PRINT", c!"SPACE"]), (15, [c!"PRINT"]), (8, [c!"PRINT", c!"DIGIT", c!"HEX", c!"OCTAL"]), (2, [c!"PRINT", c!"DIGIT", c!"HEX"]),
  (7, [c!"PRINT"]), (6, [c!"PRINT", c!"UPPER", c!"HEX"]), (20, [c!"PRINT", c!"UPPER"]), (4, [c!"PRINT"]), (1, [c!"PRINT", c!"UNDER"]), (1, [c!"PRINT"]),
  (6, [c!"PRINT", c!"LOWER", c!"HEX"]), (20, [c!"PRINT", c!"LOWER"]), (4, [c!"PRINT"]), (1, [c!"CONTROL"])]

def classInits : List (List E) := classRuns.flatMap fun r => List.replicate r.1 [flags r.2]

abbrev prefixParams : List (T × Str) := [(strT, c!"s"), (strT, c!"prefix")]
abbrev cParams : List (T × Str) := [(charT, c!"c")]

def charstrDecls : List Decl := [
  .struct c!"case_table" caseMembers,
  .array (.struct c!"case_table") c!"case_table" (some 256) caseInits,
  .func (.int true 32) c!"charstr_case_cmp" [(strT, c!"a"), (strT, c!"b")] cmpBody,
  .func (.int true 32) c!"charstr_ncase_cmp" [(strT, c!"a"), (strT, c!"b"), (.int false 64, c!"n")] ncmpBody,
  .array (.int false 64) c!"char_class" (some 256) classInits,
  .func (.int false 64) c!"charstr_char_class" cParams (tableBody c!"char_class"),
  .func charT c!"charstr_lcase_char" cParams (caseBody c!"lower"),
  .func charT c!"charstr_ucase_char" cParams (caseBody c!"upper"),
  .func strT c!"charstr_skip_prefix" prefixParams skipBody,
  .func strT c!"charstr_case_starts_with" prefixParams (twice c!"charstr_skip_prefix"),
  .func strT c!"charstr_case_skip_prefix" prefixParams caseSkipBody,
  .func strT c!"charstr_ncase_starts_with" prefixParams (twice c!"charstr_case_skip_prefix"),
  .func .bool c!"charstr_ends_with" [(strT, c!"s"), (strT, c!"suffix")] endsBody,
  .array charT c!"digit_value" (some 256) digitInits,
  .func (.int false 32) c!"charstr_digit_value" cParams (tableBody c!"digit_value")]

theorem charstr_parses : (lex charstr).bind parse = some charstrDecls := by decide +kernel

/-- charstr.h:34-46 -/
def classFlags : List (Str × Int) := [(c!"CONTROL", 0x0001), (c!"DIGIT", 0x0002), (c!"LOWER", 0x0004), (c!"UPPER", 0x0008), (c!"HT", 0x0010), (c!"LF", 0x0020),
  (c!"FF", 0x0040), (c!"CR", 0x0080), (c!"SPACE", 0x0100), (c!"OCTAL", 0x0200), (c!"HEX", 0x0400), (c!"UNDER", 0x0800), (c!"PRINT", 0x1000)]

/-- What charstr.c takes from the headers: the flags of charstr.h and NULL of stddef.h. -/
def charstrHeaders : Headers where
  const x :=
    if x = c!"NULL" then some (.ptr .void, .null)
    else if x.take 8 = c!"CHARSTR_" then (find (x.drop 8) classFlags).map fun n => (.int true 32, .num n)
    else none
  struct _ := none

/-- The value of a byte as a `char`, which is signed. -/
def schar (b : UInt8) : Int := Int.bmod b.toNat 256

def caseRows : List Row := caseTable.map fun r => [(c!"lower", .num (schar r.1)), (c!"upper", .num (schar r.2))]

def classRows : List Row := classTable.map fun (n : Nat) => [([], .num (n : Int))]

def digitRows : List Row := digitTable.map fun (n : Nat) => [([], .num (n : Int))]

def charstrMem : Mem := [(c!"digit_value", digitRows), (c!"char_class", classRows), (c!"case_table", caseRows)]

def charstrTypes : List (Str × T) := [(c!"digit_value", charT), (c!"char_class", .int false 64), (c!"case_table", .struct c!"case_table")]

def charstrStructs : List (Str × List (T × Str)) := [(c!"case_table", caseMembers)]

theorem ok_of_option {α : Type} {x : C α} {a : α} (h : x.toOption = some a) : x = .ok a := by
  cases x with
  | error e => nomatch h
  | ok b => exact congrArg _ (Option.some.inj h)

theorem case_rows : rows ⟨charstrHeaders, charstrStructs, []⟩ caseMembers caseInits = .ok caseRows := ok_of_option (by decide +kernel)

theorem case_pad : pad caseMembers (some 256) caseRows = .ok caseRows := ok_of_option (by decide +kernel)

theorem class_rows : rows ⟨charstrHeaders, charstrStructs, []⟩ [(.int false 64, [])] classInits = .ok (classRows.take 128) := ok_of_option (by decide +kernel)

theorem class_pad : pad [(.int false 64, [])] (some 256) (classRows.take 128) = .ok classRows := ok_of_option (by decide +kernel)

theorem digit_rows : rows ⟨charstrHeaders, charstrStructs, []⟩ [(charT, [])] digitInits = .ok digitRows := ok_of_option (by decide +kernel)

theorem digit_pad : pad [(charT, [])] (some 256) digitRows = .ok digitRows := ok_of_option (by decide +kernel)

theorem charstr_objects : objects ⟨⟨charstrHeaders, [], []⟩, [], []⟩ charstrDecls = .ok ⟨⟨charstrHeaders, charstrStructs, []⟩, charstrTypes, charstrMem⟩ := by
  have h1 : rows ⟨charstrHeaders, [(c!"case_table", caseMembers)], []⟩ caseMembers caseInits = .ok caseRows := case_rows
  have h2 : rows ⟨charstrHeaders, [(c!"case_table", caseMembers)], []⟩ [(.int false 64, [])] classInits = .ok (classRows.take 128) := class_rows
  have h3 : rows ⟨charstrHeaders, [(c!"case_table", caseMembers)], []⟩ [(charT, [])] digitInits = .ok digitRows := digit_rows
  simp only [objects, charstrDecls, members, find, ↓reduceIte, h1, case_pad, h2, class_pad, h3, digit_pad]
  rfl

end Verif.Source
