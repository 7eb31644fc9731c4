import Verif.Model.IdnaGen
import Verif.Model.Charstr
import Verif.Model.Utf8

/-!
Model of `main` of `/repo/src/gen_idna_table.c` (lines 116-191): reading `IdnaMappingTable.txt`.

The file is given by its lines as `getline` delivers them, with the NUL. The contents of `buffer` before it is written are a parameter.
`assert` is active. The field `idna2008` is stored but never used and is left out, as is the release of memory.
-/

set_option autoImplicit false

namespace Verif.IdnaGen
open Verif.Charstr Verif.Utf8

/-- libc `isspace` in the C locale. -/
def isSpace (c : UInt8) : Bool := c == 32 || (decide (9 ≤ c) && decide (c ≤ 13))

/-- The value of a digit in base 16. -/
def hexDigit (c : UInt8) : Option Nat :=
  if 48 ≤ c ∧ c ≤ 57 then some (c.toNat - 48)
  else if 65 ≤ c ∧ c ≤ 70 then some (c.toNat - 55)
  else if 97 ≤ c ∧ c ≤ 102 then some (c.toNat - 87)
  else none

/-- libc `strtol`: the white space. -/
def skipSpace : List UInt8 → C (List UInt8)
  | [] => .error .ub
  | c :: s => if isSpace c then skipSpace s else .ok (c :: s)

/-- libc `strtol`: the sign. -/
def skipSign : List UInt8 → Bool × List UInt8
  | 45 :: s => (true, s)
  | 43 :: s => (false, s)
  | s => (false, s)

/-- libc `strtol` in base 16: the prefix `0x`, if a digit follows. -/
def skip0x (s : List UInt8) : List UInt8 :=
  match s with
  | 48 :: x :: d :: r => if (x = 120 ∨ x = 88) ∧ (hexDigit d).isSome then d :: r else s
  | _ => s

/-- libc `strtol`: the digits. -/
def hexRun : List UInt8 → Nat → C Nat
  | [], _ => .error .ub
  | c :: s, v => match hexDigit c with
    | some d => hexRun s (16 * v + d)
    | none => .ok v

/-- libc `strtol(s, NULL, 16)` for a `long` of 64 bits; `errno` is not looked at. -/
def strtol16 (s : List UInt8) : C Int := do
  let s ← skipSpace s
  let (neg, s) := skipSign s
  let v ← hexRun (skip0x s) 0
  pure (if neg then (if v ≤ 2 ^ 63 then -(v : Int) else -2 ^ 63) else if v < 2 ^ 63 then (v : Int) else 2 ^ 63 - 1)

/-- Conversion of a `long` to `int`, as GCC defines it. -/
def toInt (x : Int) : Int := if x % 2 ^ 32 < 2 ^ 31 then x % 2 ^ 32 else x % 2 ^ 32 - 2 ^ 32

/-- gen_idna_table.c:14-16: an element of `table`; `none` is NULL. -/
structure Entry where
  status : Option (List UInt8)
  mapping : Option (List UInt8)

/-- The array `table`; its elements are those with an index below `N_CP`. -/
abbrev Table := Nat → Entry

/-- gen_idna_table.c:142-146: the loop over the code points of a mapping. `q` is an offset into `buffer`, `end` is at 99. -/
def encodeMapping : List (List UInt8) → List UInt8 → Nat → C (Nat × List UInt8)
  | [], buffer, q => .ok (q, buffer)
  | a :: as, buffer, q => match strtol16 a with
    | .error e => .error e
    | .ok v => match encode (toInt v) buffer q (some 99) with
      | .error e => .error e
      | .ok (none, _) => .error .abort
      | .ok (some q, buffer) => encodeMapping as buffer q

/-- gen_idna_table.c:138-150: `buffer`, if there is a mapping. -/
def readMapping (buffer : List UInt8) : Option (List UInt8) → C (Option (List UInt8))
  | none => .ok none
  | some mapping => do
    let codepoints ← splitAtoms mapping
    let (q, buffer) ← encodeMapping codepoints buffer 0
    let buffer ← wr buffer q 0
    pure (some buffer)

/-- gen_idna_table.c:153-160: the loop over the code points from `cp` on, `k` of them. -/
def fillRange (status : List UInt8) (mapping : Option (List UInt8)) : Table → Nat → Int → C Table
  | table, 0, _ => .ok table
  | table, k + 1, cp =>
    if cp < 0 ∨ cp ≥ 0x110000 then .error .ub
    else if (table cp.toNat).status.isSome then .error .abort
    else match strip (some status) with
      | .error e => .error e
      | .ok st => match dupstr mapping with
        | .error e => .error e
        | .ok m => fillRange status mapping (fun i => if i = cp.toNat then ⟨st, m⟩ else table i) k (cp + 1)

/-- gen_idna_table.c:122-173: one line. -/
def readLine (buffer : List UInt8) (table : Table) (line : List UInt8) : C Table := do
  match ← split 35 1 line with
  | [] => throw .ub
  | body :: _ => match ← split 59 (2 ^ 32 - 1) body with
    | [] => throw .abort
    | [_] => pure table
    | cpRange :: status :: rest => match ← splitStr cpRange [46, 46, 0] (2 ^ 32 - 1) with
      | [] => throw .ub
      | first :: more =>
        let last ← dup (more.headD first)
        let mapping ← readMapping buffer rest.head?
        let start ← strtol16 first
        let finish ← strtol16 last
        fillRange status mapping table (toInt finish - toInt start + 1).toNat (toInt start)

/-- gen_idna_table.c:121-174: the loop over the lines. -/
def readLines (buffer : Nat → List UInt8) : Table → List (List UInt8) → C Table
  | table, [] => .ok table
  | table, line :: lines => match readLine (buffer lines.length) table line with
    | .error e => .error e
    | .ok table => readLines buffer table lines

/-- gen_idna_table.c:176-177: the last check, for the code points below `n`. -/
def complete (table : Table) : Nat → Bool
  | 0 => true
  | n + 1 => complete table n && (table n).status.isSome

/-- The zero-initialized table. -/
def empty : Table := fun _ => ⟨none, none⟩

/-- gen_idna_table.c:116-177: the table made of a file. -/
def readTable (buffer : Nat → List UInt8) (lines : List (List UInt8)) : C Table := do
  let table ← readLines buffer empty lines
  if complete table 0x110000 then pure table else throw .abort

/-- A NUL-terminated string as a `String`, for the comparison with the names of the statuses. -/
def text (s : List UInt8) : String := String.ofList ((s.takeWhile (· ≠ 0)).map fun c => Char.ofNat c.toNat)

/-- `table[cp].status` -/
def Table.status (table : Table) (cp : Nat) : String :=
  match (table cp).status with
  | some s => text s
  | none => ""

/-- `table[cp].mapping`; NULL and the empty string are not told apart (line 78). -/
def Table.mapping (table : Table) (cp : Nat) : List UInt8 :=
  match (table cp).mapping with
  | some m => m.takeWhile (· ≠ 0)
  | none => []

/-- What the program writes: the predicates and the mappings. -/
structure Emitted where
  tables : Tables
  code : MapCode

/-- gen_idna_table.c:116-191 `main` -/
def main (buffer : Nat → List UInt8) (lines : List (List UInt8)) : C Emitted := do
  let table ← readTable buffer lines
  let tables ← generate 0x110000 table.status
  pure { tables, code := generateMappings 0x110000 table.mapping }

end Verif.IdnaGen
