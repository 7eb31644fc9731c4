import Verif.Base.Outcome

/-!
Model of `/repo/src/categorize.py`, the generator of `charstr_unicode_category`, and of the C code it emits. A line of `UnicodeData.txt` is
given by its code point, whether its description ends in `, First>` or `, Last>`, and its category; splitting the line into fields is in
`Model/PyGen.lean`. A failed Python `assert` and an index outside the table are `Err.abort`. The categories are of any type `κ`; `Cn` is the one for
unassigned code points.
-/

namespace Verif.Categorize

/-- How the description of a line ends (categorize.py:14, 22). -/
inductive Kind
  | plain
  | first
  | last
  deriving DecidableEq, Repr

/-- One line of the data (categorize.py:12-13). -/
structure Rec (κ : Type) where
  cp : Nat
  kind : Kind
  cat : κ
  deriving DecidableEq, Repr

variable {κ : Type} [DecidableEq κ]

/-- categorize.py:17-19: `for n in range(n, stop)`; `k` is `stop - n`. -/
def fill (table : List (Option κ)) (cat : κ) : Nat → Nat → C (List (Option κ))
  | _, 0 => .ok table
  | n, k + 1 => match table[n]? with
    | some none => fill (table.set n (some cat)) cat (n + 1) k
    | _ => .error .abort

/-- categorize.py:24 `table[codepoint] = category`. -/
def store (table : List (Option κ)) (r : Rec κ) : C (List (Option κ)) :=
  if r.cp < table.length then .ok (table.set r.cp (some r.cat)) else .error .abort

/-- categorize.py:11-26: the loop over the lines. `start` is `prev_cp + 1`, `rangeStart` is `range_start`. -/
def readLines : List (Rec κ) → List (Option κ) → Nat → Option κ → C (List (Option κ))
  | [], table, _, rangeStart => if rangeStart = none then .ok table else .error .abort
  | r :: rs, table, start, rangeStart =>
    match r.kind with
    | .last =>
      if rangeStart = some r.cat then
        match fill table r.cat start (r.cp - start) with
        | .error e => .error e
        | .ok table => match store table r with
          | .error e => .error e
          | .ok table => readLines rs table (r.cp + 1) none
      else .error .abort
    | .first =>
      if rangeStart = none then
        match store table r with
        | .error e => .error e
        | .ok table => readLines rs table (r.cp + 1) (some r.cat)
      else .error .abort
    | .plain =>
      if rangeStart = none then
        match store table r with
        | .error e => .error e
        | .ok table => readLines rs table (r.cp + 1) none
      else .error .abort

/-- categorize.py:36-37: the length of the run of entries equal to `cat`. -/
def runLength (cat : κ) : List (Option κ) → Nat
  | [] => 0
  | e :: t => if e = some cat then runLength cat t + 1 else 0

/-- A range `(start, end, category)`; `end` is exclusive. -/
structure Range (κ : Type) where
  start : Nat
  stop : Nat
  cat : κ
  deriving DecidableEq, Repr

/-- categorize.py:27-38: the ranges; `n` is the index of the first entry of the list. -/
def ranges (n : Nat) (table : List (Option κ)) : List (Range κ) :=
  match table with
  | [] => []
  | none :: t => ranges (n + 1) t
  | some c :: t => ⟨n, n + 1 + runLength c t, c⟩ :: ranges (n + 1 + runLength c t) (t.drop (runLength c t))
termination_by table.length
decreasing_by
  · simp
  · simp; omega

/-- The emitted C statements. `lo = none` stands for `return cat`, `some s` for `return codepoint >= s ? cat : Cn`. -/
inductive Code (κ : Type)
  /-- Nothing. -/
  | fall
  /-- `if (codepoint < bound) return …;` followed by `rest`. -/
  | test (bound : Nat) (lo : Option Nat) (cat : κ) (rest : Code κ)
  /-- `if (codepoint < bound) { body return …; }` followed by `rest`. -/
  | block (bound : Nat) (body : Code κ) (lo : Option Nat) (cat : κ) (rest : Code κ)

/-- categorize.py:56, 73: the lower bound is left out for a range of one code point. -/
def low (r : Range κ) : Option Nat := if r.stop = r.start + 1 then none else some r.start

/-- categorize.py:55-66. -/
def emitAll : List (Range κ) → Code κ
  | [] => .fall
  | r :: rs => .test r.stop (low r) r.cat (emitAll rs)

/-- categorize.py:50-84 `emit_binary`. -/
def emitBinary (rs : List (Range κ)) : C (Code κ) :=
  if rs = [] then .error .abort
  else if rs.length < 5 then .ok (emitAll rs)
  else match h : rs[rs.length / 5]? with
    | none => .error .abort
    | some r => match emitBinary (rs.take (rs.length / 5)) with
      | .error e => .error e
      | .ok body => match emitBinary (rs.drop (rs.length / 5 + 1)) with
        | .error e => .error e
        | .ok rest => .ok (.block r.stop body (low r) r.cat rest)
termination_by rs.length
decreasing_by
  · have := (List.getElem?_eq_some_iff.1 h).1
    simp; omega
  · have := (List.getElem?_eq_some_iff.1 h).1
    simp; omega

/-- categorize.py:7-48 `main`, for a table of `n` code points (0x110000 there). -/
def main (n : Nat) (lines : List (Rec κ)) : C (Code κ) :=
  match readLines lines (List.replicate n none) 0 none with
  | .error e => .error e
  | .ok table => emitBinary (ranges 0 table)

/-- The value of an emitted `return`. -/
def ret (Cn : κ) (lo : Option Nat) (cat : κ) (codepoint : Int) : κ :=
  match lo with
  | none => cat
  | some s => if codepoint ≥ s then cat else Cn

/-- Execution of emitted statements; `none` is falling through. -/
def Code.exec (Cn : κ) : Code κ → Int → Option κ
  | .fall, _ => none
  | .test bound lo cat rest, codepoint =>
    if codepoint < bound then some (ret Cn lo cat codepoint) else rest.exec Cn codepoint
  | .block bound body lo cat rest, codepoint =>
    if codepoint < bound then
      match body.exec Cn codepoint with
      | some c => some c
      | none => some (ret Cn lo cat codepoint)
    else rest.exec Cn codepoint

/-- The emitted `charstr_unicode_category` (categorize.py:41-47). -/
def category (Cn : κ) (code : Code κ) (codepoint : Int) : κ :=
  match code.exec Cn codepoint with
  | some c => c
  | none => Cn

end Verif.Categorize
