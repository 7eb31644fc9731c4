import Verif.Base.Outcome

/-!
The functions of Python 3 on strings that the generators in `/repo/src/*.py` call. A string is a list of characters. Simplified: `int`
knows the digits and letters of ASCII only, not the decimal digits of other scripts.
-/

set_option autoImplicit false

namespace Verif.Py

abbrev Str := List Char

/-- Puts `c` before the first piece. -/
def consHead (c : Char) : List Str → List Str
  | [] => [[c]]
  | p :: ps => (c :: p) :: ps

/-- `for line in open(...)` (categorize.py:11): the lines with their line feeds. -/
def lines : Str → List Str
  | [] => []
  | c :: s => if c = '\n' then [c] :: lines s else consHead c (lines s)

/-- `s.split(sep)` (decomposition.py:11) -/
def split (sep : Char) : Str → List Str
  | [] => [[]]
  | c :: s => if c = sep then [] :: split sep s else consHead c (split sep s)

/-- `s.split(sep, n)` (categorize.py:12): at most `n` splits. -/
def splitMax (sep : Char) : Nat → Str → List Str
  | _, [] => [[]]
  | 0, s => [s]
  | n + 1, c :: s => if c = sep then [] :: splitMax sep n s else consHead c (splitMax sep (n + 1) s)

/-- `s.split("..")` (allowed_in_normal_form.py:29) -/
def splitDots : Str → List Str
  | [] => [[]]
  | [c] => [[c]]
  | c :: d :: s => if c = '.' ∧ d = '.' then [] :: splitDots s else consHead c (splitDots (d :: s))

/-- `".." in s` (allowed_in_normal_form.py:28) -/
def hasDots : Str → Bool
  | [] => false
  | [_] => false
  | c :: d :: s => (c == '.' && d == '.') || hasDots (d :: s)

/-- `c.isspace()` -/
def isSpace (c : Char) : Bool :=
  let n := c.toNat
  (9 ≤ n && n ≤ 13) || (28 ≤ n && n ≤ 32) || n == 0x85 || n == 0xa0 || n == 0x1680 || (0x2000 ≤ n && n ≤ 0x200a) || n == 0x2028 || n == 0x2029 ||
    n == 0x202f || n == 0x205f || n == 0x3000

/-- `s.strip()` (recomposition.py:9) -/
def strip (s : Str) : Str := ((s.dropWhile isSpace).reverse.dropWhile isSpace).reverse

/-- The loop of `s.split()`; `w` is the word before `s`. -/
def wordsFrom (w : Str) : Str → List Str
  | [] => if w = [] then [] else [w]
  | c :: s => if isSpace c then (if w = [] then wordsFrom [] s else w :: wordsFrom [] s) else wordsFrom (w ++ [c]) s

/-- `s.split()` (decomposition.py:19) -/
def words (s : Str) : List Str := wordsFrom [] s

/-- `s.endswith(t)` (categorize.py:14) -/
def endsWith (s t : Str) : Bool := decide (t <:+ s)

/-- The value of a digit in a base up to 36. -/
def digit (base : Nat) (c : Char) : Option Nat :=
  let n := c.toNat
  let v := if 48 ≤ n ∧ n ≤ 57 then n - 48 else if 97 ≤ n ∧ n ≤ 122 then n - 87 else if 65 ≤ n ∧ n ≤ 90 then n - 55 else 36
  if v < base then some v else none

/-- The digits of a number after the first one; one underscore may stand between two digits. -/
def digits (base : Nat) : Nat → Str → Option Nat
  | v, [] => some v
  | v, [c] => match digit base c with
    | some d => some (v * base + d)
    | none => none
  | v, c :: d :: s =>
    if c = '_' then
      match digit base d with
      | some x => digits base (v * base + x) s
      | none => none
    else match digit base c with
      | some x => digits base (v * base + x) (d :: s)
      | none => none

/-- A number without a sign. -/
def number (base : Nat) : Str → Option Nat
  | [] => none
  | c :: s => match digit base c with
    | some d => digits base d s
    | none => none

/-- A number in base 16 may start with `0x`, and then with an underscore. -/
def unprefix (base : Nat) (s : Str) : Str :=
  match s with
  | '0' :: x :: t => if base = 16 ∧ (x = 'x' ∨ x = 'X') then (match t with | '_' :: u => u | _ => t) else s
  | _ => s

/-- `int(s, base)` (categorize.py:13); `none` is ValueError. -/
def int (s : Str) (base : Nat) : Option Int :=
  match strip s with
  | '-' :: t => (number base (unprefix base t)).map fun v => -(v : Int)
  | '+' :: t => (number base (unprefix base t)).map fun v => (v : Int)
  | t => (number base (unprefix base t)).map fun v => (v : Int)

/-- `int(s, base)` where an exception ends the script. Simplified: so does a negative number. -/
def nat (s : Str) (base : Nat) : C Nat :=
  match int s base with
  | some (.ofNat v) => .ok v
  | _ => .error .abort

/-- `s[i]`; IndexError ends the script. -/
def item (s : List Str) (i : Nat) : C Str :=
  match s[i]? with
  | some f => .ok f
  | none => .error .abort

end Verif.Py
