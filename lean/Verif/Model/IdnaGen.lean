import Verif.Base.Diverge

/-!
Model of the generating part of `/repo/src/gen_idna_table.c` (lines 19-114) and of the C code it emits. The table filled in by `main` is given
by a function from code points to statuses and one from code points to mappings (the empty list if there is none); `n` is `N_CP`. Reading
the data file is in Model/IdnaRead.lean.
-/

namespace Verif.IdnaGen

variable {σ : Type} [DecidableEq σ]

/-- gen_idna_table.c:26-35: the loop of `generate_test` from `cp` on with `k` code points to go; `prev = none` is `prev_cp == -1`. The
result are the emitted lines `if (codepoint < stop) return codepoint >= start;`, as pairs `(stop, start)`. -/
def testLoop (status : Nat → σ) (s : σ) : (k cp : Nat) → Option Nat → List (Nat × Nat)
  | 0, _, _ => []
  | k + 1, cp, prev =>
    if status cp ≠ s then
      match prev with
      | some p => (cp, p) :: testLoop status s k (cp + 1) none
      | none => testLoop status s k (cp + 1) none
    else
      match prev with
      | some p => testLoop status s k (cp + 1) (some p)
      | none => testLoop status s k (cp + 1) (some cp)

/-- gen_idna_table.c:19-38 `generate_test`. -/
def generateTest (n : Nat) (status : Nat → σ) (s : σ) : List (Nat × Nat) := testLoop status s n 0 none

/-- The emitted function (gen_idna_table.c:22, 29, 36). -/
def runTest : List (Nat × Nat) → Int → Bool
  | [], _ => false
  | (stop, start) :: rest, codepoint => if codepoint < stop then decide (codepoint ≥ start) else runTest rest codepoint

/-- gen_idna_table.c:42-45: `max_on`, `-1` if there is no code point with the status. -/
def maxOn (status : Nat → σ) (s : σ) : Nat → Int
  | 0 => -1
  | n + 1 => if status n = s then n else maxOn status s n

/-- gen_idna_table.c:51-53: the bits of the code points below `n`, in words of 64 bits. -/
def setLoop (status : Nat → σ) (s : σ) (words : List UInt64) : (k cp : Nat) → C (List UInt64)
  | 0, _ => .ok words
  | k + 1, cp =>
    if status cp = s then
      match words[cp / 64]? with
      | some w => setLoop status s (words.set (cp / 64) (w ||| (1 <<< UInt64.ofNat (cp % 64)))) k (cp + 1)
      | none => .error .ub
    else setLoop status s words k (cp + 1)

/-- gen_idna_table.c:40-72 `generate_set`: the emitted array and `max_on`. Line 70 reads `set[set_size - 1]`. -/
def generateSet (n : Nat) (status : Nat → σ) (s : σ) : C (List UInt64 × Int) :=
  let max := maxOn status s n
  let size := ((max + 63).tdiv 64).toNat
  match setLoop status s (List.replicate size 0) max.toNat 0 with
  | .error e => .error e
  | .ok words => if size = 0 then .error .ub else .ok (words, max)

/-- The emitted function (gen_idna_table.c:63-69). An index outside the array and a negative shift count are undefined. -/
def runSet (set : List UInt64 × Int) (codepoint : Int) : C Bool :=
  if codepoint > set.2 then .ok false
  else if codepoint < 0 then .error .ub
  else match set.1[codepoint.toNat / 64]? with
    | some w => .ok (w &&& (1 <<< UInt64.ofNat (codepoint.toNat % 64)) != 0)
    | none => .error .ub

/-- gen_idna_table.c:89-95: the emitted `idna_mappings`. The bytes of a mapping are printed as octal escapes, each of which ends where the
next backslash or the closing quote begins. -/
def mappings (mapping : Nat → List UInt8) : (k cp : Nat) → List (Nat × List UInt8)
  | 0, _ => []
  | k + 1, cp => if mapping cp ≠ [] then (cp, mapping cp) :: mappings mapping k (cp + 1) else mappings mapping k (cp + 1)

/-- gen_idna_table.c:76-83: `min_cp`, the first code point with a mapping, or -1; `max_cp` is `maxCp`. -/
def minCp (mapping : Nat → List UInt8) : (k cp : Nat) → Int
  | 0, _ => -1
  | k + 1, cp => if mapping cp ≠ [] then cp else minCp mapping k (cp + 1)

/-- gen_idna_table.c:81: `max_cp`, the last code point with a mapping, or -1. -/
def maxCp (mapping : Nat → List UInt8) : Nat → Int
  | 0 => -1
  | n + 1 => if mapping n ≠ [] then n else maxCp mapping n

/-- The constants in the emitted text: the array, `min_cp`, `max_cp` and `count - 1`. -/
structure MapCode where
  array : List (Nat × List UInt8)
  min : Int
  max : Int
  high : Int

/-- gen_idna_table.c:74-114 `generate_mappings`. -/
def generateMappings (n : Nat) (mapping : Nat → List UInt8) : MapCode :=
  let array := mappings mapping n 0
  { array, min := minCp mapping n 0, max := maxCp mapping n, high := array.length - 1 }

/-- `idna_mappings[i]`. -/
def entry (m : MapCode) (i : Int) : C (Nat × List UInt8) :=
  if i < 0 then .error .ub
  else match m.array[i.toNat]? with
    | some e => .ok e
    | none => .error .ub

/-- The emitted loop (gen_idna_table.c:103-109): the value of `high` at its end. The sums stay below 2^31. -/
def search (m : MapCode) (codepoint low high : Int) : D Int := do
  if low < high then
    let middle := (4 * low + high).tdiv 5
    let e ← liftC (entry m middle)
    if e.1 < codepoint then search m codepoint (middle + 1) high
    else search m codepoint low middle
  else pure high
partial_fixpoint

/-- The emitted `charstr_idna_mapping` (gen_idna_table.c:98-113); `none` is NULL. -/
def lookup (m : MapCode) (codepoint : Int) : D (Option (List UInt8)) := do
  if codepoint < m.min ∨ codepoint > m.max then pure none
  else
    let high ← search m codepoint 0 m.high
    let e ← liftC (entry m high)
    if e.1 ≠ codepoint then pure none else pure (some e.2)

/-- The emitted predicates (gen_idna_table.c:182-188). -/
structure Tables where
  valid : List UInt64 × Int
  mapped : List UInt64 × Int
  ignored : List (Nat × Nat)
  deviation : List (Nat × Nat)
  disallowed : List (Nat × Nat)
  std3Valid : List (Nat × Nat)
  std3Mapped : List (Nat × Nat)

/-- The statuses of the data file. -/
def statuses : List String :=
  ["valid", "mapped", "ignored", "deviation", "disallowed", "disallowed_STD3_valid", "disallowed_STD3_mapped"]

/-- gen_idna_table.c:182-188 the predicates emitted by `main`. -/
def generate (n : Nat) (status : Nat → String) : C Tables :=
  match generateSet n status "mapped" with
  | .error e => .error e
  | .ok mapped => match generateSet n status "valid" with
    | .error e => .error e
    | .ok valid => .ok {
        valid, mapped
        ignored := generateTest n status "ignored"
        deviation := generateTest n status "deviation"
        disallowed := generateTest n status "disallowed"
        std3Valid := generateTest n status "disallowed_STD3_valid"
        std3Mapped := generateTest n status "disallowed_STD3_mapped" }

/-- charstr_puny.c:291-308 `charstr_idna_status` -/
def charstrIdnaStatus (t : Tables) (codepoint : Int) : C String :=
  match runSet t.valid codepoint with
  | .error e => .error e
  | .ok true => .ok "valid"
  | .ok false => match runSet t.mapped codepoint with
    | .error e => .error e
    | .ok true => .ok "mapped"
    | .ok false =>
      if runTest t.ignored codepoint then .ok "ignored"
      else if runTest t.deviation codepoint then .ok "deviation"
      else if runTest t.disallowed codepoint then .ok "disallowed"
      else if runTest t.std3Valid codepoint then .ok "disallowed_STD3_valid"
      else if runTest t.std3Mapped codepoint then .ok "disallowed_STD3_mapped"
      else .ok "?"

end Verif.IdnaGen
