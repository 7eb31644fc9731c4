import Verif.Base.Diverge

/-!
Model of `/repo/src/intset.c`. `unsigned long` has 64 bits (`LONG_BIT` = 64), `unsigned` and `int` have 32, `size_t` has 64.
-/

namespace Verif.IntSet

/-- intset_imp.h:1-4 `struct intset`. -/
structure IntSet where
  data : List UInt64
  size : UInt64

/-- intset.c:10 `BITS_TO_LONGS`, in `size_t` arithmetic. -/
def bitsToLongs (n : UInt64) : UInt64 := (n + 64 - 1) / 64

/-- intset.c:12-18 `make_intset`: zeroed words. The multiplication inside `fscalloc` (see `fsalloc.c`) is taken to be exact, which
it is for every size up to 2^64 - 64. -/
def make (size : UInt64) : IntSet := { data := List.replicate (bitsToLongs size).toNat 0, size }

/-- `s->data[i]`. -/
def word (s : IntSet) (i : Nat) : C UInt64 :=
  match s.data[i]? with
  | some w => .ok w
  | none => .error .ub

/-- `s->data[i] = w`. -/
def setWord (s : IntSet) (i : Nat) (w : UInt64) : C IntSet :=
  if i < s.data.length then .ok { s with data := s.data.set i w } else .error .ub

/-- intset.c:28-30: the loop of `intset_fill` with counter `i` of type `unsigned`. -/
def fillLoop (s : IntSet) (i : UInt32) : D IntSet := do
  if i.toUInt64 < bitsToLongs s.size then
    let s ← liftC (setWord s i.toNat (~~~ 0))
    fillLoop s (i + 1)
  else pure s
partial_fixpoint

/-- intset.c:26-31 `intset_fill`. -/
def fill (s : IntSet) : D IntSet := fillLoop s 0

/-- `1UL << elem % LONG_BIT`. -/
def bit (e : UInt32) : UInt64 := 1 <<< (e % 64).toUInt64

/-- intset.c:33-37 `intset_add`. -/
def add (s : IntSet) (e : UInt32) : C IntSet :=
  if e.toUInt64 < s.size then
    match word s (e / 64).toNat with
    | .error x => .error x
    | .ok w => setWord s (e / 64).toNat (w ||| bit e)
  else .ok s

/-- intset.c:39-43 `intset_remove`. -/
def remove (s : IntSet) (e : UInt32) : C IntSet :=
  if e.toUInt64 < s.size then
    match word s (e / 64).toNat with
    | .error x => .error x
    | .ok w => setWord s (e / 64).toNat (w &&& ~~~ (bit e))
  else .ok s

/-- intset.c:45-51 `intset_has`. -/
def has (s : IntSet) (e : UInt32) : C Bool :=
  if e.toUInt64 < s.size then
    match word s (e / 64).toNat with
    | .error x => .error x
    | .ok w => .ok (w &&& bit e != 0)
  else .ok false

/-- `__builtin_ctzl` on a non-zero argument: the index of the lowest set bit. -/
def ctz (x : UInt64) : Nat := ((List.range 64).find? (fun i => x.toNat.testBit i)).getD 64

/-- Conversion of `unsigned` to `int` (two's complement). -/
def toInt (e : UInt32) : Int := if e.toNat < 2 ^ 31 then e.toNat else e.toNat - 2 ^ 32

/-- intset.c:58-60 and 67-69: load a word, inverted unless `hit`. -/
def load (s : IntSet) (hit : Bool) (e : UInt32) : C UInt64 :=
  match word s (e / 64).toNat with
  | .error x => .error x
  | .ok w => .ok (if hit then w else ~~~ w)

/-- intset.c:64-75: the search loop; `elem` is a multiple of 64 whose (masked) word is `x`. -/
def findLoop (s : IntSet) (hit : Bool) (elem : UInt32) (x : UInt64) : D Int := do
  if x = 0 then
    let elem := elem + 64
    if elem.toUInt64 ≥ s.size then pure (-1)
    else
      let x ← liftC (load s hit elem)
      findLoop s hit elem x
  else
    let elem := elem + UInt32.ofNat (ctz x)
    if elem.toUInt64 ≥ s.size then pure (-1) else pure (toInt elem)
partial_fixpoint

/-- intset.c:53-76 `intset_find_next`. -/
def findNext (s : IntSet) (elem : UInt32) (hit : Bool) : D Int := do
  if elem.toUInt64 ≥ s.size then pure (-1)
  else
    let x ← liftC (load s hit elem)
    let r := elem % 64
    findLoop s hit (elem - r) (x &&& ((~~~ 0) <<< r.toUInt64))

/-- intset.c:78-81 `intset_find_next_hit`. -/
def findNextHit (s : IntSet) (elem : UInt32) : D Int := findNext s elem true

/-- intset.c:83-86 `intset_find_next_miss`. -/
def findNextMiss (s : IntSet) (elem : UInt32) : D Int := findNext s elem false

/-- intset.h:26-29 `intset_empty`. -/
def empty (s : IntSet) : D Bool := do
  let r ← findNextHit s 0
  pure (decide (r < 0))

/-- The calls that change a set. -/
inductive Op
  | add (e : UInt32)
  | remove (e : UInt32)
  | fill

/-- One call. -/
def step (s : IntSet) : Op → D IntSet
  | .add e => liftC (add s e)
  | .remove e => liftC (remove s e)
  | .fill => fill s

/-- A sequence of calls. -/
def run (s : IntSet) : List Op → D IntSet
  | [] => pure s
  | op :: ops => do
    let s ← step s op
    run s ops

end Verif.IntSet
