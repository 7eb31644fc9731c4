import Verif.Base.Heap
import Verif.Model.List
import Verif.Model.Charstr
import Verif.Model.Puny

/-!
The functions of `/repo/src/charstr.c` and `/repo/src/charstr_puny.c` that allocate more than their result, on pointer memory: the splitting
functions, which fill a list (`Verif.Model.List`) or an array with new strings, and `charstr_idna_encode`, which uses work areas.

A string pointer is a block and an offset into it. What the functions read from their strings is computed as in `Verif.Model.Charstr` and
`Verif.Model.Puny`, from the block as it is at that moment; here it is modelled when blocks are allocated, read and freed.
-/

namespace Verif.Owned
open Verif.Charstr

/-- charstr.c:333-342 `charstr_dupsubstr`: the new string. `length` is `end - s`. -/
def dupsubstrM (A : Alloc) (a o length : Nat) : M Nat := do
  let b ← readBytes a
  let d ← M.lift (liftC (dupBytes (b.drop o) length))
  M.alloc A (.bytes d)

/-- charstr.c:326-331 `charstr_dupstr`. -/
def dupstrM (A : Alloc) (a o : Nat) : M Nat := do
  let b ← readBytes a
  let n ← M.lift (liftC (strlen (b.drop o)))
  dupsubstrM A a o n

/-- charstr.c:381-388: the loop of `charstr_split` and what follows. -/
def splitLoopM (A : Alloc) (delim : UInt8) (a list : Nat) : Nat → Nat → M Unit
  | 0, o => do
    let d ← dupstrM A a o
    let _ ← CList.append A list d
    pure ()
  | maxSplit + 1, o => do
    let b ← readBytes a
    match ← M.lift (liftC (strchr delim (b.drop o))) with
    | none => do
      let d ← dupstrM A a o
      let _ ← CList.append A list d
      pure ()
    | some p => do
      let d ← dupsubstrM A a o p
      let _ ← CList.append A list d
      splitLoopM A delim a list maxSplit (o + p + 1)

/-- charstr.c:378-390 `charstr_split`. -/
def splitM (A : Alloc) (a o : Nat) (delim : UInt8) (maxSplit : Nat) : M Nat := do
  let list ← CList.make A
  splitLoopM A delim a list maxSplit o
  pure list

/-- `array[i] = d` -/
def storeM (array i d : Nat) : M Unit := do
  let x ← readSlots array
  if i < x.length then M.write array (.slots (x.set i (some d))) else ub

/-- charstr.c:396-404: the loop of `charstr_split_into_array` and what follows; the first number is `max_split - i`. -/
def splitArrayLoopM (A : Alloc) (delim : UInt8) (a array : Nat) : Nat → Nat → Nat → M Nat
  | 0, o, i => do
    let d ← dupstrM A a o
    storeM array i d
    pure i
  | k + 1, o, i => do
    let b ← readBytes a
    match ← M.lift (liftC (strchr delim (b.drop o))) with
    | none => do
      let d ← dupstrM A a o
      storeM array i d
      pure i
    | some p => do
      let d ← dupsubstrM A a o p
      storeM array i d
      splitArrayLoopM A delim a array k (o + p + 1) (i + 1)

/-- charstr.c:392-405 `charstr_split_into_array`. -/
def splitIntoArrayM (A : Alloc) (a o : Nat) (delim : UInt8) (array maxSplit : Nat) : M Nat :=
  splitArrayLoopM A delim a array maxSplit o 0

/-- charstr.c:410-421: the loop of `charstr_split_atoms`. -/
def splitAtomsLoopM (A : Alloc) (a list o : Nat) : M Unit := do
  let b ← readBytes a
  match ← M.lift (liftC (skipWs (b.drop o))) with
  | none => pure ()
  | some r => do
    let s := b.length - r.length
    let n ← M.lift (liftC (atomLen (b.drop (s + 1))))
    let d ← dupsubstrM A a s (n + 1)
    let _ ← CList.append A list d
    splitAtomsLoopM A a list (s + n + 1)
partial_fixpoint

/-- charstr.c:407-422 `charstr_split_atoms`. -/
def splitAtomsM (A : Alloc) (a o : Nat) : M Nat := do
  let list ← CList.make A
  splitAtomsLoopM A a list o
  pure list

/-- charstr.c:428-435: the loop of `charstr_split_str` and what follows. The delimiter is at offset `od` of the block `ad`. -/
def splitStrLoopM (A : Alloc) (a ad od skip list : Nat) : Nat → Nat → M Unit
  | 0, o => do
    let d ← dupstrM A a o
    let _ ← CList.append A list d
    pure ()
  | maxSplit + 1, o => do
    let b ← readBytes a
    let delim ← readBytes ad
    match ← M.lift (liftC (strstr (b.drop o) (delim.drop od))) with
    | none => do
      let d ← dupstrM A a o
      let _ ← CList.append A list d
      pure ()
    | some p => do
      let d ← dupsubstrM A a o p
      let _ ← CList.append A list d
      splitStrLoopM A a ad od skip list maxSplit (o + p + skip)

/-- charstr.c:424-437 `charstr_split_str`. -/
def splitStrM (A : Alloc) (a o ad od maxSplit : Nat) : M Nat := do
  let list ← CList.make A
  let delim ← readBytes ad
  let skip ← M.lift (liftC (strlen (delim.drop od)))
  splitStrLoopM A a ad od skip list maxSplit o
  pure list

/-- What the user of a splitting function does in the end, as in gen_idna_table.c:163-164: free the strings, destroy the list. -/
def freeStrings (list : Nat) : M Unit := do
  CList.foreach list (fun s => M.free s)
  CList.destroy list

/-- charstr.c:714-728 `charstr_vprintf` and 730-737 `charstr_printf`. `fmt` is the C library's formatter with the format and the arguments: the
text it makes, given the memory the arguments point to, or nothing if it fails. `vsnprintf` returns an `int`, so it fails also for a text of
2^31 characters or more. The format does not write to memory (`%n`). 0 is NULL; `errno` is not modelled. -/
def vprintfM (A : Alloc) (fresh : Nat → List UInt8) (fmt : Mem → Option (List UInt8)) : M Nat := do
  match fmt (← get) with
  | none => pure 0
  | some text =>
    if text.length ≥ 2 ^ 31 then pure 0
    else
      let buffer ← M.alloc A (.bytes (fresh (text.length + 1)))
      match fmt (← get) with
      | none => pure buffer
      | some text =>
        let b ← readBytes buffer
        if text.length + 1 ≤ b.length then
          M.write buffer (.bytes (text ++ 0 :: b.drop (text.length + 1)))
          pure buffer
        else ub

section
open Verif.Puny Verif.Unicode

/-- charstr_puny.c:224-251 `encode_nfc` (with `encode_filtered`, whose last step allocates the result); 0 is NULL. Their work areas are on the
stack. -/
def encodeNfcM (A : Alloc) (id : Idna) (fresh : Nat → List UInt8) (a len : Nat) : M Nat := do
  let b ← readBytes a
  match ← M.lift (encodeNfc id fresh (b, some len)) with
  | none => pure 0
  | some d => M.alloc A (.bytes d)

/-- charstr_puny.c:253-266 `encode_nfd` -/
def encodeNfdM (A : Alloc) (u : Ucd) (id : Idna) (fresh : Nat → List UInt8) (a len : Nat) : M Nat := do
  let workarea ← M.alloc A (.bytes (fresh (len + 1)))
  let b ← readBytes a
  let w ← readBytes workarea
  match ← M.lift (recompose u (b, some len) w (some (len + 1))) with
  | (.null _, w) => do
    M.write workarea (.bytes w)
    M.free workarea
    pure 0
  | (.ptr q, w) => do
    M.write workarea (.bytes w)
    let encoding ← encodeNfcM A id fresh workarea q
    M.free workarea
    pure encoding

/-- charstr_puny.c:268-289 `charstr_idna_encode` -/
def idnaEncodeM (A : Alloc) (u : Ucd) (id : Idna) (fresh : Nat → List UInt8) (hostname : Nat) : M Nat := do
  let b ← readBytes hostname
  if ← M.lift (liftC (isAllAscii b)) then
    let p ← dupstrM A hostname 0
    let d ← readBytes p
    let d ← M.lift (liftC (lcaseStr d))
    M.write p (.bytes d)
    return p
  let length ← M.lift (liftC (strlen b))
  if ← M.lift (liftC (canonicallyComposed u (b, some length))) then return ← encodeNfcM A id fresh hostname length
  if ← M.lift (liftC (canonicallyDecomposed u (b, some length))) then return ← encodeNfdM A u id fresh hostname length
  let workarea ← M.alloc A (.bytes (fresh (3 * length + 1)))
  let b ← readBytes hostname
  let w ← readBytes workarea
  match ← M.lift (decompose u (b, some length) w (some (3 * length))) with
  | (.null _, w) => do
    M.write workarea (.bytes w)
    M.free workarea
    return 0
  | (.ptr q, w) => do
    M.write workarea (.bytes w)
    let encoding ← encodeNfdM A u id fresh workarea q
    M.free workarea
    return encoding

end

end Verif.Owned
