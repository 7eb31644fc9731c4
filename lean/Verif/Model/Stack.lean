import Verif.Model.Avl
import Verif.Model.Unicode

/-!
The functions of `/repo/src/avltree.c` and `decompose_fully` of `/repo/src/charstr_decompose.c`, which call themselves or each other, on a stack with room for `d` of their calls at a time; one call more
aborts. (What a real process does when its stack is full, C does not say.) The bodies are those of Model/Avl and Model/Unicode; Proofs/Short proves that these
functions do the same as those or abort. Calls of other functions are not counted: they nest to a fixed depth.
-/

namespace Verif.Avl

/-- The stack is full. -/
def overflow {α : Type} : M α := fun _ => liftC (.error .abort)

/-- avltree.c:32-39 `destroy_subtree`. -/
def destroySubtreeS : Nat → Nat → M Unit
  | 0, _ => overflow
  | d + 1, element => do
    if element ≠ 0 then
      destroySubtreeS d (← left element)
      destroySubtreeS d (← right element)
      M.free element
    else pure ()

mutual
/-- avltree.c:221-243 `put_left`. -/
def putLeftS (cmp : Nat → Nat → Int) (tree : Nat) : Nat → Loc → Nat → M (Bool × Nat)
  | 0, _, _ => overflow
  | d + 1, ploc, element => do
    let loc ← ploc.read
    let l ← left loc
    if l = 0 then
      setParent element loc
      setLeft loc element
      incSize tree
      setBalance loc ((← balance loc) - 1)
      let r ← right loc
      pure (r = 0, 0)
    else
      let (grew, removed) ← putS cmp tree d (.left loc) element
      if grew then
        setBalance loc ((← balance loc) - 1)
        let b ← balance loc
        if b = -2 then
          let top ← rotateRight loc
          ploc.write top
          pure (false, removed)
        else if b = -1 then pure (true, removed)
        else pure (false, removed)
      else pure (false, removed)

/-- avltree.c:273-295 `put_right`. -/
def putRightS (cmp : Nat → Nat → Int) (tree : Nat) : Nat → Loc → Nat → M (Bool × Nat)
  | 0, _, _ => overflow
  | d + 1, ploc, element => do
    let loc ← ploc.read
    let r ← right loc
    if r = 0 then
      setParent element loc
      setRight loc element
      incSize tree
      setBalance loc ((← balance loc) + 1)
      let l ← left loc
      pure (l = 0, 0)
    else
      let (grew, removed) ← putS cmp tree d (.right loc) element
      if grew then
        setBalance loc ((← balance loc) + 1)
        let b ← balance loc
        if b = 2 then
          let top ← rotateLeft loc
          ploc.write top
          pure (false, removed)
        else if b = 1 then pure (true, removed)
        else pure (false, removed)
      else pure (false, removed)

/-- avltree.c:310-332 `put`. -/
def putS (cmp : Nat → Nat → Int) (tree : Nat) : Nat → Loc → Nat → M (Bool × Nat)
  | 0, _, _ => overflow
  | d + 1, ploc, element => do
    let loc ← ploc.read
    let c := cmp (← key element) (← key loc)
    if c < 0 then putLeftS cmp tree d ploc element
    else if c > 0 then putRightS cmp tree d ploc element
    else if loc = element then pure (false, 0)
    else
      setParent element (← parent loc)
      setLeft element (← left loc)
      setRight element (← right loc)
      setBalance element (← balance loc)
      substitute tree element loc
      adopt (← left element) element
      adopt (← right element) element
      pure (false, loc)
end

mutual
/-- avltree.c:363-369 `lighten_parent`. -/
def lightenParentS (tree : Nat) : Nat → Nat → M Unit
  | 0, _ => overflow
  | d + 1, element => do
    let p ← parent element
    let r ← right p
    if r = element then lightenRightS tree d p else lightenLeftS tree d p

/-- avltree.c:371-394 `lighten_right`. -/
def lightenRightS (tree : Nat) : Nat → Nat → M Unit
  | 0, _ => overflow
  | d + 1, element => do
    setBalance element ((← balance element) - 1)
    let b ← balance element
    if b = 0 then
      let r ← root tree
      if element ≠ r then lightenParentS tree d element else pure ()
    else if b = -2 then
      let newTop ← rotateRight element
      let r ← root tree
      if element = r then setRoot tree newTop
      else
        let pr ← right (← parent newTop)
        if pr = element then setRight (← parent newTop) newTop else setLeft (← parent newTop) newTop
        let nb ← balance newTop
        if nb ≠ 1 then lightenParentS tree d newTop else pure ()
    else pure ()

/-- avltree.c:396-419 `lighten_left`. -/
def lightenLeftS (tree : Nat) : Nat → Nat → M Unit
  | 0, _ => overflow
  | d + 1, element => do
    setBalance element ((← balance element) + 1)
    let b ← balance element
    if b = 0 then
      let r ← root tree
      if element ≠ r then lightenParentS tree d element else pure ()
    else if b = 2 then
      let newTop ← rotateLeft element
      let r ← root tree
      if element = r then setRoot tree newTop
      else
        let pr ← right (← parent newTop)
        if pr = element then setRight (← parent newTop) newTop else setLeft (← parent newTop) newTop
        let nb ← balance newTop
        if nb ≠ -1 then lightenParentS tree d newTop else pure ()
    else pure ()
end

/-- avltree.c:514-527 `copy_tree`. -/
def copyTreeS (A : Alloc) : Nat → Nat → M Nat
  | 0, _ => overflow
  | d + 1, element => do
    let copy ← makeElement A (← key element) (← value element)
    setBalance copy (← balance element)
    let l ← left element
    if l ≠ 0 then
      let x ← copyTreeS A d (← left element)
      setLeft copy x
      setParent (← left copy) copy
    let r ← right element
    if r ≠ 0 then
      let x ← copyTreeS A d (← right element)
      setRight copy x
      setParent (← right copy) copy
    pure copy

/-- avltree.c:41-45 `destroy_avl_tree`. -/
def destroyS (d : Nat) (tree : Nat) : M Unit := do
  destroySubtreeS d (← root tree)
  M.free tree

/-- avltree.c:334-345 `avl_tree_put`. -/
def treePutS (d : Nat) (A : Alloc) (cmp : Nat → Nat → Int) (tree k v : Nat) : M Nat := do
  let element ← makeElement A k v
  let r ← root tree
  if r = 0 then
    setRoot tree element
    modA tree (fun t => { t with size := 1 })
    pure 0
  else
    let (_, removed) ← putS cmp tree d (.root tree) element
    pure removed

/-- avltree.c:439-453 `avl_tree_detach`. -/
def detachS (d : Nat) (tree element : Nat) : M Unit := do
  sinkLoop tree element
  let r ← root tree
  if element = r then setRoot tree 0
  else
    let pl ← left (← parent element)
    if pl = element then
      setLeft (← parent element) 0
      lightenLeftS tree d (← parent element)
    else
      setRight (← parent element) 0
      lightenRightS tree d (← parent element)
  decSize tree

/-- avltree.c:455-459 `avl_tree_remove`. -/
def removeS (d : Nat) (tree element : Nat) : M Unit := do
  detachS d tree element
  destroyElement element

/-- `if (element != NULL) avl_tree_detach(tree, element); return element;` -/
def detachFoundS (d : Nat) (tree element : Nat) : M Nat := do
  if element ≠ 0 then
    detachS d tree element
    pure element
  else pure element

/-- avltree.c:461-467 `avl_tree_pop`. -/
def popS (d : Nat) (cmp : Nat → Nat → Int) (tree k : Nat) : M Nat := do
  let element ← get cmp tree k
  detachFoundS d tree element

/-- avltree.c:498-504 `avl_tree_pop_first`. -/
def popFirstS (d : Nat) (tree : Nat) : M Nat := do
  let element ← getFirst tree
  detachFoundS d tree element

/-- avltree.c:506-512 `avl_tree_pop_last`. -/
def popLastS (d : Nat) (tree : Nat) : M Nat := do
  let element ← getLast tree
  detachFoundS d tree element

/-- avltree.c:529-537 `avl_tree_copy`. -/
def copyS (d : Nat) (A : Alloc) (tree : Nat) : M Nat := do
  let t ← readA tree
  let c ← make A t.cmp t.obj
  let r ← root tree
  if r ≠ 0 then
    let x ← copyTreeS A d (← root tree)
    setRoot c x
    let s ← size tree
    modA c (fun t => { t with size := s })
  pure c

end Verif.Avl

namespace Verif.Unicode
open Verif.Utf8

/-- charstr_decompose.c:39-40: the loop over the decomposition, given the function that it calls. -/
def decomposeEachS (f : Nat → List UInt8 → Nat → D (Option Nat × List UInt8)) : List Nat → List UInt8 → Option Nat → D (Option Nat × List UInt8)
  | d :: dp, buf, some i => do
    let (s, buf) ← f d buf i
    decomposeEachS f dp buf s
  | _, buf, s => pure (s, buf)

/-- charstr_decompose.c:29-42 `decompose_fully` -/
def decomposeFullyS (u : Ucd) (e : Option Nat) : Nat → Nat → List UInt8 → Nat → D (Option Nat × List UInt8)
  | 0, _, _, _ => throw .abort
  | d + 1, cp, buf, s => do
    match u.decomp cp with
    | none =>
      let (h, buf) ← liftC (decomposeHangul cp buf (some s) e)
      match h with
      | some q => pure (some q, buf)
      | none => liftC (encode cp buf s e)
    | some dp => decomposeEachS (decomposeFullyS u e d) dp buf (some s)

end Verif.Unicode
