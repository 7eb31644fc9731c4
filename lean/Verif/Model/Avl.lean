import Verif.Base.Does

/-!
Model of `/repo/src/avltree.c` on pointer memory. The user's comparator is a pure function of the key pointers (keys must not be altered
while they are in the tree). The functions that call it have `tree->cmp` with `tree->obj` as a parameter, which `stored` reads from the tree
when such a function is called; C reads the two fields again for each comparison, but nothing writes them after `make_avl_tree_2`. `balance` is an unbounded integer: the proofs show that it stays
between -2 and 2, so that `int` cannot overflow. An `avl_elem_t **ploc` always points at the root of a tree or at a child field of an
element and is represented by a `Loc`; the output parameter `premoved_element` is a second result (0 where C leaves it NULL).
-/

namespace Verif.Avl

/-! Field access. -/

def key (a : Nat) : M Nat := do pure (← readAE a).key
def value (a : Nat) : M Nat := do pure (← readAE a).value
def parent (a : Nat) : M Nat := do pure (← readAE a).parent
def left (a : Nat) : M Nat := do pure (← readAE a).left
def right (a : Nat) : M Nat := do pure (← readAE a).right
def balance (a : Nat) : M Int := do pure (← readAE a).balance
def root (tree : Nat) : M Nat := do pure (← readA tree).root

def setKey (a x : Nat) : M Unit := modAE a (fun e => { e with key := x })
def setValue (a x : Nat) : M Unit := modAE a (fun e => { e with value := x })
def setParent (a x : Nat) : M Unit := modAE a (fun e => { e with parent := x })
def setLeft (a x : Nat) : M Unit := modAE a (fun e => { e with left := x })
def setRight (a x : Nat) : M Unit := modAE a (fun e => { e with right := x })
def setBalance (a : Nat) (b : Int) : M Unit := modAE a (fun e => { e with balance := b })
def setRoot (tree x : Nat) : M Unit := modA tree (fun t => { t with root := x })

/-- `tree->size++`, `tree->size--` on `size_t`. -/
def incSize (tree : Nat) : M Unit := modA tree (fun t => { t with size := (t.size + 1) % 2 ^ 64 })
def decSize (tree : Nat) : M Unit := modA tree (fun t => { t with size := (t.size + (2 ^ 64 - 1)) % 2 ^ 64 })

/-- Where an `avl_elem_t **` points. -/
inductive Loc
  | root (tree : Nat)
  | left (a : Nat)
  | right (a : Nat)

/-- `*ploc`. -/
def Loc.read : Loc → M Nat
  | .root t => Avl.root t
  | .left a => Avl.left a
  | .right a => Avl.right a

/-- `*ploc = x`. -/
def Loc.write (x : Nat) : Loc → M Unit
  | .root t => setRoot t x
  | .left a => setLeft a x
  | .right a => setRight a x

/-- avltree.c:6-9 `avl_elem_get_key`. -/
def getKey (element : Nat) : M Nat := key element

/-- avltree.c:11-14 `avl_elem_get_value`. -/
def getValue (element : Nat) : M Nat := value element

/-- avltree.c:16-25 `make_avl_tree_2`; `make_avl_tree` (avltree.c:27-30) passes NULL as the context. -/
def make (A : Alloc) (cmp obj : Nat) : M Nat := do
  let tree ← M.alloc A (.atree ⟨A.junk, A.junk, A.junk, A.junk⟩)
  modA tree (fun t => { t with cmp := cmp })
  modA tree (fun t => { t with obj := obj })
  setRoot tree 0
  modA tree (fun t => { t with size := 0 })
  pure tree

/-- avltree.c:32-39 `destroy_subtree`. -/
def destroySubtree (element : Nat) : M Unit := do
  if element ≠ 0 then
    destroySubtree (← left element)
    destroySubtree (← right element)
    M.free element
  else pure ()
partial_fixpoint

/-- avltree.c:41-45 `destroy_avl_tree`. -/
def destroy (tree : Nat) : M Unit := do
  destroySubtree (← root tree)
  M.free tree

/-- avltree.c:47-55 `make_element`. -/
def makeElement (A : Alloc) (key value : Nat) : M Nat := do
  let element ← M.alloc A (.aelem ⟨A.junk, A.junk, A.junk, A.junk, A.junk, A.junk⟩)
  setKey element key
  setValue element value
  setRight element 0
  setLeft element 0
  setParent element 0
  setBalance element 0
  pure element

/-- avltree.c:57-60 `destroy_avl_element`. -/
def destroyElement (element : Nat) : M Unit := M.free element

/-- avltree.c:62-65 `avl_tree_size`. -/
def size (tree : Nat) : M Nat := do pure (← readA tree).size

/-- avltree.c:69,72 `tree->cmp(..., obj)`: the comparator stored in the tree, as a function of the keys. -/
def stored (F : Funs) (tree : Nat) : M (Nat → Nat → Int) := do
  let t ← readA tree
  pure (F.cmp t.cmp t.obj)

/-- avltree.c:71-79: the loop of `avl_tree_get`. -/
def getLoop (cmp : Nat → Nat → Int) (k element : Nat) : M Nat := do
  if element ≠ 0 then
    let c := cmp k (← key element)
    if c = 0 then pure element
    else if c > 0 then getLoop cmp k (← right element)
    else getLoop cmp k (← left element)
  else pure 0
partial_fixpoint

/-- avltree.c:67-80 `avl_tree_get`. -/
def get (cmp : Nat → Nat → Int) (tree k : Nat) : M Nat := do getLoop cmp k (← root tree)

/-- avltree.c:87-88: the loop of `previous_descendant`. -/
def rightmostLoop (adj : Nat) : M Nat := do
  let r ← right adj
  if r ≠ 0 then rightmostLoop (← right adj) else pure adj
partial_fixpoint

/-- avltree.c:82-90 `previous_descendant`. -/
def previousDescendant (element : Nat) : M Nat := do
  let adj ← left element
  if adj = 0 then pure 0 else rightmostLoop adj

/-- avltree.c:97-99: the loop of `avl_tree_previous` and the return after it. -/
def previousLoop (element : Nat) : M Nat := do
  let p ← parent element
  if p ≠ 0 then
    let l ← left (← parent element)
    if l = element then previousLoop (← parent element) else parent element
  else parent element
partial_fixpoint

/-- avltree.c:92-100 `avl_tree_previous`. -/
def previous (element : Nat) : M Nat := do
  let adj ← previousDescendant element
  if adj ≠ 0 then pure adj else previousLoop element

/-- avltree.c:107-115: the loop of `avl_tree_get_before`. -/
def beforeLoop (cmp : Nat → Nat → Int) (k element candidate : Nat) : M Nat := do
  if element ≠ 0 then
    let c := cmp k (← key element)
    if c ≤ 0 then beforeLoop cmp k (← left element) candidate
    else beforeLoop cmp k (← right element) element
  else pure candidate
partial_fixpoint

/-- avltree.c:102-117 `avl_tree_get_before`. -/
def getBefore (cmp : Nat → Nat → Int) (tree k : Nat) : M Nat := do beforeLoop cmp k (← root tree) 0

/-- avltree.c:124-132: the loop of `avl_tree_get_on_or_before`. -/
def onOrBeforeLoop (cmp : Nat → Nat → Int) (k element candidate : Nat) : M Nat := do
  if element ≠ 0 then
    let c := cmp k (← key element)
    if c < 0 then onOrBeforeLoop cmp k (← left element) candidate
    else onOrBeforeLoop cmp k (← right element) element
  else pure candidate
partial_fixpoint

/-- avltree.c:119-134 `avl_tree_get_on_or_before`. -/
def getOnOrBefore (cmp : Nat → Nat → Int) (tree k : Nat) : M Nat := do onOrBeforeLoop cmp k (← root tree) 0

/-- avltree.c:141-142: the loop of `next_descendant`. -/
def leftmostLoop (adj : Nat) : M Nat := do
  let l ← left adj
  if l ≠ 0 then leftmostLoop (← left adj) else pure adj
partial_fixpoint

/-- avltree.c:136-144 `next_descendant`. -/
def nextDescendant (element : Nat) : M Nat := do
  let adj ← right element
  if adj = 0 then pure 0 else leftmostLoop adj

/-- avltree.c:151-153: the loop of `avl_tree_next` and the return after it. -/
def nextLoop (element : Nat) : M Nat := do
  let p ← parent element
  if p ≠ 0 then
    let r ← right (← parent element)
    if r = element then nextLoop (← parent element) else parent element
  else parent element
partial_fixpoint

/-- avltree.c:146-154 `avl_tree_next`. -/
def next (element : Nat) : M Nat := do
  let adj ← nextDescendant element
  if adj ≠ 0 then pure adj else nextLoop element

/-- avltree.c:161-169: the loop of `avl_tree_get_after`. -/
def afterLoop (cmp : Nat → Nat → Int) (k element candidate : Nat) : M Nat := do
  if element ≠ 0 then
    let c := cmp k (← key element)
    if c ≥ 0 then afterLoop cmp k (← right element) candidate
    else afterLoop cmp k (← left element) element
  else pure candidate
partial_fixpoint

/-- avltree.c:156-171 `avl_tree_get_after`. -/
def getAfter (cmp : Nat → Nat → Int) (tree k : Nat) : M Nat := do afterLoop cmp k (← root tree) 0

/-- avltree.c:178-186: the loop of `avl_tree_get_on_or_after`. -/
def onOrAfterLoop (cmp : Nat → Nat → Int) (k element candidate : Nat) : M Nat := do
  if element ≠ 0 then
    let c := cmp k (← key element)
    if c > 0 then onOrAfterLoop cmp k (← right element) candidate
    else onOrAfterLoop cmp k (← left element) element
  else pure candidate
partial_fixpoint

/-- avltree.c:173-188 `avl_tree_get_on_or_after`. -/
def getOnOrAfter (cmp : Nat → Nat → Int) (tree k : Nat) : M Nat := do onOrAfterLoop cmp k (← root tree) 0

/-- `if (x != NULL) x->parent = p;` -/
def adopt (x p : Nat) : M Unit := if x ≠ 0 then setParent x p else pure ()

/-- avltree.c:211-215: the end of `rotate_right`. -/
def rotateRightEnd (element newTop : Nat) : M Nat := do
  setParent newTop (← parent element)
  setParent element newTop
  adopt (← left element) element
  pure newTop

/-- avltree.c:190-216 `rotate_right`; C's division truncates. -/
def rotateRight (element : Nat) : M Nat := do
  let b ← balance (← left element)
  if b ≤ 0 then
    let newTop ← left element
    setLeft element (← right newTop)
    setRight newTop element
    setBalance newTop ((← balance newTop) + 1)
    setBalance element (-(← balance newTop))
    rotateRightEnd element newTop
  else
    let newTop ← right (← left element)
    setRight (← left element) (← left newTop)
    setLeft newTop (← left element)
    setLeft element (← right newTop)
    setRight newTop element
    setParent (← left newTop) newTop
    adopt (← right (← left newTop)) (← left newTop)
    setBalance (← left newTop) (-((1 + (← balance newTop)).tdiv 2))
    setBalance (← right newTop) ((1 - (← balance newTop)).tdiv 2)
    setBalance newTop 0
    rotateRightEnd element newTop

/-- avltree.c:266-270: the end of `rotate_left`. -/
def rotateLeftEnd (element newTop : Nat) : M Nat := do
  setParent newTop (← parent element)
  setParent element newTop
  adopt (← right element) element
  pure newTop

/-- avltree.c:245-271 `rotate_left`. -/
def rotateLeft (element : Nat) : M Nat := do
  let b ← balance (← right element)
  if b ≥ 0 then
    let newTop ← right element
    setRight element (← left newTop)
    setLeft newTop element
    setBalance newTop ((← balance newTop) - 1)
    setBalance element (-(← balance newTop))
    rotateLeftEnd element newTop
  else
    let newTop ← left (← right element)
    setLeft (← right element) (← right newTop)
    setRight newTop (← right element)
    setRight element (← left newTop)
    setLeft newTop element
    setParent (← right newTop) newTop
    adopt (← left (← right newTop)) (← right newTop)
    setBalance (← right newTop) ((1 - (← balance newTop)).tdiv 2)
    setBalance (← left newTop) (-((1 + (← balance newTop)).tdiv 2))
    setBalance newTop 0
    rotateLeftEnd element newTop

/-- avltree.c:297-308 `substitute`. -/
def substitute (tree newChild oldChild : Nat) : M Unit := do
  let r ← root tree
  if oldChild = r then setRoot tree newChild
  else
    let p ← parent oldChild
    let l ← left p
    if l = oldChild then setLeft p newChild else setRight p newChild

mutual
/-- avltree.c:221-243 `put_left`. -/
def putLeft (cmp : Nat → Nat → Int) (tree : Nat) (ploc : Loc) (element : Nat) : M (Bool × Nat) := do
  let loc ← ploc.read
  let l ← left loc
  if l = 0 then
    setParent element loc
    setLeft loc element
    incSize tree
    setBalance loc ((← balance loc) - 1)
    let r ← right loc
    pure (r = 0, 0)
  else
    let (grew, removed) ← put cmp tree (.left loc) element
    if grew then
      setBalance loc ((← balance loc) - 1)
      let b ← balance loc
      if b = -2 then
        let top ← rotateRight loc
        ploc.write top
        pure (false, removed)
      else if b = -1 then pure (true, removed)
      else pure (false, removed)
    else pure (false, removed)
partial_fixpoint

/-- avltree.c:273-295 `put_right`. -/
def putRight (cmp : Nat → Nat → Int) (tree : Nat) (ploc : Loc) (element : Nat) : M (Bool × Nat) := do
  let loc ← ploc.read
  let r ← right loc
  if r = 0 then
    setParent element loc
    setRight loc element
    incSize tree
    setBalance loc ((← balance loc) + 1)
    let l ← left loc
    pure (l = 0, 0)
  else
    let (grew, removed) ← put cmp tree (.right loc) element
    if grew then
      setBalance loc ((← balance loc) + 1)
      let b ← balance loc
      if b = 2 then
        let top ← rotateLeft loc
        ploc.write top
        pure (false, removed)
      else if b = 1 then pure (true, removed)
      else pure (false, removed)
    else pure (false, removed)
partial_fixpoint

/-- avltree.c:310-332 `put`. -/
def put (cmp : Nat → Nat → Int) (tree : Nat) (ploc : Loc) (element : Nat) : M (Bool × Nat) := do
  let loc ← ploc.read
  let c := cmp (← key element) (← key loc)
  if c < 0 then putLeft cmp tree ploc element
  else if c > 0 then putRight cmp tree ploc element
  else if loc = element then pure (false, 0)
  else
    setParent element (← parent loc)
    setLeft element (← left loc)
    setRight element (← right loc)
    setBalance element (← balance loc)
    substitute tree element loc
    adopt (← left element) element
    adopt (← right element) element
    pure (false, loc)
partial_fixpoint
end

/-- avltree.c:334-345 `avl_tree_put`. -/
def treePut (A : Alloc) (cmp : Nat → Nat → Int) (tree k v : Nat) : M Nat := do
  let element ← makeElement A k v
  let r ← root tree
  if r = 0 then
    setRoot tree element
    modA tree (fun t => { t with size := 1 })
    pure 0
  else
    let (_, removed) ← put cmp tree (.root tree) element
    pure removed

/-- avltree.c:347-350 `leaf_element`. -/
def leafElement (element : Nat) : M Bool := do
  let r ← right element
  if r = 0 then
    let l ← left element
    pure (l = 0)
  else pure false

/-- avltree.c:352-358 `adjacent_descendant`. -/
def adjacentDescendant (element : Nat) : M Nat := do
  let adj ← previousDescendant element
  if adj ≠ 0 then pure adj else nextDescendant element

mutual
/-- avltree.c:363-369 `lighten_parent`. -/
def lightenParent (tree element : Nat) : M Unit := do
  let p ← parent element
  let r ← right p
  if r = element then lightenRight tree p else lightenLeft tree p
partial_fixpoint

/-- avltree.c:371-394 `lighten_right`. -/
def lightenRight (tree element : Nat) : M Unit := do
  setBalance element ((← balance element) - 1)
  let b ← balance element
  if b = 0 then
    let r ← root tree
    if element ≠ r then lightenParent tree element else pure ()
  else if b = -2 then
    let newTop ← rotateRight element
    let r ← root tree
    if element = r then setRoot tree newTop
    else
      let pr ← right (← parent newTop)
      if pr = element then setRight (← parent newTop) newTop else setLeft (← parent newTop) newTop
      let nb ← balance newTop
      if nb ≠ 1 then lightenParent tree newTop else pure ()
  else pure ()
partial_fixpoint

/-- avltree.c:396-419 `lighten_left`. -/
def lightenLeft (tree element : Nat) : M Unit := do
  setBalance element ((← balance element) + 1)
  let b ← balance element
  if b = 0 then
    let r ← root tree
    if element ≠ r then lightenParent tree element else pure ()
  else if b = 2 then
    let newTop ← rotateLeft element
    let r ← root tree
    if element = r then setRoot tree newTop
    else
      let pr ← right (← parent newTop)
      if pr = element then setRight (← parent newTop) newTop else setLeft (← parent newTop) newTop
      let nb ← balance newTop
      if nb ≠ -1 then lightenParent tree newTop else pure ()
  else pure ()
partial_fixpoint
end

/-- avltree.c:421-437 `exchange`. -/
def exchange (tree e1 e2 : Nat) : M Unit := do
  substitute tree e1 e2
  substitute tree e2 e1
  let l ← left e1
  setLeft e1 (← left e2)
  setLeft e2 l
  let r ← right e1
  setRight e1 (← right e2)
  setRight e2 r
  let p ← parent e1
  setParent e1 (← parent e2)
  setParent e2 p
  let b ← balance e1
  setBalance e1 (← balance e2)
  setBalance e2 b
  adopt (← left e1) e1
  adopt (← right e1) e1
  adopt (← left e2) e2
  adopt (← right e2) e2

/-- avltree.c:441-442: the loop of `avl_tree_detach`. -/
def sinkLoop (tree element : Nat) : M Unit := do
  let leaf ← leafElement element
  if leaf then pure ()
  else
    exchange tree element (← adjacentDescendant element)
    sinkLoop tree element
partial_fixpoint

/-- avltree.c:439-453 `avl_tree_detach`. -/
def detach (tree element : Nat) : M Unit := do
  sinkLoop tree element
  let r ← root tree
  if element = r then setRoot tree 0
  else
    let pl ← left (← parent element)
    if pl = element then
      setLeft (← parent element) 0
      lightenLeft tree (← parent element)
    else
      setRight (← parent element) 0
      lightenRight tree (← parent element)
  decSize tree

/-- avltree.c:455-459 `avl_tree_remove`. -/
def remove (tree element : Nat) : M Unit := do
  detach tree element
  destroyElement element

/-- `if (element != NULL) avl_tree_detach(tree, element); return element;` -/
def detachFound (tree element : Nat) : M Nat := do
  if element ≠ 0 then
    detach tree element
    pure element
  else pure element

/-- avltree.c:461-467 `avl_tree_pop`. -/
def pop (cmp : Nat → Nat → Int) (tree k : Nat) : M Nat := do
  let element ← get cmp tree k
  detachFound tree element

/-- avltree.c:469-472 `avl_tree_empty`. -/
def empty (tree : Nat) : M Bool := do
  let r ← root tree
  pure (r = 0)

/-- avltree.c:474-484 `avl_tree_get_first`; its loop is that of `next_descendant`. -/
def getFirst (tree : Nat) : M Nat := do
  let e ← empty tree
  if e then pure 0 else leftmostLoop (← root tree)

/-- avltree.c:486-496 `avl_tree_get_last`; its loop is that of `previous_descendant`. -/
def getLast (tree : Nat) : M Nat := do
  let e ← empty tree
  if e then pure 0 else rightmostLoop (← root tree)

/-- avltree.c:498-504 `avl_tree_pop_first`. -/
def popFirst (tree : Nat) : M Nat := do
  let element ← getFirst tree
  detachFound tree element

/-- avltree.c:506-512 `avl_tree_pop_last`. -/
def popLast (tree : Nat) : M Nat := do
  let element ← getLast tree
  detachFound tree element

/-- avltree.c:514-527 `copy_tree`. -/
def copyTree (A : Alloc) (element : Nat) : M Nat := do
  let copy ← makeElement A (← key element) (← value element)
  setBalance copy (← balance element)
  let l ← left element
  if l ≠ 0 then
    let x ← copyTree A (← left element)
    setLeft copy x
    setParent (← left copy) copy
  let r ← right element
  if r ≠ 0 then
    let x ← copyTree A (← right element)
    setRight copy x
    setParent (← right copy) copy
  pure copy
partial_fixpoint

/-- avltree.c:529-537 `avl_tree_copy`. -/
def copy (A : Alloc) (tree : Nat) : M Nat := do
  let t ← readA tree
  let c ← make A t.cmp t.obj
  let r ← root tree
  if r ≠ 0 then
    let x ← copyTree A (← root tree)
    setRoot c x
    let s ← size tree
    modA c (fun t => { t with size := s })
  pure c

end Verif.Avl
