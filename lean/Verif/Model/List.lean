import Verif.Base.Heap

/-!
Model of `/repo/src/list.c` on pointer memory. `size_t` is modulo 2^64, `int` has 32 bits and its overflow is undefined behaviour.
-/

namespace Verif.CList

/-- list.c:6-12 `make_list`. -/
def make (A : Alloc) : M Nat := do
  let list ← M.alloc A (.list ⟨A.junk, A.junk, A.junk⟩)
  modL list (fun l => { l with first := 0, last := 0 })
  modL list (fun l => { l with size := 0 })
  pure list

/-- list.c:17-20: the loop of `destroy_list`. -/
def destroyLoop (element : Nat) : M Unit := do
  if element = 0 then pure ()
  else
    let e ← readLE element
    M.free element
    destroyLoop e.next
partial_fixpoint

/-- list.c:14-22 `destroy_list`. -/
def destroy (list : Nat) : M Unit := do
  let l ← readL list
  destroyLoop l.first
  M.free list

/-- list.c:24-27 `list_elem_get_value`. -/
def getValue (element : Nat) : M Nat := do pure (← readLE element).value

/-- list.c:29-32 `list_get_first`. -/
def getFirst (list : Nat) : M Nat := do pure (← readL list).first

/-- list.c:34-37 `list_get_last`. -/
def getLast (list : Nat) : M Nat := do pure (← readL list).last

/-- list.c:42-44: the loop of `list_get`. -/
def getLoop (value element : Nat) : M Nat := do
  if element = 0 then pure 0
  else
    let e ← readLE element
    if e.value = value then pure element else getLoop value e.next
partial_fixpoint

/-- list.c:39-46 `list_get`. -/
def get (list value : Nat) : M Nat := do
  let l ← readL list
  getLoop value l.first

/-- list.c:52-55: the loop of `list_get_by_index`. -/
def getByIndexLoop (idx : Int) (element : Nat) (i : Int) : M Nat := do
  if element ≠ 0 ∧ i ≠ idx then
    let e ← readLE element
    if i + 1 < 2 ^ 31 then getByIndexLoop idx e.next (i + 1) else ub
  else pure element
partial_fixpoint

/-- list.c:48-57 `list_get_by_index`. -/
def getByIndex (list : Nat) (idx : Int) : M Nat := do
  let l ← readL list
  getByIndexLoop idx l.first 0

/-- list.c:59-62 `list_next`. -/
def next (element : Nat) : M Nat := do pure (← readLE element).next

/-- list.c:64-67 `list_previous`. -/
def previous (element : Nat) : M Nat := do pure (← readLE element).previous

/-- `list->size++` -/
def incSize (list : Nat) : M Unit := modL list (fun l => { l with size := (l.size + 1) % 2 ^ 64 })

/-- `list->size--` -/
def decSize (list : Nat) : M Unit := modL list (fun l => { l with size := (l.size + (2 ^ 64 - 1)) % 2 ^ 64 })

/-- list.c:69-84 `list_append`. -/
def append (A : Alloc) (list value : Nat) : M Nat := do
  let element ← M.alloc A (.lelem ⟨A.junk, A.junk, A.junk⟩)
  modLE element (fun e => { e with value := value })
  modLE element (fun e => { e with next := 0 })
  let l ← readL list
  if l.first = 0 then
    modLE element (fun e => { e with previous := 0 })
    modL list (fun l => { l with first := element, last := element })
    incSize list
    pure element
  else
    modLE element (fun e => { e with previous := l.last })
    let e ← readLE element
    modLE e.previous (fun e => { e with next := element })
    modL list (fun l => { l with last := element })
    incSize list
    pure element

/-- list.c:86-101 `list_prepend`. -/
def prepend (A : Alloc) (list value : Nat) : M Nat := do
  let element ← M.alloc A (.lelem ⟨A.junk, A.junk, A.junk⟩)
  modLE element (fun e => { e with value := value })
  modLE element (fun e => { e with previous := 0 })
  let l ← readL list
  if l.first = 0 then
    modLE element (fun e => { e with next := 0 })
    modL list (fun l => { l with first := element, last := element })
    incSize list
    pure element
  else
    modLE element (fun e => { e with next := l.first })
    let e ← readLE element
    modLE e.next (fun e => { e with previous := element })
    modL list (fun l => { l with first := element })
    incSize list
    pure element

/-- list.c:103-117 `list_insert_before`. -/
def insertBefore (A : Alloc) (list value next : Nat) : M Nat := do
  let element ← M.alloc A (.lelem ⟨A.junk, A.junk, A.junk⟩)
  modLE element (fun e => { e with value := value })
  modLE element (fun e => { e with next := next })
  let n ← readLE next
  modLE element (fun e => { e with previous := n.previous })
  let n ← readLE next
  if n.previous ≠ 0 then
    modLE n.previous (fun e => { e with next := element })
    modLE next (fun e => { e with previous := element })
    incSize list
    pure element
  else
    modL list (fun l => { l with first := element })
    modLE next (fun e => { e with previous := element })
    incSize list
    pure element

/-- list.c:119-137 `list_remove`. -/
def remove (list element : Nat) : M Unit := do
  let l ← readL list
  if l.first = element then
    if l.last = element then
      modL list (fun l => { l with first := 0, last := 0 })
      M.free element
      decSize list
    else
      let e ← readLE element
      modL list (fun l => { l with first := e.next })
      modLE e.next (fun e => { e with previous := 0 })
      M.free element
      decSize list
  else if l.last = element then
    let e ← readLE element
    modL list (fun l => { l with last := e.previous })
    modLE e.previous (fun e => { e with next := 0 })
    M.free element
    decSize list
  else
    let e ← readLE element
    modLE e.next (fun n => { n with previous := e.previous })
    let e ← readLE element
    modLE e.previous (fun p => { p with next := e.next })
    M.free element
    decSize list

/-- list.c:139-147 `list_pop_first`; NULL when empty. -/
def popFirst (list : Nat) : M Nat := do
  let element ← getFirst list
  if element = 0 then pure 0
  else
    let value ← getValue element
    remove list element
    pure value

/-- list.c:149-157 `list_pop_last`; NULL when empty. -/
def popLast (list : Nat) : M Nat := do
  let element ← getLast list
  if element = 0 then pure 0
  else
    let value ← getValue element
    remove list element
    pure value

/-- list.c:159-162 `list_empty`. -/
def empty (list : Nat) : M Bool := do pure ((← readL list).first == 0)

/-- list.c:164-167 `list_size`. -/
def size (list : Nat) : M Nat := do pure (← readL list).size

/-- list.c:173-174: the loop of `list_foreach`; `f` is the callback with its argument. -/
def foreachLoop (f : Nat → M Unit) (e : Nat) : M Unit := do
  if e = 0 then pure ()
  else
    let v ← getValue e
    f v
    let e ← next e
    foreachLoop f e
partial_fixpoint

/-- list.c:169-175 `list_foreach`. -/
def foreach (list : Nat) (f : Nat → M Unit) : M Unit := do
  let e ← getFirst list
  foreachLoop f e

/-- list.c:177-187 `append_it` and `list_copy`. -/
def copy (A : Alloc) (list : Nat) : M Nat := do
  let copy ← make A
  foreach list (fun value => do
    let _ ← append A copy value
    pure ())
  pure copy

end Verif.CList
