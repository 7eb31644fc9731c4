import Verif.Model.List
import Verif.Model.Integer

/-!
Model of `/repo/src/hashtable.c` on pointer memory, using the list model. The user's `hash` and `cmp` are pure functions of the key pointers
(the keys must not be altered while they are in the table). The functions that call them have `table->hash` and `table->cmp` as parameters, which
`storedHash` and `storedCmp` read from the table when such a function is called; nothing writes these fields after `make_hash_table`. The bucket
array is one block.
-/

namespace Verif.Hash

/-- hashtable.c:9-37 `GOOD_SIZES`. -/
def GOOD_SIZES : List Nat := [53, 97, 193, 389, 769, 1543, 3079, 6151, 12289, 24593, 49157, 98317, 196613, 393241, 786433, 1572869, 3145739,
  6291469, 12582917, 25165843, 50331653, 100663319, 201326611, 402653189, 805306457, 1610612741, 0]

/-- hashtable.c:44-47: the loop that picks the capacity; `none` is a read past the end of `GOOD_SIZES`. -/
def goodSize (capacity : Nat) : List Nat → Option Nat
  | g0 :: g1 :: rest => if g1 ≠ 0 ∧ g0 < capacity then goodSize capacity (g1 :: rest) else some g0
  | _ => none

/-- hashtable.c:39-54 `make_hash_table`. -/
def make (A : Alloc) (capacity hash cmp : Nat) : M Nat := do
  let table ← M.alloc A (.htable ⟨A.junk, A.junk, A.junk, A.junk, A.junk⟩)
  match goodSize capacity GOOD_SIZES with
  | none => ub
  | some capacity =>
    modH table (fun t => { t with capacity := capacity })
    modH table (fun t => { t with size := 0 })
    modH table (fun t => { t with hash := hash })
    modH table (fun t => { t with cmp := cmp })
    let buckets ← M.alloc A (.buckets (List.replicate capacity 0))
    modH table (fun t => { t with table := buckets })
    pure table

/-- `table->table[i]` as a value. -/
def bucket (table i : Nat) : M Nat := do
  let t ← readH table
  let b ← readB t.table
  match b[i]? with
  | some x => pure x
  | none => ub

/-- `table->table[i] = x`. -/
def setBucket (table i x : Nat) : M Unit := do
  let t ← readH table
  let b ← readB t.table
  if i < b.length then M.write t.table (.buckets (b.set i x)) else ub

/-- hashtable.c:56-59 `destroy_hash_element`. -/
def destroyElement (element : Nat) : M Unit := M.free element

/-- hashtable.c:67-68: freeing the elements of a bucket. -/
def destroyBucketLoop (le : Nat) : M Unit := do
  if le = 0 then pure ()
  else
    let e ← CList.getValue le
    destroyElement e
    let le ← CList.next le
    destroyBucketLoop le
partial_fixpoint

/-- hashtable.c:64-70: the buckets from `i` on. -/
def destroyLoop (table i : Nat) : M Unit := do
  let t ← readH table
  if i < t.capacity then
    let list ← bucket table i
    if list ≠ 0 then
      let le ← CList.getFirst list
      destroyBucketLoop le
      CList.destroy list
      destroyLoop table (i + 1)
    else destroyLoop table (i + 1)
  else pure ()
partial_fixpoint

/-- hashtable.c:61-73 `destroy_hash_table`. -/
def destroy (table : Nat) : M Unit := do
  destroyLoop table 0
  let t ← readH table
  M.free t.table
  M.free table

/-- hashtable.c:75-84 `add_element`. -/
def addElement (A : Alloc) (table i key value : Nat) : M Unit := do
  let element ← M.alloc A (.helem ⟨A.junk, A.junk, A.junk, A.junk, A.junk⟩)
  modHE element (fun e => { e with key := key })
  modHE element (fun e => { e with value := value })
  modHE element (fun e => { e with hashTable := table })
  modHE element (fun e => { e with listIndex := i })
  let list ← bucket table i
  let loc ← CList.append A list element
  modHE element (fun e => { e with loc := loc })

/-- hashtable.c:86-89 `hash_table_size`. -/
def size (table : Nat) : M Nat := do pure (← readH table).size

/-- hashtable.c:91-94 `hash_elem_get_key`. -/
def getKey (element : Nat) : M Nat := do pure (← readHE element).key

/-- hashtable.c:96-99 `hash_elem_get_value`. -/
def getValue (element : Nat) : M Nat := do pure (← readHE element).value

/-- hashtable.c:103 `table->hash(key)`: the hash function stored in the table. -/
def storedHash (F : Funs) (table : Nat) : M (Nat → Nat) := do
  let t ← readH table
  pure (F.hash t.hash)

/-- hashtable.c:109 `table->cmp(...)`: the comparator stored in the table; it is called without a context. -/
def storedCmp (F : Funs) (table : Nat) : M (Nat → Nat → Int) := do
  let t ← readH table
  pure (F.cmp t.cmp 0)

/-- hashtable.c:107-112: the loop of `hash_table_get`. -/
def getLoop (cmp : Nat → Nat → Int) (key le : Nat) : M Nat := do
  if le = 0 then pure 0
  else
    let element ← CList.getValue le
    let e ← readHE element
    if cmp key e.key = 0 then pure element
    else
      let le ← CList.next le
      getLoop cmp key le
partial_fixpoint

/-- hashtable.c:101-113 `hash_table_get`. -/
def get (hash : Nat → Nat) (cmp : Nat → Nat → Int) (table key : Nat) : M Nat := do
  let t ← readH table
  if t.capacity = 0 then ub
  else
    let list ← bucket table (hash key % t.capacity)
    if list = 0 then pure 0
    else
      let le ← CList.getFirst list
      getLoop cmp key le

/-- `table->size++`, `table->size--`. -/
def incSize (table : Nat) : M Unit := modH table (fun t => { t with size := (t.size + 1) % 2 ^ 64 })
def decSize (table : Nat) : M Unit := modH table (fun t => { t with size := (t.size + (2 ^ 64 - 1)) % 2 ^ 64 })

/-- hashtable.c:127-139: the loop of `hash_table_put` and what follows it. -/
def putLoop (A : Alloc) (cmp : Nat → Nat → Int) (table i list key value le : Nat) : M Nat := do
  if le = 0 then
    addElement A table i key value
    incSize table
    pure 0
  else
    let old ← CList.getValue le
    let e ← readHE old
    if cmp key e.key = 0 then
      let v ← getValue old
      if v = value then pure 0
      else
        CList.remove list le
        addElement A table i key value
        pure old
    else
      let le ← CList.next le
      putLoop A cmp table i list key value le
partial_fixpoint

/-- hashtable.c:115-140 `hash_table_put`. -/
def put (A : Alloc) (hash : Nat → Nat) (cmp : Nat → Nat → Int) (table key value : Nat) : M Nat := do
  let t ← readH table
  if t.capacity = 0 then ub
  else
    let i := hash key % t.capacity
    let list ← bucket table i
    if list = 0 then
      let list ← CList.make A
      setBucket table i list
      addElement A table i key value
      incSize table
      pure 0
    else
      let le ← CList.getFirst list
      putLoop A cmp table i list key value le

/-- hashtable.c:142-146 `hash_table_detach`. -/
def detach (table element : Nat) : M Unit := do
  let e ← readHE element
  let list ← bucket e.hashTable e.listIndex
  CList.remove list e.loc
  decSize table

/-- hashtable.c:148-152 `hash_table_remove`. -/
def remove (table element : Nat) : M Unit := do
  detach table element
  destroyElement element

/-- hashtable.c:154-160 `hash_table_pop`. -/
def pop (hash : Nat → Nat) (cmp : Nat → Nat → Int) (table key : Nat) : M Nat := do
  let element ← get hash cmp table key
  if element ≠ 0 then
    detach table element
    pure element
  else pure element

/-- hashtable.c:165-172: the loop of `hash_table_pop_any`. -/
def popAnyLoop (table i : Nat) : M Nat := do
  let t ← readH table
  if i < t.capacity then
    let list ← bucket table i
    if list = 0 then popAnyLoop table (i + 1)
    else
      let e ← CList.empty list
      if e then popAnyLoop table (i + 1)
      else
        decSize table
        CList.popFirst list
  else pure 0
partial_fixpoint

/-- hashtable.c:162-173 `hash_table_pop_any`. -/
def popAny (table : Nat) : M Nat := popAnyLoop table 0

/-- hashtable.c:175-183 `get_next`. -/
def getNext (table i : Nat) : M Nat := do
  let t ← readH table
  if i < t.capacity then
    let list ← bucket table i
    if list = 0 then getNext table (i + 1)
    else
      let e ← CList.empty list
      if e then getNext table (i + 1)
      else
        let le ← CList.getFirst list
        CList.getValue le
  else pure 0
partial_fixpoint

/-- hashtable.c:185-188 `hash_table_get_any`. -/
def getAny (table : Nat) : M Nat := getNext table 0

/-- hashtable.c:190-196 `hash_table_get_other`. -/
def getOther (element : Nat) : M Nat := do
  let e ← readHE element
  let le ← CList.next e.loc
  if le ≠ 0 then CList.getValue le
  else getNext e.hashTable ((e.listIndex + 1) % 2 ^ 64)

/-- hashtable.c:198-201 `hash_table_empty`. -/
def empty (table : Nat) : M Bool := do pure ((← readH table).size == 0)

/-- `hash * 9973 + d + 9999991` in `uint64_t`. -/
@[irreducible] def mix (hash d : UInt64) : UInt64 := hash * 9973 + d + 9999991

/-- hashtable.c:206-208: the loop of `hash_string`, `uint64_t` arithmetic; `char` is signed (x86). Reading past the block is undefined. -/
def hashStringLoop : List UInt8 → UInt64 → C UInt64
  | [], _ => .error .ub
  | c :: s, hash => if c = 0 then .ok hash else hashStringLoop s (mix hash c.toInt8.toInt64.toUInt64)

/-- hashtable.c:203-209 `hash_string` of the string that starts the block. -/
def hashString (s : List UInt8) : C UInt64 := hashStringLoop s 0

/-- hashtable.c:221-228 `hash_blob`: the loop reads `size` bytes, which must be in the block, and mixes each into the hash. -/
def hashBlob (blob : List UInt8) (size : Nat) : C UInt64 :=
  if size ≤ blob.length then .ok ((blob.take size).foldl (fun hash c => mix hash c.toUInt64) 0) else .error .ub

/-- hashtable.c:211-214 `hash_integer`: the value converted to `uint64_t`. -/
def hashInteger (value : UInt64) : UInt64 := (Integer.asIntptr value).toUInt64

/-- hashtable.c:216-219 `hash_unsigned`. -/
def hashUnsigned (value : UInt64) : UInt64 := Integer.asUintptr value

end Verif.Hash
