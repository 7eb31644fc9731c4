import Verif.Base.Heap
import Verif.Model.IntSet
import Verif.Model.Prioq
import Verif.Model.ByteArray

/-!
`/repo/src/intset.c`, `/repo/src/priority_queue.c` and `/repo/src/bytearray.c` on pointer memory: where the structs and their arrays are, when
they are allocated and freed, and which block an access reads. What the functions compute from the contents of the blocks is taken from
`Verif.Model.IntSet`, `Verif.Model.Prioq` and `Verif.Model.ByteArray`.

Here the source of `byte_array_append` and `byte_array_copy` is a pointer (a block and an offset) and may point into the array itself.
-/

namespace Verif.Objects

/-! ### Sets -/

/-- The words behind a pointer; an array of length zero may be NULL. -/
def loadWords (a : Nat) : M (List UInt64) := if a = 0 then pure [] else readWords a

/-- Write the words back. -/
def storeWords (a : Nat) (w : List UInt64) : M Unit := if a = 0 then pure () else M.write a (.words w)

/-- fsalloc.c:70-77 `fscalloc` of words. Whether zero bytes are NULL is up to the allocator (`null`). -/
def callocWords (A : Alloc) (null : Bool) (n : Nat) : M Nat :=
  if n = 0 ∧ null then pure 0 else M.alloc A (.words (List.replicate n 0))

/-- intset.c:12-18 `make_intset`. -/
def makeIntset (A : Alloc) (null : Bool) (size : UInt64) : M Nat := do
  let s ← M.alloc A (.iset ⟨UInt64.ofNat A.junk, A.junk⟩)
  let x ← readIS s
  M.write s (.iset { x with size := size })
  let d ← callocWords A null (IntSet.bitsToLongs size).toNat
  let x ← readIS s
  M.write s (.iset { x with data := d })
  pure s

/-- intset.c:20-24 `destroy_intset`. -/
def destroyIntset (s : Nat) : M Unit := do
  let x ← readIS s
  M.free x.data
  M.free s

/-- A function of intset.c that neither allocates nor frees. -/
def intsetCall {α : Type} (f : IntSet.IntSet → D (α × IntSet.IntSet)) (s : Nat) : M α := do
  let x ← readIS s
  let w ← loadWords x.data
  let r ← M.lift (f ⟨w, x.size⟩)
  storeWords x.data r.2.data
  M.write s (.iset { x with size := r.2.size })
  pure r.1

/-! ### Priority queues -/

/-- The slots behind a pointer; NULL before the first element. -/
def loadSlots (a : Nat) : M (List (Option Nat)) := if a = 0 then pure [] else readSlots a

/-- Write the slots back. -/
def storeSlots (a : Nat) (w : List (Option Nat)) : M Unit := if a = 0 then pure () else M.write a (.slots w)

/-- priority_queue.c:20-34 `make_priority_queue_2`; `make_priority_queue` (priority_queue.c:36-40) passes NULL as the context. -/
def makePrioq (A : Alloc) (F : Funs) (cmp reloc obj : Nat) : M Nat := do
  let q ← M.alloc A (.pqueue ⟨A.junk, A.junk, A.junk, [], A.junk, A.junk, A.junk⟩)
  let x ← readPQ q
  M.write q (.pqueue { x with cmp := cmp })
  let x ← readPQ q
  M.write q (.pqueue { x with obj := obj })
  let x ← readPQ q
  M.write q (.pqueue { x with reloc := if reloc ≠ 0 then reloc else F.dummyReloc })
  let x ← readPQ q
  M.write q (.pqueue { x with storage := 0 })
  let x ← readPQ q
  M.write q (.pqueue { x with capacity := 0 })
  let x ← readPQ q
  M.write q (.pqueue { x with maxCapacity := 0 })
  pure q

/-- priority_queue.c:42-46 `destroy_priority_queue`. -/
def destroyPrioq (q : Nat) : M Unit := do
  let x ← readPQ q
  M.free x.storage
  M.free q

/-- priority_queue.c:59,106,109 `prq->cmp(..., obj)`: the comparator stored in the queue; nothing writes the field after `make_priority_queue_2`. -/
def storedCmp (F : Funs) (q : Nat) : M (Nat → Nat → Int) := do
  let x ← readPQ q
  pure (F.cmp x.cmp x.obj)

/-- A part of a function of priority_queue.c that neither allocates nor frees. -/
def prioqCall {α : Type} (f : Prioq.PQ Nat → D (α × Prioq.PQ Nat)) (q : Nat) : M α := do
  let x ← readPQ q
  let s ← loadSlots x.storage
  let r ← M.lift (f ⟨s, x.capacity, x.maxCapacity, x.trace⟩)
  storeSlots x.storage r.2.storage
  M.write q (.pqueue { x with capacity := r.2.capacity, maxCapacity := r.2.maxCapacity, trace := r.2.trace })
  pure r.1

/-- `fsrealloc` of the slots: the old block is freed, the new one may be at the same address. -/
def reallocSlots (A : Alloc) (old n : Nat) : M Nat := do
  let s ← loadSlots old
  M.free old
  M.alloc A (.slots (Prioq.realloc s n))

/-- priority_queue.c:69-81: make room for one more element. -/
def growPrioq (A : Alloc) (q : Nat) : M Unit := do
  let x ← readPQ q
  if x.capacity = x.maxCapacity then
    let n ← M.lift (Prioq.growLoop (Prioq.wrap (x.capacity + 1)) 1)
    M.write q (.pqueue { x with maxCapacity := n })
    let x ← readPQ q
    let s ← reallocSlots A x.storage n
    M.write q (.pqueue { x with storage := s })
  else pure ()

/-- priority_queue.c:82-83: the rest of `priorq_enqueue`. -/
def enqueueTail (cmp : Nat → Nat → Int) (value : Nat) (q : Prioq.PQ Nat) : D (Unit × Prioq.PQ Nat) := do
  let r ← Prioq.raise cmp { q with capacity := Prioq.wrap (q.capacity + 1) } q.capacity value
  let q ← liftC (Prioq.assign r.1 r.2 value)
  pure ((), q)

/-- priority_queue.c:67-84 `priorq_enqueue`. -/
def enqueueM (A : Alloc) (cmp : Nat → Nat → Int) (q value : Nat) : M Unit := do
  growPrioq A q
  prioqCall (enqueueTail cmp value) q

/-! ### Byte arrays -/

/-- bytearray.c:16-28 `make_byte_array`. -/
def makeByteArray (A : Alloc) (junk : BA.Junk) (maxSize : Nat) : M Nat := do
  let array ← M.alloc A (.barray ⟨A.junk, A.junk, A.junk, A.junk, UInt32.ofNat A.junk⟩)
  let a ← readBA array
  M.write array (.barray { a with cursor := 0 })
  let a ← readBA array
  M.write array (.barray { a with maxSize := maxSize })
  let a ← readBA array
  M.write array (.barray { a with size := if 128 > maxSize then maxSize else 128 })
  let a ← readBA array
  let d ← M.alloc A (.bytes (BA.malloc junk a.size))
  M.write array (.barray { a with data := d })
  let b ← readBytes d
  let b ← M.lift (liftC (wr b 0 0))
  M.write d (.bytes b)
  let a ← readBA array
  M.write array (.barray { a with refCount := 1 })
  pure array

/-- bytearray.c:30-34 `share_byte_array`. -/
def shareByteArray (array : Nat) : M Nat := do
  let a ← readBA array
  M.write array (.barray { a with refCount := a.refCount + 1 })
  pure array

/-- bytearray.c:36-42 `destroy_byte_array`. -/
def destroyByteArray (array : Nat) : M Unit := do
  let a ← readBA array
  M.write array (.barray { a with refCount := a.refCount - 1 })
  let a ← readBA array
  if a.refCount ≠ 0 then pure ()
  else
    M.free a.data
    M.free array

/-- `fsrealloc` of bytes: the old block is freed, the new one may be at the same address. -/
def reallocBytes (A : Alloc) (junk : BA.Junk) (old n : Nat) : M Nat := do
  let b ← readBytes old
  M.free old
  M.alloc A (.bytes (BA.realloc junk b n))

/-- bytearray.c:44-69 `ensure_space`. -/
def ensureSpaceM (A : Alloc) (junk : BA.Junk) (array len : Nat) : M Bool := do
  let a ← readBA array
  if len ≥ BA.sub64 a.maxSize a.cursor then pure false
  else if len ≥ BA.sub64 a.size a.cursor then
    let n := BA.roundUp 0 (BA.add64 (BA.add64 a.cursor len) 1)
    M.write array (.barray { a with size := n })
    let a ← readBA array
    let d ← reallocBytes A junk a.data n
    M.write array (.barray { a with data := d })
    pure true
  else pure true

/-- The `len` bytes from offset `off` of a block on. -/
def fetch (src off len : Nat) : M (List UInt8) :=
  if len = 0 then pure []
  else do
    let b ← readBytes src
    if off + len ≤ b.length then pure ((b.drop off).take len) else ub

/-- `memmove(array->data + pos, src + off, len)` -/
def memmoveM (array pos src off len : Nat) : M Unit := do
  let bs ← fetch src off len
  let a ← readBA array
  let d ← readBytes a.data
  let d ← M.lift (liftC (BA.memmove d pos bs))
  M.write a.data (.bytes d)

/-- `array->data[array->cursor] = 0` -/
def terminateM (array : Nat) : M Unit := do
  let a ← readBA array
  let d ← readBytes a.data
  let d ← M.lift (liftC (wr d a.cursor 0))
  M.write a.data (.bytes d)

/-- `array->cursor = n` -/
def setCursor (array n : Nat) : M Unit := do
  let a ← readBA array
  M.write array (.barray { a with cursor := n })

/-- bytearray.c:84-89: the part of `byte_array_copy` after the space has been ensured. -/
def copyTailM (array pos src off len : Nat) : M Bool := do
  memmoveM array pos src off len
  let a ← readBA array
  if len > BA.sub64 a.cursor pos then
    setCursor array (BA.add64 pos len)
    terminateM array
    pure true
  else pure true

/-- bytearray.c:71-90 `byte_array_copy`. -/
def copyM (A : Alloc) (junk : BA.Junk) (array pos src off len : Nat) : M Bool := do
  let a ← readBA array
  if pos > a.cursor then pure false
  else if len > BA.sub64 a.cursor pos then
    if ← ensureSpaceM A junk array (BA.sub64 (BA.add64 pos len) a.cursor) then copyTailM array pos src off len
    else pure false
  else copyTailM array pos src off len

/-- bytearray.c:92-95 `byte_array_copy_string`. -/
def copyStringM (A : Alloc) (junk : BA.Junk) (array pos src off : Nat) : M Bool := do
  let b ← readBytes src
  let n ← M.lift (liftC (BA.strlen (b.drop off)))
  copyM A junk array pos src off n

/-- `memcpy(array->data + array->cursor, src + off, len)`: undefined if the two overlap. -/
def memcpyM (array src off len : Nat) : M Unit := do
  let a ← readBA array
  if a.data = src ∧ off < a.cursor + len ∧ a.cursor < off + len then ub
  else memmoveM array a.cursor src off len

/-- bytearray.c:97-106 `byte_array_append`. -/
def appendM (A : Alloc) (junk : BA.Junk) (array src off len : Nat) : M Bool := do
  if ← ensureSpaceM A junk array len then
    memcpyM array src off len
    let a ← readBA array
    setCursor array (BA.add64 a.cursor len)
    terminateM array
    pure true
  else pure false

/-- bytearray.c:108-111 `byte_array_append_string`. -/
def appendStringM (A : Alloc) (junk : BA.Junk) (array src off : Nat) : M Bool := do
  let b ← readBytes src
  let n ← M.lift (liftC (BA.strlen (b.drop off)))
  appendM A junk array src off n

/-- bytearray.c:126-134: `ensure_space`, the callback and the update. The callback touches nothing but the buffer. -/
def streamTailM (A : Alloc) (junk : BA.Junk) (array : Nat) (cb : BA.ReadCb) (len : Nat) : M Int := do
  if ← ensureSpaceM A junk array len then
    let a ← readBA array
    let d ← readBytes a.data
    let d ← M.lift (liftC (BA.memmove d a.cursor (cb len).1))
    M.write a.data (.bytes d)
    if (cb len).2 > 0 then
      let a ← readBA array
      setCursor array (BA.add64 a.cursor (cb len).2.toNat)
      terminateM array
      pure (cb len).2
    else pure (cb len).2
  else pure (-1)

/-- bytearray.c:113-135 `byte_array_append_stream`. -/
def appendStreamM (A : Alloc) (junk : BA.Junk) (array : Nat) (cb : BA.ReadCb) (len : Nat) : M Int := do
  let a ← readBA array
  let available := BA.sub64 a.maxSize a.cursor
  if len ≥ available then
    if available = 1 then pure (-1) else streamTailM A junk array cb (BA.sub64 available 1)
  else streamTailM A junk array cb len

/-- bytearray.c:137-141 `byte_array_clear`. -/
def clearM (array : Nat) : M Unit := do
  setCursor array 0
  terminateM array

/-- bytearray.c:150-152: the part of `byte_array_resize` after the growing. -/
def resizeTailM (array n : Nat) : M Bool := do
  setCursor array n
  terminateM array
  pure true

/-- bytearray.c:143-153 `byte_array_resize`. -/
def resizeM (A : Alloc) (junk : BA.Junk) (array n : Nat) (c : UInt8) : M Bool := do
  let a ← readBA array
  if n > a.cursor then
    if ← ensureSpaceM A junk array (BA.sub64 n a.cursor) then
      let a ← readBA array
      let d ← readBytes a.data
      let d ← M.lift (liftC (BA.memmove d a.cursor (List.replicate (BA.sub64 n a.cursor) c)))
      M.write a.data (.bytes d)
      resizeTailM array n
    else pure false
  else resizeTailM array n

/-- bytearray.c:155-158 `byte_array_data`. -/
def dataM (array : Nat) : M Nat := do pure (← readBA array).data

/-- bytearray.c:160-163 `byte_array_size`. -/
def sizeM (array : Nat) : M Nat := do pure (← readBA array).cursor

end Verif.Objects
