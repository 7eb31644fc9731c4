import Verif.Base.Diverge

/-!
Model of `/repo/src/priority_queue.c`.

The elements are of any type; the queue only passes them on. `cmp` (with its context argument) is a function of the two elements. The
storage is a list of slots, `none` being a slot never written: reading it is undefined behaviour. The calls of `reloc` are recorded,
newest first, in `trace`. `size_t` arithmetic is modulo 2^64, a pointer has 8 bytes. Allocation does not fail (`fsrealloc` aborts).
-/

namespace Verif.Prioq

/-- priority_queue.c:7-14 `struct priorq` without the callbacks; `trace` records the calls `reloc(elem, loc, obj)`. -/
structure PQ (α : Type) where
  storage : List (Option α)
  capacity : Nat
  maxCapacity : Nat
  trace : List (α × Nat)

variable {α : Type}

/-- `size_t` arithmetic. -/
def wrap (n : Nat) : Nat := n % 2 ^ 64

/-- priority_queue.c:20-34 `make_priority_queue_2`. -/
def make : PQ α := { storage := [], capacity := 0, maxCapacity := 0, trace := [] }

/-- `prq->storage[slot]` -/
def get (q : PQ α) (slot : Nat) : C α :=
  match q.storage[slot]? with
  | some (some a) => .ok a
  | _ => .error .ub

/-- priority_queue.c:48-52 `assign`. -/
def assign (q : PQ α) (slot : Nat) (value : α) : C (PQ α) :=
  if slot < q.storage.length then
    .ok { q with storage := q.storage.set slot (some value), trace := (value, slot) :: q.trace }
  else .error .ub

/-- priority_queue.c:54-65 `raise`. -/
def raise (cmp : α → α → Int) (q : PQ α) (slot : Nat) (value : α) : D (PQ α × Nat) := do
  if slot = 0 then pure (q, slot)
  else
    let p ← liftC (get q ((slot - 1) / 2))
    if cmp value p ≥ 0 then pure (q, slot)
    else
      let q ← liftC (assign q slot p)
      raise cmp q ((slot - 1) / 2) value
partial_fixpoint

/-- priority_queue.c:70-76: the doubling loop of `priorq_enqueue`. -/
def growLoop (limit n : Nat) : D Nat := do
  if n < limit then
    if n > (2 ^ 64 - 1) / 2 then pure (2 ^ 64 - 1) else growLoop limit (wrap (2 * n))
  else pure n
partial_fixpoint

/-- `fsrealloc(storage, n * sizeof *storage)`: old contents, then slots never written; as many as fit into the wrapped byte count. -/
def realloc (storage : List (Option α)) (n : Nat) : List (Option α) :=
  (storage ++ List.replicate (wrap (n * 8) / 8) none).take (wrap (n * 8) / 8)

/-- priority_queue.c:69-81: make room for one more element. -/
def grow (q : PQ α) : D (PQ α) := do
  if q.capacity = q.maxCapacity then
    let n ← growLoop (wrap (q.capacity + 1)) 1
    pure { q with storage := realloc q.storage n, maxCapacity := n }
  else pure q

/-- priority_queue.c:67-84 `priorq_enqueue`. -/
def enqueue (cmp : α → α → Int) (q : PQ α) (value : α) : D (PQ α) := do
  let q ← grow q
  let r ← raise cmp { q with capacity := wrap (q.capacity + 1) } q.capacity value
  liftC (assign r.1 r.2 value)

/-- priority_queue.c:86-89 `priorq_size`. -/
def size (q : PQ α) : Nat := q.capacity

/-- priority_queue.c:91-94 `priorq_empty`. -/
def empty (q : PQ α) : Bool := size q == 0

/-- priority_queue.c:103-108: which child to follow. -/
def branchOf (cmp : α → α → Int) (q : PQ α) (left right : Nat) : C Nat :=
  if right ≥ q.capacity then .ok left
  else match get q left with
    | .error e => .error e
    | .ok l => match get q right with
      | .error e => .error e
      | .ok r => .ok (if cmp l r < 0 then left else right)

/-- priority_queue.c:96-115 `lower`. -/
def lower (cmp : α → α → Int) (q : PQ α) (slot : Nat) (value : α) : D (PQ α) := do
  let left := wrap (slot * 2 + 1)
  if left ≥ q.capacity then liftC (assign q slot value)
  else
    let branch ← liftC (branchOf cmp q left (wrap (left + 1)))
    let b ← liftC (get q branch)
    if cmp value b ≤ 0 then liftC (assign q slot value)
    else
      let q ← liftC (assign q slot b)
      lower cmp q branch value
partial_fixpoint

/-- priority_queue.c:117-130 `priorq_dequeue`. -/
def dequeue (cmp : α → α → Int) (q : PQ α) : D (Option α × PQ α) := do
  if q.capacity = 0 then pure (none, q)
  else if q.capacity = 1 then
    let v ← liftC (get q 0)
    pure (some v, { q with capacity := 0 })
  else
    let value ← liftC (get q 0)
    let other ← liftC (get q (q.capacity - 1))
    let q ← lower cmp { q with capacity := q.capacity - 1 } 0 other
    pure (some value, q)

/-- priority_queue.c:132-137 `priorq_peek`. -/
def peek (q : PQ α) : C (Option α) :=
  if empty q then .ok none
  else match get q 0 with
    | .error e => .error e
    | .ok v => .ok (some v)

/-- priority_queue.c:139-144 `priorq_pop`. -/
def pop (q : PQ α) : C (Option α × PQ α) :=
  if empty q then .ok (none, q)
  else match get q (q.capacity - 1) with
    | .error e => .error e
    | .ok v => .ok (some v, { q with capacity := q.capacity - 1 })

/-- priority_queue.c:146-153 `priorq_remove`. -/
def remove (cmp : α → α → Int) (q : PQ α) (slot : Nat) : D (α × PQ α) := do
  let value ← liftC (get q slot)
  let n := wrap (q.capacity + (2 ^ 64 - 1))
  let other ← liftC (get q n)
  let r ← raise cmp { q with capacity := n } slot other
  let q ← lower cmp r.1 r.2 other
  pure (value, q)

end Verif.Prioq
