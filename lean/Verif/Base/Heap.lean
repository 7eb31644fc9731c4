import Verif.Base.Diverge

/-!
Pointer memory for `list.c`, `hashtable.c` and `avltree.c`, and for the functions that allocate strings and arrays.

An address is a natural number, 0 is NULL. Memory maps finitely many addresses to live blocks; a block is one C struct or one array. Reading or writing through NULL or a freed address, or as another type, is undefined behaviour; so is freeing such an
address, except that `fsfree(NULL)` has no effect. The allocator is any function that picks a non-NULL address that is not live: freed
addresses may be reused. What it returns is filled with an arbitrary number `junk`. Where it has no room for a
block, `fsalloc` aborts instead of returning NULL (fsalloc.c:14-16). Keys and values are opaque pointers, hence numbers.
-/

namespace Verif

/-- list_imp.h `struct list_elem`. -/
structure LElem where
  value : Nat
  next : Nat
  previous : Nat
  deriving DecidableEq

/-- list_imp.h `struct list`. -/
structure LList where
  first : Nat
  last : Nat
  size : Nat
  deriving DecidableEq

/-- hashtable_imp.h `struct hash_elem`. -/
structure HElem where
  key : Nat
  value : Nat
  hashTable : Nat
  listIndex : Nat
  loc : Nat
  deriving DecidableEq

/-- hashtable_imp.h `struct hash_table`. -/
structure HTable where
  capacity : Nat
  size : Nat
  table : Nat
  hash : Nat
  cmp : Nat
  deriving DecidableEq

/-- avltree_imp.h `struct avl_elem`. -/
structure AElem where
  key : Nat
  value : Nat
  parent : Nat
  left : Nat
  right : Nat
  balance : Int
  deriving DecidableEq

/-- avltree_imp.h `struct avl_tree`. -/
structure ATree where
  root : Nat
  size : Nat
  cmp : Nat
  obj : Nat
  deriving DecidableEq

/-- intset_imp.h `struct intset`. -/
structure ISet where
  size : UInt64
  data : Nat
  deriving DecidableEq

/-- priority_queue.c:7-14 `struct priorq`; `trace` records the calls of `reloc`, newest first. -/
structure PQueue where
  storage : Nat
  capacity : Nat
  maxCapacity : Nat
  trace : List (Nat × Nat)
  cmp : Nat
  reloc : Nat
  obj : Nat
  deriving DecidableEq

/-- bytearray.c:8-14 `struct byte_array`. -/
structure BArray where
  data : Nat
  cursor : Nat
  maxSize : Nat
  size : Nat
  refCount : UInt32
  deriving DecidableEq

/-- The user's functions by address: `cmp f obj a b` is what the comparator `f` returns for `a` and `b` with the context `obj` (0 where it is called
without one), `hash f key` what the hash function `f` returns; `dummyReloc` is the address of `dummy_reloc` (priority_queue.c:16-18). -/
structure Funs where
  cmp : Nat → Nat → Nat → Nat → Int
  hash : Nat → Nat → Nat
  dummyReloc : Nat

/-- A live block. `bytes`, `words`, `slots` and `buckets` are arrays of characters, of `unsigned long`, of element pointers (`none`: never
written) and of list pointers. -/
inductive Cell where
  | lelem (e : LElem)
  | list (l : LList)
  | helem (e : HElem)
  | htable (t : HTable)
  | buckets (b : List Nat)
  | aelem (e : AElem)
  | atree (t : ATree)
  | bytes (b : List UInt8)
  | words (w : List UInt64)
  | slots (s : List (Option Nat))
  | iset (s : ISet)
  | pqueue (q : PQueue)
  | barray (a : BArray)
  deriving DecidableEq

/-- Memory: the live blocks by address; the first entry of an address counts. -/
abbrev Mem := List (Nat × Cell)

namespace Mem

/-- The block at an address. -/
def get (m : Mem) (a : Nat) : Option Cell := (m.find? (fun p => p.1 == a)).map (·.2)

/-- Memory with the block at an address replaced. -/
def set (m : Mem) (a : Nat) (c : Cell) : Mem := (a, c) :: m

/-- Memory without the block at an address. -/
def del (m : Mem) (a : Nat) : Mem := m.filter (fun p => p.1 != a)

theorem get_set (m : Mem) (a b : Nat) (c : Cell) : (m.set a c).get b = if a = b then some c else m.get b := by
  simp only [get, set, List.find?_cons]
  by_cases h : a = b
  · simp [h]
  · have hb : (a == b) = false := by simpa using h
    simp [h, hb]

@[simp] theorem get_set_self (m : Mem) (a : Nat) (c : Cell) : (m.set a c).get a = some c := by simp [get_set]

theorem get_set_ne {m : Mem} {a b : Nat} (h : a ≠ b) (c : Cell) : (m.set a c).get b = m.get b := by simp [get_set, h]

theorem get_del (m : Mem) (a b : Nat) : (m.del a).get b = if a = b then none else m.get b := by
  simp only [get, del]
  induction m with
  | nil => simp
  | cons p m ih =>
    rw [List.filter_cons]
    by_cases h1 : p.1 = a
    · simp only [h1, if_false, Bool.false_eq_true, bne_self_eq_false]
      rw [ih, List.find?_cons]
      by_cases h : a = b
      · simp [h]
      · have hb : (p.1 == b) = false := by rw [h1]; simpa using h
        simp [h, hb]
    · have : (p.1 != a) = true := by simpa using h1
      rw [if_pos this, List.find?_cons, List.find?_cons]
      by_cases h : p.1 = b
      · have hab : ¬ a = b := by rintro rfl; exact h1 h
        simp [h, hab]
      · have hb : (p.1 == b) = false := by simpa using h
        simp only [hb]
        exact ih

@[simp] theorem get_del_self (m : Mem) (a : Nat) : (m.del a).get a = none := by simp [get_del]

theorem get_del_ne {m : Mem} {a b : Nat} (h : a ≠ b) : (m.del a).get b = m.get b := by simp [get_del, h]

end Mem

/-- An allocator: which address it hands out in which memory, what fills a fresh block, and when there is no room for a block. -/
structure Alloc where
  pick : Mem → Nat
  junk : Nat
  full : Mem → Cell → Bool := fun _ _ => false

/-- What malloc promises, and that there is always room. `Props/NoMemory.lean` does without the latter. -/
structure Alloc.Good (A : Alloc) : Prop where
  nonnull : ∀ m : Mem, A.pick m ≠ 0
  fresh : ∀ m : Mem, m.get (A.pick m) = none
  room : ∀ m c, A.full m c = false

/-- There is such an allocator: take a number above all live addresses. -/
def Alloc.example : Alloc := { pick := fun m => (m.map (·.1)).sum + 1, junk := 0xdead }

theorem Alloc.example_good : Alloc.example.Good := by
  refine ⟨fun m => by simp [Alloc.example], fun m => ?_, fun _ _ => rfl⟩
  have key : ∀ (m : Mem) (a : Nat), (m.map (·.1)).sum < a → m.get a = none := by
    intro m a h
    induction m with
    | nil => rfl
    | cons p m ih =>
      simp only [List.map_cons, List.sum_cons] at h
      have hb : (p.1 == a) = false := by
        rw [beq_eq_false_iff_ne]; omega
      have := ih (by omega)
      simp only [Mem.get, List.find?_cons, hb] at this ⊢
      exact this
  exact key m _ (by simp [Alloc.example])

/-- A computation on memory that may go wrong or not return. -/
abbrev M (α : Type) := StateT Mem (ExceptT Err Option) α

/-- Undefined behaviour. -/
def ub {α : Type} : M α := fun _ => liftC (.error .ub)

/-- Read a block. -/
def M.read (a : Nat) : M Cell := fun m =>
  if a = 0 then liftC (.error .ub) else match m.get a with
  | some c => liftC (.ok (c, m))
  | none => liftC (.error .ub)

/-- Overwrite a live block. -/
def M.write (a : Nat) (c : Cell) : M Unit := fun m =>
  if a = 0 then liftC (.error .ub) else match m.get a with
  | some _ => liftC (.ok ((), m.set a c))
  | none => liftC (.error .ub)

/-- `fsalloc`; without room for the block, `naive_realloc` aborts (fsalloc.c:14-16). -/
def M.alloc (A : Alloc) (c : Cell) : M Nat := fun m =>
  if A.full m c then liftC (.error .abort) else liftC (.ok (A.pick m, m.set (A.pick m) c))

/-- `fsfree`. -/
def M.free (a : Nat) : M Unit := fun m =>
  if a = 0 then liftC (.ok ((), m)) else match m.get a with
  | some _ => liftC (.ok ((), m.del a))
  | none => liftC (.error .ub)

/-- `x` run on `m` returns `a` and leaves `m'`. -/
def Run {α : Type} (x : M α) (m : Mem) (a : α) (m' : Mem) : Prop := Returns (x m) (a, m')

theorem Run.bind {α β : Type} {x : M α} {f : α → M β} {m m' m'' : Mem} {a : α} {b : β} (h : Run x m a m') (h' : Run (f a) m' b m'') :
    Run (x >>= f) m b m'' := by
  have : (x >>= f) m = (x m >>= fun p => f p.1 p.2) := rfl
  rw [Run, this, returns_bind h]
  exact h'

theorem Run.pure {α : Type} (a : α) (m : Mem) : Run (Pure.pure a) m a m := by
  have : (Pure.pure a : M α) m = Pure.pure (a, m) := rfl
  rw [Run, this]; simp

theorem run_pure_iff {α : Type} {a b : α} {m m' : Mem} : Run (Pure.pure a) m b m' ↔ a = b ∧ m = m' := by
  have : (Pure.pure a : M α) m = Pure.pure (a, m) := rfl
  rw [Run, this]; simp

theorem Run.unique {α : Type} {x : M α} {m m1 m2 : Mem} {a b : α} (h : Run x m a m1) (h' : Run x m b m2) : a = b ∧ m1 = m2 := by
  have := returns_unique h h'
  simpa using this

/-- Rewriting form of `Run.bind`. -/
theorem run_bind_iff {α β : Type} {x : M α} {f : α → M β} {m m' m'' : Mem} {a : α} {b : β} (h : Run x m a m') :
    Run (x >>= f) m b m'' ↔ Run (f a) m' b m'' := by
  have : (x >>= f) m = (x m >>= fun p => f p.1 p.2) := rfl
  rw [Run, this, returns_bind h]; rfl

theorem run_read {m : Mem} {a : Nat} {c : Cell} (h0 : a ≠ 0) (h : m.get a = some c) : Run (M.read a) m c m := by
  simp [Run, M.read, h0, h, returns_liftC]

theorem run_write {m : Mem} {a : Nat} {c : Cell} (h0 : a ≠ 0) (h : m.get a = some c) (c' : Cell) : Run (M.write a c') m () (m.set a c') := by
  simp [Run, M.write, h0, h, returns_liftC]

theorem run_alloc {A : Alloc} (hA : A.Good) (c : Cell) (m : Mem) : Run (M.alloc A c) m (A.pick m) (m.set (A.pick m) c) := by
  simp [Run, M.alloc, hA.room, returns_liftC]

theorem run_free {m : Mem} {a : Nat} {c : Cell} (h0 : a ≠ 0) (h : m.get a = some c) : Run (M.free a) m () (m.del a) := by
  simp [Run, M.free, h0, h, returns_liftC]

theorem run_free_null (m : Mem) : Run (M.free 0) m () m := by simp [Run, M.free, returns_liftC]

/-! Typed access. -/

def readL (a : Nat) : M LList := do
  match ← M.read a with
  | .list l => pure l
  | _ => ub

def readLE (a : Nat) : M LElem := do
  match ← M.read a with
  | .lelem e => pure e
  | _ => ub

def readH (a : Nat) : M HTable := do
  match ← M.read a with
  | .htable t => pure t
  | _ => ub

def readHE (a : Nat) : M HElem := do
  match ← M.read a with
  | .helem e => pure e
  | _ => ub

def readB (a : Nat) : M (List Nat) := do
  match ← M.read a with
  | .buckets b => pure b
  | _ => ub

def readA (a : Nat) : M ATree := do
  match ← M.read a with
  | .atree t => pure t
  | _ => ub

def readAE (a : Nat) : M AElem := do
  match ← M.read a with
  | .aelem e => pure e
  | _ => ub

def readBytes (a : Nat) : M (List UInt8) := do
  match ← M.read a with
  | .bytes b => pure b
  | _ => ub

def readWords (a : Nat) : M (List UInt64) := do
  match ← M.read a with
  | .words w => pure w
  | _ => ub

def readSlots (a : Nat) : M (List (Option Nat)) := do
  match ← M.read a with
  | .slots s => pure s
  | _ => ub

def readIS (a : Nat) : M ISet := do
  match ← M.read a with
  | .iset s => pure s
  | _ => ub

def readPQ (a : Nat) : M PQueue := do
  match ← M.read a with
  | .pqueue q => pure q
  | _ => ub

def readBA (a : Nat) : M BArray := do
  match ← M.read a with
  | .barray b => pure b
  | _ => ub

/-- A computation that does not touch memory. -/
def M.lift {α : Type} (x : D α) : M α := fun m => x >>= fun a => pure (a, m)

/-- Assignments to fields. -/
def modL (a : Nat) (f : LList → LList) : M Unit := do M.write a (.list (f (← readL a)))
def modLE (a : Nat) (f : LElem → LElem) : M Unit := do M.write a (.lelem (f (← readLE a)))
def modH (a : Nat) (f : HTable → HTable) : M Unit := do M.write a (.htable (f (← readH a)))
def modHE (a : Nat) (f : HElem → HElem) : M Unit := do M.write a (.helem (f (← readHE a)))
def modA (a : Nat) (f : ATree → ATree) : M Unit := do M.write a (.atree (f (← readA a)))
def modAE (a : Nat) (f : AElem → AElem) : M Unit := do M.write a (.aelem (f (← readAE a)))

section
variable {m : Mem} {a : Nat}

theorem run_readL {l : LList} (h0 : a ≠ 0) (h : m.get a = some (.list l)) : Run (readL a) m l m :=
  (run_read h0 h).bind (Run.pure _ _)
theorem run_readLE {e : LElem} (h0 : a ≠ 0) (h : m.get a = some (.lelem e)) : Run (readLE a) m e m :=
  (run_read h0 h).bind (Run.pure _ _)
theorem run_readH {t : HTable} (h0 : a ≠ 0) (h : m.get a = some (.htable t)) : Run (readH a) m t m :=
  (run_read h0 h).bind (Run.pure _ _)
theorem run_readHE {e : HElem} (h0 : a ≠ 0) (h : m.get a = some (.helem e)) : Run (readHE a) m e m :=
  (run_read h0 h).bind (Run.pure _ _)
theorem run_readB {b : List Nat} (h0 : a ≠ 0) (h : m.get a = some (.buckets b)) : Run (readB a) m b m :=
  (run_read h0 h).bind (Run.pure _ _)
theorem run_readA {t : ATree} (h0 : a ≠ 0) (h : m.get a = some (.atree t)) : Run (readA a) m t m :=
  (run_read h0 h).bind (Run.pure _ _)
theorem run_readAE {e : AElem} (h0 : a ≠ 0) (h : m.get a = some (.aelem e)) : Run (readAE a) m e m :=
  (run_read h0 h).bind (Run.pure _ _)

theorem run_readBytes {b : List UInt8} (h0 : a ≠ 0) (h : m.get a = some (.bytes b)) : Run (readBytes a) m b m :=
  (run_read h0 h).bind (Run.pure _ _)
theorem run_readWords {w : List UInt64} (h0 : a ≠ 0) (h : m.get a = some (.words w)) : Run (readWords a) m w m :=
  (run_read h0 h).bind (Run.pure _ _)
theorem run_readSlots {s : List (Option Nat)} (h0 : a ≠ 0) (h : m.get a = some (.slots s)) : Run (readSlots a) m s m :=
  (run_read h0 h).bind (Run.pure _ _)
theorem run_readIS {s : ISet} (h0 : a ≠ 0) (h : m.get a = some (.iset s)) : Run (readIS a) m s m :=
  (run_read h0 h).bind (Run.pure _ _)
theorem run_readPQ {q : PQueue} (h0 : a ≠ 0) (h : m.get a = some (.pqueue q)) : Run (readPQ a) m q m :=
  (run_read h0 h).bind (Run.pure _ _)
theorem run_readBA {b : BArray} (h0 : a ≠ 0) (h : m.get a = some (.barray b)) : Run (readBA a) m b m :=
  (run_read h0 h).bind (Run.pure _ _)
theorem run_lift {α : Type} {x : D α} {r : α} (h : Returns x r) : Run (M.lift x) m r m := by
  rw [Run, M.lift, returns_bind h]; simp

theorem run_modL {l : LList} (h0 : a ≠ 0) (h : m.get a = some (.list l)) (f : LList → LList) : Run (modL a f) m () (m.set a (.list (f l))) :=
  (run_readL h0 h).bind (run_write h0 h _)
theorem run_modLE {e : LElem} (h0 : a ≠ 0) (h : m.get a = some (.lelem e)) (f : LElem → LElem) : Run (modLE a f) m () (m.set a (.lelem (f e))) :=
  (run_readLE h0 h).bind (run_write h0 h _)
theorem run_modH {t : HTable} (h0 : a ≠ 0) (h : m.get a = some (.htable t)) (f : HTable → HTable) : Run (modH a f) m () (m.set a (.htable (f t))) :=
  (run_readH h0 h).bind (run_write h0 h _)
theorem run_modHE {e : HElem} (h0 : a ≠ 0) (h : m.get a = some (.helem e)) (f : HElem → HElem) : Run (modHE a f) m () (m.set a (.helem (f e))) :=
  (run_readHE h0 h).bind (run_write h0 h _)
theorem run_modA {t : ATree} (h0 : a ≠ 0) (h : m.get a = some (.atree t)) (f : ATree → ATree) : Run (modA a f) m () (m.set a (.atree (f t))) :=
  (run_readA h0 h).bind (run_write h0 h _)
theorem run_modAE {e : AElem} (h0 : a ≠ 0) (h : m.get a = some (.aelem e)) (f : AElem → AElem) : Run (modAE a f) m () (m.set a (.aelem (f e))) :=
  (run_readAE h0 h).bind (run_write h0 h _)
end

attribute [irreducible] Mem.get Mem.set Mem.del readL readLE readH readHE readB readA readAE readBytes readWords readSlots readIS readPQ readBA M.lift modL modLE modH modHE modA modAE M.alloc M.free M.read M.write

end Verif
