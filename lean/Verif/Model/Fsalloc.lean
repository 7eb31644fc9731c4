import Verif.Base.Outcome

/-!
Model of `/repo/src/fsalloc.c`. A pointer is a `Nat` (0 is NULL). The state is the set of live blocks with their bytes, the two
installed function pointers, and whatever else the installed functions keep (`σ`).
-/

namespace Verif.Fsalloc

/-- Live blocks. -/
abbrev Heap := Nat → Option (List UInt8)

/-- `fs_realloc_t`: `(ptr, size)` to a pointer, with effects. -/
abbrev Realloc (σ : Type) := Nat → Nat → Heap × σ → C (Nat × (Heap × σ))
/-- `fs_reallocator_counter_t`. -/
abbrev Counter (σ : Type) := Int → σ → σ

/-- The static variables of fsalloc.c and the world. -/
structure St (σ : Type) where
  world : Heap × σ
  reallocator : Realloc σ
  counter : Counter σ

/-- fsalloc.c:5-18 `naive_realloc` on Linux, over an arbitrary libc `realloc`. -/
def naiveRealloc {σ : Type} (libc : Realloc σ) : Realloc σ := fun ptr size w =>
  match libc ptr size w with
  | .error e => .error e
  | .ok (obj, w) => if obj = 0 ∧ size ≠ 0 then .error .abort else .ok (obj, w)

/-- fsalloc.c:20,36: the initial state. -/
def init {σ : Type} (libc : Realloc σ) (w : Heap × σ) : St σ := { world := w, reallocator := naiveRealloc libc, counter := fun _ s => s }

/-- fsalloc.c:22-25 `fs_set_reallocator`. -/
def setReallocator {σ : Type} (st : St σ) (r : Realloc σ) : St σ := { st with reallocator := r }
/-- fsalloc.c:27-30 `fs_get_reallocator`. -/
def getReallocator {σ : Type} (st : St σ) : Realloc σ := st.reallocator
/-- fsalloc.c:39-42 `fs_set_reallocator_counter`. -/
def setCounter {σ : Type} (st : St σ) (c : Counter σ) : St σ := { st with counter := c }
/-- fsalloc.c:44-47 `fs_get_reallocator_counter`. -/
def getCounter {σ : Type} (st : St σ) : Counter σ := st.counter
/-- fsalloc.c:49-52 `fs_reallocator_skew`. -/
def skew {σ : Type} (st : St σ) (count : Int) : St σ := { st with world := (st.world.1, st.counter count st.world.2) }

/-- A call of the installed reallocator. -/
def call {σ : Type} (st : St σ) (ptr size : Nat) : C (Nat × St σ) :=
  match st.reallocator ptr size st.world with
  | .error e => .error e
  | .ok (p, w) => .ok (p, { st with world := w })

/-- fsalloc.c:54-57 `fsalloc`. -/
def fsalloc {σ : Type} (st : St σ) (size : Nat) : C (Nat × St σ) := call st 0 size

/-- fsalloc.c:59-63 `fsfree`. -/
def fsfree {σ : Type} (st : St σ) (ptr : Nat) : C (St σ) :=
  if ptr ≠ 0 then match call st ptr 0 with
    | .error e => .error e
    | .ok (_, st) => .ok st
  else .ok st

/-- fsalloc.c:65-68 `fsrealloc`. -/
def fsrealloc {σ : Type} (st : St σ) (ptr size : Nat) : C (Nat × St σ) := call st ptr size

/-- `memset(ptr, 0, n)`. -/
def zero (h : Heap) (ptr n : Nat) : C Heap :=
  match h ptr with
  | none => if n = 0 then .ok h else .error .ub
  | some bs => if n ≤ bs.length then .ok fun p => if p = ptr then some (List.replicate n 0 ++ bs.drop n) else h p
    else .error .ub

/-- fsalloc.c:70-77 `fscalloc`. The product is computed in `size_t`. -/
def fscalloc {σ : Type} (st : St σ) (nmemb size : Nat) : C (Nat × St σ) :=
  let size := size * nmemb % 2 ^ 64
  match fsalloc st size with
  | .error e => .error e
  | .ok (obj, st) =>
    if obj ≠ 0 then match zero st.world.1 obj size with
      | .error e => .error e
      | .ok h => .ok (obj, { st with world := (h, st.world.2) })
    else .ok (obj, st)

end Verif.Fsalloc
