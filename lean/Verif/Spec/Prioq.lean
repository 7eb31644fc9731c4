import Mathlib.Data.Multiset.Basic

/-! Specification of priority queues: a queue is the multiset of its elements. -/

namespace Verif.Spec.Prioq

variable {α : Type}

/-- What the comparator must satisfy: its sign orders the elements totally, ties allowed. -/
structure Preorder (cmp : α → α → Int) : Prop where
  symm : ∀ a b, cmp a b < 0 ↔ 0 < cmp b a
  trans : ∀ a b c, cmp a b ≤ 0 → cmp b c ≤ 0 → cmp a c ≤ 0

/-- The operations. `remove v` removes by the locator last reported for `v`, `removeAt` by a locator. -/
inductive Op (α : Type) where
  | enqueue (v : α)
  | dequeue
  | peek
  | pop
  | remove (v : α)
  | removeAt (loc : Nat)

/-- `Step le m op r m'`: on the multiset `m`, `op` may return `r` and leave `m'`. -/
inductive Step (le : α → α → Prop) : Multiset α → Op α → Option α → Multiset α → Prop
  | enqueue (m v) : Step le m (.enqueue v) none (v ::ₘ m)
  | dequeue (m v) : (∀ w ∈ m, le v w) → Step le (v ::ₘ m) .dequeue (some v) m
  | dequeueEmpty : Step le 0 .dequeue none 0
  | peek (m v) : v ∈ m → (∀ w ∈ m, le v w) → Step le m .peek (some v) m
  | peekEmpty : Step le 0 .peek none 0
  | pop (m v) : Step le (v ::ₘ m) .pop (some v) m
  | popEmpty : Step le 0 .pop none 0
  | remove (m v) : Step le (v ::ₘ m) (.remove v) (some v) m
  | removeAt (m v loc) : Step le (v ::ₘ m) (.removeAt loc) (some v) m

/-- A sequence of operations with their results. -/
inductive Steps (le : α → α → Prop) : Multiset α → List (Op α) → List (Option α) → Multiset α → Prop
  | nil (m) : Steps le m [] [] m
  | cons {m op r m' ops rs m''} : Step le m op r m' → Steps le m' ops rs m'' → Steps le m (op :: ops) (r :: rs) m''

/-- The sequences of operations a user may ask for, whatever results the specification allows on the way: `ok` tells which operation is
allowed on which multiset. -/
def Legal (le : α → α → Prop) (ok : Multiset α → Op α → Prop) : Multiset α → List (Op α) → Prop
  | _, [] => True
  | m, op :: ops => ok m op ∧ ∀ r m', Step le m op r m' → Legal le ok m' ops

/-- Operations on distinct elements: enqueue what is not queued, remove what is queued or what a slot holds. -/
def okDistinct (m : Multiset α) : Op α → Prop
  | .enqueue v => v ∉ m ∧ m.card < 2 ^ 60
  | .remove v => v ∈ m
  | .removeAt loc => loc < m.card
  | _ => True

/-- Operations on arbitrary elements, possibly repeated: no locators of elements. -/
def okRepeated (m : Multiset α) : Op α → Prop
  | .enqueue _ => m.card < 2 ^ 60
  | .remove _ => False
  | .removeAt loc => loc < m.card
  | _ => True

/-- The same, never removing the last slot. -/
def okNotLast (m : Multiset α) : Op α → Prop
  | .enqueue _ => m.card < 2 ^ 60
  | .remove _ => False
  | .removeAt loc => loc + 1 < m.card
  | _ => True

/-- Admissible sequences counted by the number `n` of queued elements only. -/
def Counted : Nat → List (Op α) → Prop
  | _, [] => True
  | n, .enqueue _ :: ops => n < 2 ^ 60 ∧ Counted (n + 1) ops
  | n, .dequeue :: ops => Counted (n - 1) ops
  | n, .peek :: ops => Counted n ops
  | n, .pop :: ops => Counted (n - 1) ops
  | _, .remove _ :: _ => False
  | n, .removeAt loc :: ops => loc < n ∧ Counted (n - 1) ops

/-- The number of elements after such a sequence. -/
def countAfter : Nat → List (Op α) → Nat
  | n, [] => n
  | n, .enqueue _ :: ops => countAfter (n + 1) ops
  | n, .peek :: ops => countAfter n ops
  | n, _ :: ops => countAfter (n - 1) ops

end Verif.Spec.Prioq
