import Mathlib.Data.Nat.Log
import Verif.Base.Heap
import Verif.Spec.Avl
import Verif.Spec.HashTable
import Verif.Spec.Prioq

/-!
Costs, without looking at how the code computes. A call consults the comparator about at most `n` pairs if some `n` pairs settle its outcome: any
other comparator that gives the same answers on them leads to the same result and the same memory. In the same way a call that changes nothing
looks at `n` objects in memory if these settle its outcome.
-/

namespace Verif.Spec.Cost

/-- The outcome of `f` with the comparator `cmp` is settled by the answers to at most `n` questions. -/
def Asks {α β : Type} (f : (α → α → Int) → β) (cmp : α → α → Int) (n : Nat) : Prop :=
  ∃ ps : List (α × α), ps.length ≤ n ∧ ∀ cmp' : α → α → Int, (∀ p ∈ ps, cmp' p.1 p.2 = cmp p.1 p.2) → f cmp' = f cmp

/-- `x` returns `a` and changes nothing, as it does in any other memory with the same objects at certain `n` addresses. -/
def Looks {α : Type} (x : M α) (m : Mem) (a : α) (n : Nat) : Prop :=
  ∃ S : List Nat, S.length ≤ n ∧ ∀ m' : Mem, (∀ p ∈ S, m'.get p = m.get p) → Run x m' a m'

/-- `step` leads from each of the elements to the next one, and from the last one to NULL; the calls together look at `n` objects. -/
def Passes (step : Nat → M Nat) (m : Mem) : List Nat → Nat → Prop
  | [], _ => True
  | a :: l, n => ∃ n1 n2, n1 + n2 ≤ n ∧ Looks (step a) m l.headI n1 ∧ Passes step m l n2

/-- Questions that a priority queue of `n` elements may ask. -/
def questions {α : Type} (n : Nat) : Prioq.Op α → Nat
  | .enqueue _ => Nat.log 2 (n + 1)
  | .dequeue => 2 * Nat.log 2 n
  | .remove _ | .removeAt _ => 3 * Nat.log 2 n
  | .peek | .pop => 0

/-- Calls of `reloc` that a priority queue of `n` elements may make. -/
def relocations {α : Type} (n : Nat) : Prioq.Op α → Nat
  | .enqueue _ => Nat.log 2 (n + 1) + 1
  | .dequeue => Nat.log 2 n + 1
  | .remove _ | .removeAt _ => 2 * Nat.log 2 n + 1
  | .peek | .pop => 0

/-- The tree in which a call looks for a key, if it does. -/
def searched : Avl.Op → Option Nat
  | .put t _ _ | .get t _ | .getBefore t _ | .getOnOrBefore t _ | .getAfter t _ | .getOnOrAfter t _ | .pop t _ => some t
  | _ => none

/-- The key that a call on a hash table looks for, if it does. -/
def soughtKey : Hash.Op → Option Nat
  | .put k _ | .get k | .pop k => some k
  | _ => none

theorem Looks.run {α : Type} {x : M α} {m : Mem} {a : α} {n : Nat} (h : Looks x m a n) : Run x m a m := by
  obtain ⟨S, -, h⟩ := h
  exact h m fun _ _ => rfl

end Verif.Spec.Cost
