/-! Specification of a set of small integers: a predicate, updated point by point. -/

namespace Verif.Spec.IntSet

/-- Abstract calls. -/
inductive Op
  | add (e : Nat)
  | remove (e : Nat)
  | fill

/-- The effect of a call on a set of numbers below `n`; numbers outside are ignored. -/
def apply (n : Nat) (S : Nat → Bool) : Op → Nat → Bool
  | .add e, i => if i = e then decide (i < n) else S i
  | .remove e, i => if i = e then false else S i
  | .fill, i => decide (i < n)

/-- The set after a sequence of calls on the empty set. -/
def after (n : Nat) (ops : List Op) : Nat → Bool := ops.foldl (apply n) (fun _ => false)

/-- `r` is the least number at or above `lo` and below `n` satisfying `P`, or -1 if there is none. -/
def IsNext (n : Nat) (P : Nat → Prop) (lo : Nat) (r : Int) : Prop :=
  (r = -1 ∧ ∀ i, lo ≤ i → i < n → ¬ P i) ∨
  ∃ m : Nat, r = m ∧ lo ≤ m ∧ m < n ∧ P m ∧ ∀ i, lo ≤ i → i < m → ¬ P i

end Verif.Spec.IntSet
