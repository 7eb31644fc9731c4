import Mathlib.Data.Multiset.AddSub

/-!
What the user of `list.h` relies on, in terms of the pointers they hold: any number of lists, each a sequence of element pointers with their
values. Which free addresses new lists and elements get is not specified, so the specification is a relation.
-/

namespace Verif.Spec.Lists
set_option autoImplicit false

/-- List pointers with their elements, an element being its pointer and its value. -/
abbrev State := Multiset (Nat × List (Nat × Nat))

/-- The calls; pointers are numbers, NULL is 0. -/
inductive Op
  | make
  | destroy (list : Nat)
  | copy (list : Nat)
  | append (list value : Nat)
  | prepend (list value : Nat)
  | insertBefore (list value elem : Nat)
  | remove (list elem : Nat)
  | popFirst (list : Nat)
  | popLast (list : Nat)
  | first (list : Nat)
  | last (list : Nat)
  | next (elem : Nat)
  | previous (elem : Nat)
  | value (elem : Nat)
  | get (list value : Nat)
  | getByIndex (list : Nat) (i : Int)
  | size (list : Nat)
  | empty (list : Nat)

inductive Res
  | ptr (p : Nat)
  | num (n : Nat)
  | bool (b : Bool)
  | unit

/-- There is such a list. -/
def Has (s : State) (l : Nat) : Prop := ∃ x ∈ s, x.1 = l

/-- The element is in that list. -/
def In (s : State) (l e : Nat) : Prop := ∃ x ∈ s, x.1 = l ∧ ∃ p ∈ x.2, p.1 = e

/-- What the user must see to. -/
def ok (s : State) : Op → Prop
  | .make => True
  | .destroy l | .copy l | .append l _ | .prepend l _ | .popFirst l | .popLast l | .first l | .last l | .get l _ | .empty l => Has s l
  | .insertBefore l _ e | .remove l e => In s l e
  | .next e | .previous e | .value e => ∃ l, In s l e
  | .getByIndex l i => i < 2 ^ 31 ∧ ∃ x ∈ s, x.1 = l ∧ (0 ≤ i ∨ x.2.length < 2 ^ 31)
  | .size l => ∃ x ∈ s, x.1 = l ∧ x.2.length < 2 ^ 64

/-- `a` can be the address of a new block. -/
def Fresh (s : State) (a : Nat) : Prop := a ≠ 0 ∧ ∀ x ∈ s, x.1 ≠ a ∧ ∀ p ∈ x.2, p.1 ≠ a

/-- The first element, NULL if there is none. -/
def head : List (Nat × Nat) → Nat
  | [] => 0
  | (e, _) :: _ => e

/-- Calls that only look at a list. -/
inductive Looks (l : Nat) (xs : List (Nat × Nat)) : Op → Res → Prop
  | first : Looks l xs (.first l) (.ptr (head xs))
  | last : Looks l xs (.last l) (.ptr (head xs.reverse))
  | next {ys zs e v} (h : xs = ys ++ (e, v) :: zs) : Looks l xs (.next e) (.ptr (head zs))
  | previous {ys zs e v} (h : xs = ys ++ (e, v) :: zs) : Looks l xs (.previous e) (.ptr (head ys.reverse))
  | value {e v} (h : (e, v) ∈ xs) : Looks l xs (.value e) (.ptr v)
  | get_hit {ys zs e v} (h : xs = ys ++ (e, v) :: zs) (hn : ∀ p ∈ ys, p.2 ≠ v) : Looks l xs (.get l v) (.ptr e)
  | get_miss {v} (hn : ∀ p ∈ xs, p.2 ≠ v) : Looks l xs (.get l v) (.ptr 0)
  | getByIndex_hit {i : Nat} {e v} (h : xs[i]? = some (e, v)) : Looks l xs (.getByIndex l i) (.ptr e)
  | getByIndex_miss {i : Int} (h : i < 0 ∨ (xs.length : Int) ≤ i) : Looks l xs (.getByIndex l i) (.ptr 0)
  | size : Looks l xs (.size l) (.num xs.length)
  | empty : Looks l xs (.empty l) (.bool (decide (xs.length = 0)))

/-- The elements of a copy: the same values in the same order, at distinct new addresses. -/
structure Copied (s : State) (q : Nat) (xs ys : List (Nat × Nat)) : Prop where
  same : ys.map (·.2) = xs.map (·.2)
  fresh : ∀ a ∈ q :: ys.map (·.1), Fresh s a
  nodup : (q :: ys.map (·.1)).Nodup

/-- One call: the state before, the call, its result and the state after. -/
inductive Step : State → Op → Res → State → Prop
  | make {s a} (hf : Fresh s a) : Step s .make (.ptr a) ((a, []) ::ₘ s)
  | destroy {s l xs} : Step ((l, xs) ::ₘ s) (.destroy l) .unit s
  | copy {s l xs q ys} (h : Copied ((l, xs) ::ₘ s) q xs ys) : Step ((l, xs) ::ₘ s) (.copy l) (.ptr q) ((q, ys) ::ₘ (l, xs) ::ₘ s)
  | append {s l xs a v} (hf : Fresh ((l, xs) ::ₘ s) a) : Step ((l, xs) ::ₘ s) (.append l v) (.ptr a) ((l, xs ++ [(a, v)]) ::ₘ s)
  | prepend {s l xs a v} (hf : Fresh ((l, xs) ::ₘ s) a) : Step ((l, xs) ::ₘ s) (.prepend l v) (.ptr a) ((l, (a, v) :: xs) ::ₘ s)
  | insertBefore {s l xs e u ys a v} (hf : Fresh ((l, xs ++ (e, u) :: ys) ::ₘ s) a) :
      Step ((l, xs ++ (e, u) :: ys) ::ₘ s) (.insertBefore l v e) (.ptr a) ((l, xs ++ (a, v) :: (e, u) :: ys) ::ₘ s)
  | remove {s l xs e u ys} : Step ((l, xs ++ (e, u) :: ys) ::ₘ s) (.remove l e) .unit ((l, xs ++ ys) ::ₘ s)
  | popFirst {s l e v xs} : Step ((l, (e, v) :: xs) ::ₘ s) (.popFirst l) (.ptr v) ((l, xs) ::ₘ s)
  | popFirst_empty {s l} : Step ((l, []) ::ₘ s) (.popFirst l) (.ptr 0) ((l, []) ::ₘ s)
  | popLast {s l e v xs} : Step ((l, xs ++ [(e, v)]) ::ₘ s) (.popLast l) (.ptr v) ((l, xs) ::ₘ s)
  | popLast_empty {s l} : Step ((l, []) ::ₘ s) (.popLast l) (.ptr 0) ((l, []) ::ₘ s)
  | looks {s l xs op r} (h : Looks l xs op r) : Step ((l, xs) ::ₘ s) op r ((l, xs) ::ₘ s)

end Verif.Spec.Lists
