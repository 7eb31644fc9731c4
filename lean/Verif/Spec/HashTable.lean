import Mathlib.Data.Multiset.AddSub

/-!
What the user of `hashtable.h` relies on: a set of items, each an element pointer with its key and value, and the elements that have left the
table but are not yet destroyed. Which free address a new element gets and in which order a traversal runs is not specified, so the
specification is a relation. `sees k k'` says that looking for `k` finds an item with key `k'`.
-/

namespace Verif.Spec.Hash

structure Item where
  elem : Nat
  key : Nat
  value : Nat
deriving DecidableEq

structure State where
  items : Multiset Item
  /-- elements that the user owns and has to destroy -/
  loose : Multiset Item

/-- The calls on one table; pointers are numbers, NULL is 0. -/
inductive Op
  | put (key value : Nat)
  | get (key : Nat)
  | pop (key : Nat)
  | detach (elem : Nat)
  | remove (elem : Nat)
  /-- `destroy_hash_element` -/
  | discard (elem : Nat)
  | popAny
  | getAny
  | getOther (elem : Nat)
  /-- `hash_table_get_any`, then `hash_table_get_other` until it returns NULL -/
  | traverse
  | size
  | empty
  | key (elem : Nat)
  | value (elem : Nat)

inductive Res
  | ptr (p : Nat)
  | ptrs (ps : List Nat)
  | num (n : Nat)
  | bool (b : Bool)
  | unit

/-- What the user must see to. -/
def ok (s : State) : Op → Prop
  | .detach e | .remove e | .getOther e => ∃ i ∈ s.items, i.elem = e
  | .discard e => ∃ i ∈ s.loose, i.elem = e
  | .key e | .value e => ∃ i ∈ s.items + s.loose, i.elem = e
  | .size | .empty => s.items.card < 2 ^ 64
  | _ => True

/-- `a` can be the address of a new element. -/
def Fresh (s : State) (a : Nat) : Prop := a ≠ 0 ∧ ∀ i ∈ s.items + s.loose, i.elem ≠ a

/-- One call: the state before, the call, its result and the state after. -/
inductive Step (sees : Nat → Nat → Prop) : State → Op → Res → State → Prop
  | put_new {items loose k v a} (h : ∀ i ∈ items, ¬ sees k i.key) (hf : Fresh ⟨items, loose⟩ a) :
      Step sees ⟨items, loose⟩ (.put k v) (.ptr 0) ⟨⟨a, k, v⟩ ::ₘ items, loose⟩
  | put_same {s : State} {i k} (hi : i ∈ s.items) (hs : sees k i.key) : Step sees s (.put k i.value) (.ptr 0) s
  | put_replace {items loose k v a i} (hs : sees k i.key) (hv : i.value ≠ v) (hf : Fresh ⟨i ::ₘ items, loose⟩ a) :
      Step sees ⟨i ::ₘ items, loose⟩ (.put k v) (.ptr i.elem) ⟨⟨a, k, v⟩ ::ₘ items, i ::ₘ loose⟩
  | get_hit {s : State} {i k} (hi : i ∈ s.items) (hs : sees k i.key) : Step sees s (.get k) (.ptr i.elem) s
  | get_miss {s : State} {k} (h : ∀ i ∈ s.items, ¬ sees k i.key) : Step sees s (.get k) (.ptr 0) s
  | pop_hit {items loose i k} (hs : sees k i.key) : Step sees ⟨i ::ₘ items, loose⟩ (.pop k) (.ptr i.elem) ⟨items, i ::ₘ loose⟩
  | pop_miss {s : State} {k} (h : ∀ i ∈ s.items, ¬ sees k i.key) : Step sees s (.pop k) (.ptr 0) s
  | detach {items loose i} : Step sees ⟨i ::ₘ items, loose⟩ (.detach i.elem) .unit ⟨items, i ::ₘ loose⟩
  | remove {items loose i} : Step sees ⟨i ::ₘ items, loose⟩ (.remove i.elem) .unit ⟨items, loose⟩
  | discard {items loose i} : Step sees ⟨items, i ::ₘ loose⟩ (.discard i.elem) .unit ⟨items, loose⟩
  | popAny {items loose i} : Step sees ⟨i ::ₘ items, loose⟩ .popAny (.ptr i.elem) ⟨items, i ::ₘ loose⟩
  | popAny_empty {loose} : Step sees ⟨0, loose⟩ .popAny (.ptr 0) ⟨0, loose⟩
  | getAny {s : State} {i} (hi : i ∈ s.items) : Step sees s .getAny (.ptr i.elem) s
  | getAny_empty {loose} : Step sees ⟨0, loose⟩ .getAny (.ptr 0) ⟨0, loose⟩
  | getOther {s : State} {i j} (hi : i ∈ s.items) (hj : j ∈ s.items) (hne : i.elem ≠ j.elem) : Step sees s (.getOther i.elem) (.ptr j.elem) s
  | getOther_last {s : State} {i} (hi : i ∈ s.items) : Step sees s (.getOther i.elem) (.ptr 0) s
  | traverse {s : State} {l : List Item} (h : (l : Multiset Item) = s.items) : Step sees s .traverse (.ptrs (l.map (·.elem))) s
  | size {s : State} : Step sees s .size (.num s.items.card) s
  | empty {s : State} : Step sees s .empty (.bool (decide (s.items.card = 0))) s
  | key {s : State} {i} (hi : i ∈ s.items + s.loose) : Step sees s (.key i.elem) (.ptr i.key) s
  | value {s : State} {i} (hi : i ∈ s.items + s.loose) : Step sees s (.value i.elem) (.ptr i.value) s

/-- A program using one table: each call depends on the results of the calls before it. -/
inductive Prog
  | done
  | call (op : Op) (next : Res → Prog)

/-- However the unspecified choices fall, the program keeps to the rules. -/
def Legal (sees : Nat → Nat → Prop) : Prog → State → Prop
  | .done, _ => True
  | .call op next, s => ok s op ∧ ∀ r s', Step sees s op r s' → Legal sees (next r) s'

/-- `Runs p s rs s'`: the program can get the results `rs` and end in `s'`. -/
inductive Runs (sees : Nat → Nat → Prop) : Prog → State → List Res → State → Prop
  | done {s} : Runs sees .done s [] s
  | call {op next s r s1 rs s2} (h : Step sees s op r s1) (h' : Runs sees (next r) s1 rs s2) : Runs sees (.call op next) s (r :: rs) s2

end Verif.Spec.Hash
