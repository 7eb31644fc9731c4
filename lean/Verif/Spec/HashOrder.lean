import Verif.Spec.HashTable

/-!
A finer specification of a hash table than that of `Verif/Spec/HashTable.lean`: the order in which its loops run is specified too. The items are kept
from the oldest to the newest; putting a different value under a key makes a new item. A loop goes through the buckets one after the other and through
each from the oldest item to the newest. Only which free address a new element gets is not specified.
-/

set_option autoImplicit false

namespace Verif.Spec.HashOrder
open Spec.Hash (Item Op Res Prog Fresh)

structure State where
  /-- from the oldest to the newest -/
  items : List Item
  loose : Multiset Item

/-- The state with the order forgotten. -/
def State.forget (s : State) : Spec.Hash.State := ⟨↑s.items, s.loose⟩

/-- The order of loops: `cap` buckets, `hash key % cap` being the bucket of `key`. -/
def tour (hash : Nat → Nat) (cap : Nat) (items : List Item) : List Item :=
  (List.range cap).flatMap fun b => items.filter fun i => hash i.key % cap = b

/-- The address of the first item, or NULL. -/
def head : List Item → Nat
  | [] => 0
  | i :: _ => i.elem

/-- Looking for `k` finds an item with key `k'`. -/
def Sees (hash : Nat → Nat) (cmp : Nat → Nat → Int) (cap k k' : Nat) : Prop := cmp k k' = 0 ∧ hash k % cap = hash k' % cap

/-- Looking for `k` among `xs ++ i :: ys` finds `i`. -/
def Finds (hash : Nat → Nat) (cmp : Nat → Nat → Int) (cap k : Nat) (xs : List Item) (i : Item) : Prop :=
  Sees hash cmp cap k i.key ∧ ∀ x ∈ xs, ¬ Sees hash cmp cap k x.key

/-- One call: the state before, the call, its result and the state after. -/
inductive Step (hash : Nat → Nat) (cmp : Nat → Nat → Int) (cap : Nat) : State → Op → Res → State → Prop
  | put_new {items : List Item} {loose k v a} (h : ∀ i ∈ items, ¬ Sees hash cmp cap k i.key) (hf : Fresh ⟨(items : Multiset Item), loose⟩ a) :
      Step hash cmp cap ⟨items, loose⟩ (.put k v) (.ptr 0) ⟨items ++ [⟨a, k, v⟩], loose⟩
  | put_same {xs i ys loose k} (h : Finds hash cmp cap k xs i) :
      Step hash cmp cap ⟨xs ++ i :: ys, loose⟩ (.put k i.value) (.ptr 0) ⟨xs ++ i :: ys, loose⟩
  | put_replace {xs : List Item} {i ys loose k v a} (h : Finds hash cmp cap k xs i) (hv : i.value ≠ v) (hf : Fresh ⟨((xs ++ i :: ys : List Item) : Multiset Item), loose⟩ a) :
      Step hash cmp cap ⟨xs ++ i :: ys, loose⟩ (.put k v) (.ptr i.elem) ⟨xs ++ ys ++ [⟨a, k, v⟩], i ::ₘ loose⟩
  | get_hit {xs i ys loose k} (h : Finds hash cmp cap k xs i) : Step hash cmp cap ⟨xs ++ i :: ys, loose⟩ (.get k) (.ptr i.elem) ⟨xs ++ i :: ys, loose⟩
  | get_miss {s : State} {k} (h : ∀ i ∈ s.items, ¬ Sees hash cmp cap k i.key) : Step hash cmp cap s (.get k) (.ptr 0) s
  | pop_hit {xs i ys loose k} (h : Finds hash cmp cap k xs i) : Step hash cmp cap ⟨xs ++ i :: ys, loose⟩ (.pop k) (.ptr i.elem) ⟨xs ++ ys, i ::ₘ loose⟩
  | pop_miss {s : State} {k} (h : ∀ i ∈ s.items, ¬ Sees hash cmp cap k i.key) : Step hash cmp cap s (.pop k) (.ptr 0) s
  | detach {xs i ys loose} : Step hash cmp cap ⟨xs ++ i :: ys, loose⟩ (.detach i.elem) .unit ⟨xs ++ ys, i ::ₘ loose⟩
  | remove {xs i ys loose} : Step hash cmp cap ⟨xs ++ i :: ys, loose⟩ (.remove i.elem) .unit ⟨xs ++ ys, loose⟩
  | discard {items loose i} : Step hash cmp cap ⟨items, i ::ₘ loose⟩ (.discard i.elem) .unit ⟨items, loose⟩
  | popAny {xs i ys loose rest} (h : tour hash cap (xs ++ i :: ys) = i :: rest) :
      Step hash cmp cap ⟨xs ++ i :: ys, loose⟩ .popAny (.ptr i.elem) ⟨xs ++ ys, i ::ₘ loose⟩
  | popAny_empty {loose} : Step hash cmp cap ⟨[], loose⟩ .popAny (.ptr 0) ⟨[], loose⟩
  | getAny {s : State} : Step hash cmp cap s .getAny (.ptr (head (tour hash cap s.items))) s
  | getOther {s : State} {xs i ys} (h : tour hash cap s.items = xs ++ i :: ys) : Step hash cmp cap s (.getOther i.elem) (.ptr (head ys)) s
  | traverse {s : State} : Step hash cmp cap s .traverse (.ptrs ((tour hash cap s.items).map (·.elem))) s
  | size {s : State} : Step hash cmp cap s .size (.num s.items.length) s
  | empty {s : State} : Step hash cmp cap s .empty (.bool s.items.isEmpty) s
  | key {s : State} {i} (hi : i ∈ (s.items : Multiset Item) + s.loose) : Step hash cmp cap s (.key i.elem) (.ptr i.key) s
  | value {s : State} {i} (hi : i ∈ (s.items : Multiset Item) + s.loose) : Step hash cmp cap s (.value i.elem) (.ptr i.value) s

/-- However the addresses of new elements fall, the program keeps to the rules. -/
def Legal (hash : Nat → Nat) (cmp : Nat → Nat → Int) (cap : Nat) : Prog → State → Prop
  | .done, _ => True
  | .call op next, s => Spec.Hash.ok s.forget op ∧ ∀ r s', Step hash cmp cap s op r s' → Legal hash cmp cap (next r) s'

/-- `Runs p s rs s'`: the program can get the results `rs` and end in `s'`. -/
inductive Runs (hash : Nat → Nat) (cmp : Nat → Nat → Int) (cap : Nat) : Prog → State → List Res → State → Prop
  | done {s} : Runs hash cmp cap .done s [] s
  | call {op next s r s1 rs s2} (h : Step hash cmp cap s op r s1) (h' : Runs hash cmp cap (next r) s1 rs s2) :
      Runs hash cmp cap (.call op next) s (r :: rs) s2

end Verif.Spec.HashOrder
