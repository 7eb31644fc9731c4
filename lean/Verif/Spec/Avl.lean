import Mathlib.Data.Multiset.AddSub

/-!
What the user of `avltree.h` relies on: any number of trees, each a sequence of items in ascending key order, an item being an element pointer
with its key and value; and the elements that have left a tree but are not yet destroyed. Which free addresses new elements get is not
specified, so the specification is a relation. Claims about the order hold if the comparator is a total preorder, the other ones hold for every
comparator.
-/

namespace Verif.Spec.Avl

structure Item where
  elem : Nat
  key : Nat
  value : Nat
deriving DecidableEq

structure State where
  /-- tree pointers with their items -/
  trees : Multiset (Nat × List Item)
  /-- elements that the user owns and has to destroy -/
  loose : Multiset Item

/-- The comparator is like `memcmp`: a total preorder. -/
structure Order (cmp : Nat → Nat → Int) : Prop where
  anti : ∀ a b, cmp a b < 0 ↔ 0 < cmp b a
  trans : ∀ a b c, cmp a b ≤ 0 → cmp b c ≤ 0 → cmp a c ≤ 0

/-- The calls; pointers are numbers, NULL is 0. -/
inductive Op
  | make
  | destroy (tree : Nat)
  | copy (tree : Nat)
  | put (tree key value : Nat)
  | get (tree key : Nat)
  | getBefore (tree key : Nat)
  | getOnOrBefore (tree key : Nat)
  | getAfter (tree key : Nat)
  | getOnOrAfter (tree key : Nat)
  | getFirst (tree : Nat)
  | getLast (tree : Nat)
  | next (elem : Nat)
  | previous (elem : Nat)
  /-- `avl_tree_get_first`, then `avl_tree_next` until it returns NULL -/
  | forwards (tree : Nat)
  /-- `avl_tree_get_last`, then `avl_tree_previous` until it returns NULL -/
  | backwards (tree : Nat)
  | pop (tree key : Nat)
  | popFirst (tree : Nat)
  | popLast (tree : Nat)
  | detach (tree elem : Nat)
  | remove (tree elem : Nat)
  /-- `destroy_avl_element` -/
  | discard (elem : Nat)
  | size (tree : Nat)
  | empty (tree : Nat)
  | key (elem : Nat)
  | value (elem : Nat)

inductive Res
  | ptr (p : Nat)
  | ptrs (ps : List Nat)
  | num (n : Nat)
  | bool (b : Bool)
  | unit

/-- There is such a tree. -/
def Has (s : State) (t : Nat) : Prop := ∃ x ∈ s.trees, x.1 = t

/-- The element is in that tree. -/
def In (s : State) (t e : Nat) : Prop := ∃ x ∈ s.trees, x.1 = t ∧ ∃ i ∈ x.2, i.elem = e

/-- What the user must see to. -/
def ok (s : State) : Op → Prop
  | .make => True
  | .destroy t | .copy t | .put t _ _ | .get t _ | .getBefore t _ | .getOnOrBefore t _ | .getAfter t _ | .getOnOrAfter t _ | .getFirst t
  | .getLast t | .forwards t | .backwards t | .pop t _ | .popFirst t | .popLast t | .empty t => Has s t
  | .size t => ∃ x ∈ s.trees, x.1 = t ∧ x.2.length < 2 ^ 64
  | .detach t e | .remove t e => In s t e
  | .next e | .previous e => ∃ t, In s t e
  | .discard e => ∃ i ∈ s.loose, i.elem = e
  | .key e | .value e => (∃ t, In s t e) ∨ ∃ i ∈ s.loose, i.elem = e

/-- `a` can be the address of a new block. -/
def Fresh (s : State) (a : Nat) : Prop :=
  a ≠ 0 ∧ (∀ x ∈ s.trees, x.1 ≠ a ∧ ∀ i ∈ x.2, i.elem ≠ a) ∧ ∀ i ∈ s.loose, i.elem ≠ a

/-- `p` is the last of the items that satisfy `P`, or NULL if there is none. -/
def LastWith (P : Item → Prop) (items : List Item) (p : Nat) : Prop :=
  (∃ xs i ys, items = xs ++ i :: ys ∧ P i ∧ (∀ j ∈ ys, ¬ P j) ∧ p = i.elem) ∨ ((∀ j ∈ items, ¬ P j) ∧ p = 0)

/-- `p` is the first of the items that satisfy `P`, or NULL if there is none. -/
def FirstWith (P : Item → Prop) (items : List Item) (p : Nat) : Prop :=
  (∃ xs i ys, items = xs ++ i :: ys ∧ P i ∧ (∀ j ∈ xs, ¬ P j) ∧ p = i.elem) ∨ ((∀ j ∈ items, ¬ P j) ∧ p = 0)

/-- `p` is one of the items or NULL. -/
def Some (items : List Item) (p : Nat) : Prop := (∃ i ∈ items, p = i.elem) ∨ p = 0

/-- Calls that only look at a tree. -/
inductive Looks (cmp : Nat → Nat → Int) (t : Nat) (items : List Item) : Op → Res → Prop
  | get_hit {k i} (hi : i ∈ items) (hk : cmp k i.key = 0) : Looks cmp t items (.get t k) (.ptr i.elem)
  | get_miss {k} (h : Order cmp → ∀ i ∈ items, cmp k i.key ≠ 0) : Looks cmp t items (.get t k) (.ptr 0)
  | getBefore {k p} (hs : Some items p) (h : Order cmp → LastWith (fun i => cmp i.key k < 0) items p) :
      Looks cmp t items (.getBefore t k) (.ptr p)
  | getOnOrBefore {k p} (hs : Some items p) (h : Order cmp → LastWith (fun i => cmp i.key k ≤ 0) items p) :
      Looks cmp t items (.getOnOrBefore t k) (.ptr p)
  | getAfter {k p} (hs : Some items p) (h : Order cmp → FirstWith (fun i => 0 < cmp i.key k) items p) :
      Looks cmp t items (.getAfter t k) (.ptr p)
  | getOnOrAfter {k p} (hs : Some items p) (h : Order cmp → FirstWith (fun i => 0 ≤ cmp i.key k) items p) :
      Looks cmp t items (.getOnOrAfter t k) (.ptr p)
  | getFirst {p} (h : FirstWith (fun _ => True) items p) : Looks cmp t items (.getFirst t) (.ptr p)
  | getLast {p} (h : LastWith (fun _ => True) items p) : Looks cmp t items (.getLast t) (.ptr p)
  | next {xs i ys p} (hi : items = xs ++ i :: ys) (h : FirstWith (fun _ => True) ys p) : Looks cmp t items (.next i.elem) (.ptr p)
  | previous {xs i ys p} (hi : items = xs ++ i :: ys) (h : LastWith (fun _ => True) xs p) : Looks cmp t items (.previous i.elem) (.ptr p)
  | forwards : Looks cmp t items (.forwards t) (.ptrs (items.map (·.elem)))
  | backwards : Looks cmp t items (.backwards t) (.ptrs (items.map (·.elem)).reverse)
  | size : Looks cmp t items (.size t) (.num items.length)
  | empty : Looks cmp t items (.empty t) (.bool (decide (items.length = 0)))
  | key {i} (hi : i ∈ items) : Looks cmp t items (.key i.elem) (.ptr i.key)
  | value {i} (hi : i ∈ items) : Looks cmp t items (.value i.elem) (.ptr i.value)

/-- The new items of a copy: the same keys and values in the same order, at distinct new addresses. -/
structure Copied (s : State) (q : Nat) (items items' : List Item) : Prop where
  same : items'.map (fun i => (i.key, i.value)) = items.map (fun i => (i.key, i.value))
  fresh : ∀ a ∈ q :: items'.map (·.elem), Fresh s a
  nodup : (q :: items'.map (·.elem)).Nodup

/-- One call: the state before, the call, its result and the state after. -/
inductive Step (cmp : Nat → Nat → Int) : State → Op → Res → State → Prop
  | make {ts loose a} (hf : Fresh ⟨ts, loose⟩ a) : Step cmp ⟨ts, loose⟩ .make (.ptr a) ⟨(a, []) ::ₘ ts, loose⟩
  | destroy {t items ts loose} : Step cmp ⟨(t, items) ::ₘ ts, loose⟩ (.destroy t) .unit ⟨ts, loose⟩
  | copy {t items items' ts loose q} (h : Copied ⟨(t, items) ::ₘ ts, loose⟩ q items items') :
      Step cmp ⟨(t, items) ::ₘ ts, loose⟩ (.copy t) (.ptr q) ⟨(q, items') ::ₘ (t, items) ::ₘ ts, loose⟩
  | put_new {t xs ys ts loose k v a} (h : Order cmp → (∀ i ∈ xs, cmp i.key k < 0) ∧ ∀ i ∈ ys, 0 < cmp i.key k)
      (hf : Fresh ⟨(t, xs ++ ys) ::ₘ ts, loose⟩ a) :
      Step cmp ⟨(t, xs ++ ys) ::ₘ ts, loose⟩ (.put t k v) (.ptr 0) ⟨(t, xs ++ ⟨a, k, v⟩ :: ys) ::ₘ ts, loose⟩
  | put_replace {t xs i ys ts loose k v a} (h : cmp k i.key = 0) (hf : Fresh ⟨(t, xs ++ i :: ys) ::ₘ ts, loose⟩ a) :
      Step cmp ⟨(t, xs ++ i :: ys) ::ₘ ts, loose⟩ (.put t k v) (.ptr i.elem) ⟨(t, xs ++ ⟨a, k, v⟩ :: ys) ::ₘ ts, i ::ₘ loose⟩
  | pop_hit {t xs i ys ts loose k} (h : cmp k i.key = 0) :
      Step cmp ⟨(t, xs ++ i :: ys) ::ₘ ts, loose⟩ (.pop t k) (.ptr i.elem) ⟨(t, xs ++ ys) ::ₘ ts, i ::ₘ loose⟩
  | pop_miss {t items ts loose k} (h : Order cmp → ∀ i ∈ items, cmp k i.key ≠ 0) :
      Step cmp ⟨(t, items) ::ₘ ts, loose⟩ (.pop t k) (.ptr 0) ⟨(t, items) ::ₘ ts, loose⟩
  | popFirst {t i ys ts loose} :
      Step cmp ⟨(t, i :: ys) ::ₘ ts, loose⟩ (.popFirst t) (.ptr i.elem) ⟨(t, ys) ::ₘ ts, i ::ₘ loose⟩
  | popFirst_empty {t ts loose} : Step cmp ⟨(t, []) ::ₘ ts, loose⟩ (.popFirst t) (.ptr 0) ⟨(t, []) ::ₘ ts, loose⟩
  | popLast {t xs i ts loose} :
      Step cmp ⟨(t, xs ++ [i]) ::ₘ ts, loose⟩ (.popLast t) (.ptr i.elem) ⟨(t, xs) ::ₘ ts, i ::ₘ loose⟩
  | popLast_empty {t ts loose} : Step cmp ⟨(t, []) ::ₘ ts, loose⟩ (.popLast t) (.ptr 0) ⟨(t, []) ::ₘ ts, loose⟩
  | detach {t xs i ys ts loose} :
      Step cmp ⟨(t, xs ++ i :: ys) ::ₘ ts, loose⟩ (.detach t i.elem) .unit ⟨(t, xs ++ ys) ::ₘ ts, i ::ₘ loose⟩
  | remove {t xs i ys ts loose} :
      Step cmp ⟨(t, xs ++ i :: ys) ::ₘ ts, loose⟩ (.remove t i.elem) .unit ⟨(t, xs ++ ys) ::ₘ ts, loose⟩
  | discard {i ts loose} : Step cmp ⟨ts, i ::ₘ loose⟩ (.discard i.elem) .unit ⟨ts, loose⟩
  | looks {t items ts loose op r} (h : Looks cmp t items op r) : Step cmp ⟨(t, items) ::ₘ ts, loose⟩ op r ⟨(t, items) ::ₘ ts, loose⟩
  | key_loose {i ts loose} : Step cmp ⟨ts, i ::ₘ loose⟩ (.key i.elem) (.ptr i.key) ⟨ts, i ::ₘ loose⟩
  | value_loose {i ts loose} : Step cmp ⟨ts, i ::ₘ loose⟩ (.value i.elem) (.ptr i.value) ⟨ts, i ::ₘ loose⟩

/-- A program using trees: each call depends on the results of the calls before it. -/
inductive Prog
  | done
  | call (op : Op) (next : Res → Prog)

/-- However the unspecified choices fall, the program keeps to the rules. -/
def Legal (cmp : Nat → Nat → Int) : Prog → State → Prop
  | .done, _ => True
  | .call op next, s => ok s op ∧ ∀ r s', Step cmp s op r s' → Legal cmp (next r) s'

/-- `Runs p s rs s'`: the program can get the results `rs` and end in `s'`. -/
inductive Runs (cmp : Nat → Nat → Int) : Prog → State → List Res → State → Prop
  | done {s} : Runs cmp .done s [] s
  | call {op next s r s1 rs s2} (h : Step cmp s op r s1) (h' : Runs cmp (next r) s1 rs s2) : Runs cmp (.call op next) s (r :: rs) s2

end Verif.Spec.Avl
