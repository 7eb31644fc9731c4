import Verif.Spec.Avl
import Verif.Spec.Lists
import Verif.Spec.HashTable
import Verif.Spec.Objects
import Verif.Spec.Strings
import Verif.Base.Heap
import Mathlib.Logic.Function.Basic
import Mathlib.Algebra.BigOperators.Group.Multiset.Basic
import Mathlib.Data.Finset.Card

/-!
Programs that use several parts of the library at once: AVL trees, lists, hash tables, and sets, queues and byte arrays. Each part is described
on its own; the specification of the whole is that the parts know nothing of each other.
-/

namespace Verif.Spec.Whole
set_option autoImplicit false

/-- One part of the library as its user sees it. -/
structure Api where
  Op : Type
  Res : Type
  St : Type
  /-- nothing has been made yet -/
  start : St
  /-- the user may make this call -/
  ok : St → Op → Prop
  /-- the call can have this result and lead to this state -/
  Step : St → Op → Res → St → Prop
  /-- everything has been destroyed -/
  gone : St → Prop
  /-- pointers the user holds -/
  holds : St → Nat → Prop
  /-- the part may be using so many blocks of memory -/
  size : St → Nat → Prop

/-! ### The parts -/

/-- AVL trees with the same comparator. -/
def trees (cmp : Nat → Nat → Int) : Api where
  Op := Avl.Op
  Res := Avl.Res
  St := Avl.State
  start := ⟨0, 0⟩
  ok := Avl.ok
  Step := Avl.Step cmp
  gone s := s.trees = 0 ∧ s.loose = 0
  holds s a := (∃ x ∈ s.trees, x.1 = a ∨ ∃ i ∈ x.2, i.elem = a) ∨ ∃ i ∈ s.loose, i.elem = a
  size s n := n = (s.trees.map fun x => 1 + x.2.length).sum + s.loose.card

/-- Lists. -/
def lists : Api where
  Op := Lists.Op
  Res := Lists.Res
  St := Lists.State
  start := 0
  ok := Lists.ok
  Step := Lists.Step
  gone s := s = 0
  holds s a := ∃ x ∈ s, x.1 = a ∨ ∃ p ∈ x.2, p.1 = a
  size s n := n = (s.map fun x => 1 + x.2.length).sum

/-- Calls around a hash table. -/
inductive TableOp
  | make (capacity : Nat)
  | destroy
  | on (op : Hash.Op)

/-- A hash table, if there is one, and the elements that have left it; these outlive the table. `buckets` is the number of buckets of the last table
made. -/
structure Table where
  items : Option (Multiset Hash.Item)
  loose : Multiset Hash.Item
  buckets : Nat

/-- Calls on elements that have left their table. -/
def free : Hash.Op → Prop
  | .discard _ | .key _ | .value _ => True
  | _ => False

def tableOk (s : Table) : TableOp → Prop
  | .make _ => s.items = none
  | .destroy => ∃ items, s.items = some items
  | .on op => match s.items with
    | some items => Hash.ok ⟨items, s.loose⟩ op
    | none => free op ∧ Hash.ok ⟨0, s.loose⟩ op

inductive TableStep (same : Nat → Nat → Prop) : Table → TableOp → Hash.Res → Table → Prop
  | make {n loose b b'} : 0 < b' → b' ≤ max 53 (3 * n) → TableStep same ⟨none, loose, b⟩ (.make n) .unit ⟨some 0, loose, b'⟩
  | destroy {items loose b} : TableStep same ⟨some items, loose, b⟩ .destroy .unit ⟨none, loose, b⟩
  | on {items loose op r items' loose' b} : Hash.Step same ⟨items, loose⟩ op r ⟨items', loose'⟩ →
      TableStep same ⟨some items, loose, b⟩ (.on op) r ⟨some items', loose', b⟩
  | off {loose op r loose' b} : free op → Hash.Step same ⟨0, loose⟩ op r ⟨0, loose'⟩ → TableStep same ⟨none, loose, b⟩ (.on op) r ⟨none, loose', b⟩

/-- Blocks of a table: the table, its array of buckets, a list for some buckets, two blocks for each item. -/
def tableSize (s : Table) (n : Nat) : Prop := match s.items with
  | some items => ∃ lists, lists ≤ s.buckets ∧ (items ≠ 0 → 0 < lists) ∧ n = 2 + lists + 2 * items.card + s.loose.card
  | none => n = s.loose.card

/-- One hash table whose keys are the same if the comparator says so. -/
def table (cmp : Nat → Nat → Int) : Api where
  Op := TableOp
  Res := Hash.Res
  St := Table
  start := ⟨none, 0, 0⟩
  ok := tableOk
  Step := TableStep fun a b => cmp a b = 0
  gone s := s.items = none ∧ s.loose = 0
  holds s a := (∃ items, s.items = some items ∧ ∃ i ∈ items, i.elem = a) ∨ ∃ i ∈ s.loose, i.elem = a
  size := tableSize

/-- Blocks of a set, a queue or a byte array: it and its array. An array of no words may be NULL, and a queue has no array before it gets its first
element. -/
inductive ObjSize : Option Objects.Obj → Nat → Prop
  | gone : ObjSize none 0
  | set {n S} : ObjSize (some (.set n S)) 2
  | emptySet {S} : ObjSize (some (.set 0 S)) 1
  | queue {xs} : ObjSize (some (.queue xs)) 2
  | emptyQueue : ObjSize (some (.queue 0)) 1
  | bytes {max c k} : ObjSize (some (.bytes max c k)) 2

/-- Sets, priority queues and byte arrays; these are named by number and not by pointer. `ext` is the memory of the user's own. -/
def objects (ext : Nat → Option (List UInt8)) (cmp : Nat → Nat → Int) : Api where
  Op := Objects.Cmd
  Res := Objects.Res
  St := Objects.World
  start := []
  ok := Objects.ok ext
  Step w c r w' := Objects.Step ext (fun a b => cmp a b ≤ 0) w c r w'
  gone w := ∀ (i : Nat) o, w[i]? ≠ some (some o)
  holds _ _ := False
  size w n := ∃ ns : List Nat, List.Forall₂ ObjSize w ns ∧ n = ns.sum

/-- Strings and URL encoders. `ext` is the memory of the user's own. -/
def strings (ext : Nat → Option (List UInt8)) : Api where
  Op := Strings.Op
  Res := Strings.Res
  St := Strings.State
  start := fun _ => none
  ok := Strings.ok ext
  Step := Strings.Step ext
  gone s := ∀ p, s p = none
  holds s p := s p ≠ none
  size s n := ∃ ps : Finset Nat, (∀ p, p ∈ ps ↔ s p ≠ none) ∧ n = ps.card

/-- The parts with the callbacks they are made with: trees with a comparator and its context, tables with a hash function and a comparator, queues with
a comparator, a callback for new locations, which may be NULL, and a context. All are pointers. -/
inductive Kind
  | trees (cmp obj : Nat)
  | lists
  | table (hash cmp : Nat)
  | objects (cmp reloc obj : Nat)
  | strings

/-- The parts as their users see them, given the functions that the callbacks point to. The comparator of a table has no context. -/
def Kind.api (F : Funs) (ext : Nat → Option (List UInt8)) : Kind → Api
  | .trees f o => Whole.trees (F.cmp f o)
  | .lists => Whole.lists
  | .table _ f => Whole.table (F.cmp f 0)
  | .objects f _ o => Whole.objects ext (F.cmp f o)
  | .strings => Whole.strings ext

/-! ### Programs -/

/-- A program: each call goes to one of the parts and depends on the results of all calls before it. -/
inductive Prog {ι : Type} (I : ι → Api) : Type
  | done
  | call (i : ι) (op : (I i).Op) (next : (I i).Res → Prog I)

/-- The states of all parts. -/
abbrev World {ι : Type} (I : ι → Api) := (i : ι) → (I i).St

/-- However the unspecified choices fall, the program keeps to the rules of each part. -/
def Legal {ι : Type} [DecidableEq ι] {I : ι → Api} : Prog I → World I → Prop
  | .done, _ => True
  | .call i op next, s => (I i).ok (s i) op ∧ ∀ r t, (I i).Step (s i) op r t → Legal (next r) (Function.update s i t)

/-- `Runs p s rs s'`: the program can get the results `rs` and end in `s'`; a call changes the state of its own part alone. -/
inductive Runs {ι : Type} [DecidableEq ι] {I : ι → Api} : Prog I → World I → List ((i : ι) × (I i).Res) → World I → Prop
  | done {s} : Runs .done s [] s
  | call {i op next s r t rs s'} (h : (I i).Step (s i) op r t) (h' : Runs (next r) (Function.update s i t) rs s') :
      Runs (.call i op next) s (⟨i, r⟩ :: rs) s'

end Verif.Spec.Whole
