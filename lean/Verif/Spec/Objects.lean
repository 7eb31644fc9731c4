import Verif.Spec.IntSet
import Verif.Spec.Prioq
import Verif.Spec.ByteArray

/-!
Programs on sets, priority queues and byte arrays as their user sees them: a set is a predicate, a queue a multiset, a byte array a
sequence of bytes with a number of owners. Nothing here mentions memory, except the blocks of the user's own that calls read from.
-/

namespace Verif.Spec.Objects
set_option autoImplicit false

/-- What a call returns; void and new pointers are `unit`. -/
inductive Res
  | unit
  | int (n : Int)
  | elem (v : Option Nat)
  | content (c : List UInt8)
  deriving DecidableEq

/-- Calls on a set. -/
inductive SetOp
  | add (e : UInt32)
  | remove (e : UInt32)
  | fill
  | has (e : UInt32)
  | nextHit (e : UInt32)
  | nextMiss (e : UInt32)
  | empty

/-- Calls on a priority queue. -/
inductive QueueOp
  | enqueue (v : Nat)
  | dequeue
  | peek
  | pop
  | remove (slot : Nat)
  | size

/-- A pointer to bytes: into a block that belongs to the user, or `byte_array_data` of an object plus an offset. -/
inductive Src
  | ext (a off : Nat)
  | own (j off : Nat)

/-- Calls on a byte array. `view` reads `byte_array_size` bytes and the NUL after them through `byte_array_data`. A callback is told the
room and gives the bytes it stores and the number it returns. -/
inductive BytesOp
  | append (src : Src) (len : Nat)
  | appendString (src : Src)
  | copy (pos : Nat) (src : Src) (len : Nat)
  | copyString (pos : Nat) (src : Src)
  | stream (cb : Nat → List UInt8 × Int) (len : Nat)
  | resize (n : Nat) (c : UInt8)
  | clear
  | view
  | share

/-- The commands of a program; objects are numbered in the order of their creation. What the allocator decides is part of the command and
means nothing here: whether an allocation of no bytes is NULL, and the bytes `junk` that new memory holds. -/
inductive Cmd
  | makeSet (null : Bool) (n : UInt64)
  | makeQueue
  | makeBytes (junk : Nat → UInt8) (max : Nat)
  | onSet (i : Nat) (op : SetOp)
  | onQueue (i : Nat) (op : QueueOp)
  | onBytes (i : Nat) (junk : Nat → UInt8) (op : BytesOp)
  | destroy (i : Nat)

/-- An object. -/
inductive Obj
  | set (n : Nat) (S : Nat → Bool)
  | queue (xs : Multiset Nat)
  | bytes (max : Nat) (c : List UInt8) (owners : Nat)

/-- All objects made so far; `none` has been destroyed. -/
abbrev World := List (Option Obj)

/-- A call on a set of numbers below `n`. -/
inductive SetStep (n : Nat) (S : Nat → Bool) : SetOp → Res → (Nat → Bool) → Prop
  | add (e : UInt32) : SetStep n S (.add e) .unit (Spec.IntSet.apply n S (.add e.toNat))
  | remove (e : UInt32) : SetStep n S (.remove e) .unit (Spec.IntSet.apply n S (.remove e.toNat))
  | fill : SetStep n S .fill .unit (Spec.IntSet.apply n S .fill)
  | has (e : UInt32) : SetStep n S (.has e) (.int (if S e.toNat then 1 else 0)) S
  | nextHit (e : UInt32) (r : Int) : Spec.IntSet.IsNext n (fun i => S i = true) e.toNat r → SetStep n S (.nextHit e) (.int r) S
  | nextMiss (e : UInt32) (r : Int) : Spec.IntSet.IsNext n (fun i => S i = false) e.toNat r → SetStep n S (.nextMiss e) (.int r) S
  | isEmpty : (∀ i, S i = false) → SetStep n S .empty (.int 1) S
  | notEmpty (i : Nat) : S i = true → SetStep n S .empty (.int 0) S

/-- A call on a queue. -/
inductive QueueStep (le : Nat → Nat → Prop) (xs : Multiset Nat) : QueueOp → Res → Multiset Nat → Prop
  | enqueue (v : Nat) : QueueStep le xs (.enqueue v) .unit (v ::ₘ xs)
  | dequeue (r : Option Nat) (ys : Multiset Nat) : Spec.Prioq.Step le xs .dequeue r ys → QueueStep le xs .dequeue (.elem r) ys
  | peek (r : Option Nat) (ys : Multiset Nat) : Spec.Prioq.Step le xs .peek r ys → QueueStep le xs .peek (.elem r) ys
  | pop (r : Option Nat) (ys : Multiset Nat) : Spec.Prioq.Step le xs .pop r ys → QueueStep le xs .pop (.elem r) ys
  | remove (slot : Nat) (r : Option Nat) (ys : Multiset Nat) : Spec.Prioq.Step le xs (.removeAt slot) r ys → QueueStep le xs (.remove slot) (.elem r) ys
  | size : QueueStep le xs .size (.int xs.card) xs

/-- The bytes a user may read from a pointer on: of a byte array, its contents and the NUL. -/
def readable (ext : Nat → Option (List UInt8)) (w : World) : Src → Option (List UInt8)
  | .ext a off => match ext a with
    | some c => if off ≤ c.length then some (c.drop off) else none
    | none => none
  | .own j off => match w[j]? with
    | some (some (.bytes _ c _)) => if off ≤ c.length then some ((c ++ [0]).drop off) else none
    | _ => none

/-- The string at the start of some bytes. -/
def text (c : List UInt8) : List UInt8 := c.takeWhile (· ≠ 0)

/-- The request cut down to what fits; no room at all is an error. -/
def stream (max : Nat) (c : List UInt8) (cb : Nat → List UInt8 × Int) (len : Nat) : Int × List UInt8 :=
  let room := max - 1 - c.length
  if 0 < len ∧ room = 0 then (-1, c)
  else ((cb (min len room)).2, c ++ (cb (min len room)).1.take (cb (min len room)).2.toNat)

/-- Success and failure as an `int`. -/
def truth (r : Bool × List UInt8) (k : Nat) : Res × List UInt8 × Nat := (.int (if r.1 then 1 else 0), r.2, k)

/-- A call on a byte array with limit `max`, contents `c` and `k` owners. -/
def bytesStep (ext : Nat → Option (List UInt8)) (w : World) (max : Nat) (c : List UInt8) (k : Nat) : BytesOp → Res × List UInt8 × Nat
  | .append src len => truth (Spec.ByteArray.append max c (((readable ext w src).getD []).take len)) k
  | .appendString src => truth (Spec.ByteArray.append max c (text ((readable ext w src).getD []))) k
  | .copy pos src len => truth (Spec.ByteArray.copy max c pos (((readable ext w src).getD []).take len)) k
  | .copyString pos src => truth (Spec.ByteArray.copy max c pos (text ((readable ext w src).getD []))) k
  | .stream cb len => (.int (stream max c cb len).1, (stream max c cb len).2, k)
  | .resize n b => truth (Spec.ByteArray.resize max c n b) k
  | .clear => (.unit, [], k)
  | .view => (.content (c ++ [0]), c, k)
  | .share => (.unit, c, k + 1)

/-- One command. -/
inductive Step (ext : Nat → Option (List UInt8)) (le : Nat → Nat → Prop) (w : World) : Cmd → Res → World → Prop
  | makeSet (null : Bool) (n : UInt64) : Step ext le w (.makeSet null n) .unit (w ++ [some (.set n.toNat fun _ => false)])
  | makeQueue : Step ext le w .makeQueue .unit (w ++ [some (.queue 0)])
  | makeBytes (junk : Nat → UInt8) (max : Nat) : Step ext le w (.makeBytes junk max) .unit (w ++ [some (.bytes max [] 1)])
  | onSet (i n : Nat) (S S' : Nat → Bool) (op : SetOp) (r : Res) : w[i]? = some (some (.set n S)) → SetStep n S op r S' →
    Step ext le w (.onSet i op) r (w.set i (some (.set n S')))
  | onQueue (i : Nat) (xs ys : Multiset Nat) (op : QueueOp) (r : Res) : w[i]? = some (some (.queue xs)) → QueueStep le xs op r ys →
    Step ext le w (.onQueue i op) r (w.set i (some (.queue ys)))
  | onBytes (i max : Nat) (c : List UInt8) (k : Nat) (junk : Nat → UInt8) (op : BytesOp) : w[i]? = some (some (.bytes max c k)) →
    Step ext le w (.onBytes i junk op) (bytesStep ext w max c k op).1
      (w.set i (some (.bytes max (bytesStep ext w max c k op).2.1 (bytesStep ext w max c k op).2.2)))
  | destroySet (i n : Nat) (S : Nat → Bool) : w[i]? = some (some (.set n S)) → Step ext le w (.destroy i) .unit (w.set i none)
  | destroyQueue (i : Nat) (xs : Multiset Nat) : w[i]? = some (some (.queue xs)) → Step ext le w (.destroy i) .unit (w.set i none)
  | release (i max : Nat) (c : List UInt8) (k : Nat) : w[i]? = some (some (.bytes max c (k + 2))) →
    Step ext le w (.destroy i) .unit (w.set i (some (.bytes max c (k + 1))))
  | destroyBytes (i max : Nat) (c : List UInt8) : w[i]? = some (some (.bytes max c 1)) → Step ext le w (.destroy i) .unit (w.set i none)

/-- A program and its results. -/
inductive Steps (ext : Nat → Option (List UInt8)) (le : Nat → Nat → Prop) : World → List Cmd → List Res → World → Prop
  | nil (w : World) : Steps ext le w [] [] w
  | cons {w w' w'' : World} {c : Cmd} {r : Res} {cs : List Cmd} {rs : List Res} : Step ext le w c r w' → Steps ext le w' cs rs w'' →
    Steps ext le w (c :: cs) (r :: rs) w''

/-- The source points into array `i`. -/
def Src.within (i : Nat) : Src → Prop
  | .ext _ _ => False
  | .own j _ => j = i

/-- What a call on array `i` needs: a readable source, outside the array itself unless nothing can grow; a callback that respects the room it
is given and stores nothing when it reports no data; values of their types. -/
def bytesOk (ext : Nat → Option (List UInt8)) (w : World) (i : Nat) (c : List UInt8) (k : Nat) : BytesOp → Prop
  | .append src len => ∃ bs, readable ext w src = some bs ∧ len ≤ bs.length ∧ (src.within i → len = 0)
  | .appendString src => ∃ bs, readable ext w src = some bs ∧ 0 ∈ bs ∧ (src.within i → text bs = [])
  | .copy pos src len => ∃ bs, readable ext w src = some bs ∧ len ≤ bs.length ∧ len < 2 ^ 64 ∧ (src.within i → pos + len ≤ c.length)
  | .copyString pos src => ∃ bs, readable ext w src = some bs ∧ 0 ∈ bs ∧ bs.length < 2 ^ 64 ∧ (src.within i → pos + (text bs).length ≤ c.length)
  | .stream cb _ => ∀ n, (cb n).1.length ≤ n ∧ (cb n).2 ≤ (cb n).1.length ∧ ((cb n).2 ≤ 0 → (cb n).1 = [])
  | .resize n _ => n < 2 ^ 64
  | .clear => True
  | .view => True
  | .share => k + 1 < 2 ^ 32

/-- What a command needs: a live object of the right kind, and sizes the types can hold. -/
def ok (ext : Nat → Option (List UInt8)) (w : World) : Cmd → Prop
  | .makeSet _ n => n.toNat ≤ 2 ^ 31
  | .makeQueue => True
  | .makeBytes _ max => 0 < max ∧ max < 2 ^ 64
  | .onSet i _ => ∃ n S, w[i]? = some (some (.set n S))
  | .onQueue i op => ∃ xs, w[i]? = some (some (.queue xs)) ∧ match op with
    | .enqueue _ => xs.card < 2 ^ 60
    | .remove slot => slot < xs.card
    | _ => True
  | .onBytes i _ op => ∃ max c k, w[i]? = some (some (.bytes max c k)) ∧ bytesOk ext w i c k op
  | .destroy i => ∃ o, w[i]? = some (some o)

/-- The programs a user may run, whatever results the specification allows on the way. -/
def Legal (ext : Nat → Option (List UInt8)) (le : Nat → Nat → Prop) : World → List Cmd → Prop
  | _, [] => True
  | w, c :: cs => ok ext w c ∧ ∀ r w', Step ext le w c r w' → Legal ext le w' cs

end Verif.Spec.Objects
