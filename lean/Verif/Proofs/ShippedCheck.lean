import Verif.Data.Unidata
import Verif.Data.Category

/-!
Checking the text of UnicodeData.txt against the tables of `Verif/Data`. The text is given by numbers, whose digits in base 256 are the bytes,
the lowest first. The functions are written with recursors, which the kernel evaluates fast; Proofs/Shipped.lean proves what they find.
-/

set_option autoImplicit false

namespace Verif.Shipped
open Verif.Unidata Verif.UniGen
open Verif.Categorize (Kind)

/-- The `k` lowest bytes of a number. -/
def unpack : Nat → Nat → List Nat
  | 0, _ => []
  | k + 1, n => n % 256 :: unpack k (n / 256)

/-- The bit `c` of a mask. -/
noncomputable def bit (mask c : Nat) : Bool := Nat.beq (Nat.land (Nat.shiftRight mask c) (nat_lit 1)) (nat_lit 1)

/-- Characters up to a `d`, in reverse; then `K` with the rest. -/
noncomputable def field (d k n : Nat) (K : List Nat → Nat → Nat → Bool) : Bool :=
  Nat.rec (motive := fun _ => Nat → List Nat → Bool) (fun _ _ => false)
    (fun k ih n acc => Bool.rec (Bool.rec false (K acc k (Nat.shiftRight n (nat_lit 8))) (Nat.beq (Nat.land n (nat_lit 255)) d))
      (ih (Nat.shiftRight n (nat_lit 8)) (Nat.land n (nat_lit 255) :: acc))
      (bit (nat_lit 0xFFFFFFFFFFFFFFFFF7FFFFFF00000000) (Nat.land n (nat_lit 255)))) k n []

noncomputable def both (a b : Bool) : Bool := Bool.rec false b a

noncomputable def allB (mask : Nat) (l : List Nat) : Bool := List.rec true (fun c _ ih => both (bit mask c) ih) l

noncomputable def nonempty (l : List Nat) : Bool := List.rec false (fun _ _ _ => true) l

/-- The value of a digit. -/
noncomputable def digit (c : Nat) : Nat := Nat.add (Nat.land c (nat_lit 15)) (Nat.mul (nat_lit 9) (Nat.shiftRight c (nat_lit 6)))

/-- The value of a number given in reverse. -/
noncomputable def val (b : Nat) (l : List Nat) : Nat := List.rec (nat_lit 0) (fun c _ ih => Nat.add (digit c) (Nat.mul b ih)) l

/-- A number in hexadecimal, in reverse. -/
noncomputable def hexOk (r : List Nat) : Bool := both (nonempty r) (allB (nat_lit 0x7E03FF000000000000) r)

/-- A number in decimal, in reverse. -/
noncomputable def decOk (r : List Nat) : Bool := both (nonempty r) (allB (nat_lit 0x3FF000000000000) r)

/-- The entry of a key. -/
noncomputable def look {α : Type} (t : RTree α) (k : Nat) (z : Bool) (f : α → Bool) : Bool :=
  RTree.rec z (fun _ lo hi v _ il ir => Bool.rec il (Bool.rec ir (f v) (Nat.ble k hi)) (Nat.ble lo k)) t

/-- A subtree with the entries for the keys from `lo` up to `hi`. -/
noncomputable def clip {α : Type} (t : RTree α) (lo hi : Nat) : RTree α :=
  RTree.rec .leaf (fun l a b v r il ir => Bool.rec (Bool.rec (.node l a b v r) (Bool.rec (.node l a b v r) ir (Nat.ble a lo)) (Nat.ble (Nat.succ b) lo)) il (Nat.ble hi a)) t

/-- A field with a code point or nothing, against a table. -/
noncomputable def optOk (t : RTree Nat) (cp : Nat) (r : List Nat) : Bool :=
  List.rec (look t cp true fun _ => false)
    (fun c r _ => both (hexOk (c :: r)) (look t cp false fun v => Nat.beq v (val (nat_lit 16) (c :: r)))) r

/-- The letters of a category. -/
noncomputable def catCode (c : Cat) : Nat :=
  Cat.rec (nat_lit 0x436E) (nat_lit 0x4363) (nat_lit 0x4366) (nat_lit 0x436F) (nat_lit 0x4373) (nat_lit 0x4C6C) (nat_lit 0x4C6D) (nat_lit 0x4C6F) (nat_lit 0x4C74)
    (nat_lit 0x4C75) (nat_lit 0x4D63) (nat_lit 0x4D65) (nat_lit 0x4D6E) (nat_lit 0x4E64) (nat_lit 0x4E6C) (nat_lit 0x4E6F) (nat_lit 0x5063) (nat_lit 0x5064)
    (nat_lit 0x5065) (nat_lit 0x5066) (nat_lit 0x5069) (nat_lit 0x506F) (nat_lit 0x5073) (nat_lit 0x5363) (nat_lit 0x536B) (nat_lit 0x536D) (nat_lit 0x536F)
    (nat_lit 0x5A6C) (nat_lit 0x5A70) (nat_lit 0x5A73) c

noncomputable def catOk (c : Cat) (r : List Nat) : Bool :=
  List.rec false (fun b r _ => List.rec false (fun a r _ => List.rec (Nat.beq (catCode c) (Nat.add (Nat.mul a (nat_lit 256)) b)) (fun _ _ _ => false) r) r) r

/-- `l` is a prefix of `m`. -/
noncomputable def preL (l m : List Nat) : Bool :=
  List.rec (motive := fun _ => List Nat → Bool) (fun _ => true)
    (fun c _ ih m => List.rec false (fun d m _ => both (Nat.beq c d) (ih m)) m) l m

def sFirst : List Nat := [62, 116, 115, 114, 105, 70, 32, 44]
def sLast : List Nat := [62, 116, 115, 97, 76, 32, 44]

noncomputable def kindOk (k : Kind) (r : List Nat) : Bool :=
  Kind.rec (List.rec true (fun c s _ => Bool.rec true (both (not (preL sFirst (c :: s))) (not (preL sLast (c :: s)))) (Nat.beq c (nat_lit 62))) r)
    (preL sFirst r) (preL sLast r) k

/-- The words of a reversed text, each reversed. -/
noncomputable def words (r w : List Nat) (ws : List (List Nat)) : List (List Nat) :=
  List.rec (motive := fun _ => List Nat → List (List Nat) → List (List Nat)) (fun w ws => w.reverse :: ws)
    (fun c _ ih w ws => Bool.rec (ih (c :: w) ws) (ih [] (w.reverse :: ws)) (Nat.beq c (nat_lit 32))) r w ws

/-- Numbers in hexadecimal, in reverse, against a list. -/
noncomputable def numsOk (ws : List (List Nat)) (v : List Nat) : Bool :=
  List.rec (motive := fun _ => List Nat → Bool) (fun v => List.rec true (fun _ _ _ => false) v)
    (fun w _ ih v => List.rec false (fun n v _ => both (hexOk w) (both (Nat.beq (val (nat_lit 16) w) n) (ih v))) v) ws v

/-- The last character is `<`. -/
noncomputable def isLast60 (r : List Nat) : Bool := List.rec (motive := fun _ => Bool → Bool) (fun b => b) (fun c _ ih _ => ih (Nat.beq c (nat_lit 60))) r false

noncomputable def isNil (l : List Nat) : Bool := List.rec true (fun _ _ _ => false) l

noncomputable def rowOk (tr : RTree (Nat × List Nat)) (cp ccc : Nat) (r : List Nat) : Bool :=
  Bool.rec
    (Bool.rec (look tr cp false fun v => both (Nat.beq v.1 ccc) (numsOk (words r [] []) v.2))
      (look tr cp (Nat.beq ccc (nat_lit 0)) fun v => both (Nat.beq v.1 ccc) (isNil v.2)) (isLast60 r))
    (look tr cp (Nat.beq ccc (nat_lit 0)) fun v => both (Nat.beq v.1 ccc) (isNil v.2))
    (isNil r)

noncomputable def lineOk (tc : RTree (Kind × Cat)) (tr : RTree (Nat × List Nat)) (tu tl : RTree Nat) (cp : Nat) (r1 r2 r3 r5 r12 r13 : List Nat) : Bool :=
  both (look tc cp false fun v => both (kindOk v.1 r1) (catOk v.2 r2))
   (both (decOk r3) (both (rowOk tr cp (val (nat_lit 10) r3) r5) (both (optOk tu cp r12) (optOk tl cp r13))))

noncomputable def line (tc : RTree (Kind × Cat)) (tr : RTree (Nat × List Nat)) (tu tl : RTree Nat) (lo k n : Nat) (K : Nat → Nat → Nat → Bool) : Bool :=
  field (nat_lit 59) k n fun r0 k s => field (nat_lit 59) k s fun r1 k s => field (nat_lit 59) k s fun r2 k s => field (nat_lit 59) k s fun r3 k s =>
  field (nat_lit 59) k s fun _ k s => field (nat_lit 59) k s fun r5 k s => field (nat_lit 59) k s fun _ k s => field (nat_lit 59) k s fun _ k s =>
  field (nat_lit 59) k s fun _ k s => field (nat_lit 59) k s fun _ k s => field (nat_lit 59) k s fun _ k s => field (nat_lit 59) k s fun _ k s =>
  field (nat_lit 59) k s fun r12 k s => field (nat_lit 59) k s fun r13 k s => field (nat_lit 10) k s fun _ k s =>
  both (hexOk r0) (both (Nat.ble lo (val (nat_lit 16) r0)) (both (lineOk tc tr tu tl (val (nat_lit 16) r0) r1 r2 r3 r5 r12 r13)
    (K (Nat.succ (val (nat_lit 16) r0)) k s)))

/-- `m` lines with code points from `lo0` up to `hi`. -/
noncomputable def chunk (m lo0 hi k n : Nat) : Bool :=
  Nat.rec (motive := fun _ => Nat → Nat → Nat → Bool) (fun lo k _ => both (Nat.ble lo hi) (Nat.beq k (nat_lit 0)))
    (fun _ ih lo k n => line (clip categoryTable lo0 hi) (clip unicodeData lo0 hi) (clip upperTable lo0 hi) (clip lowerTable lo0 hi) lo k n ih) m lo0 k n

/-- A part of the text: the number of lines, bounds of the code points, the number of bytes and the bytes. -/
structure Chunk where
  m : Nat
  lo : Nat
  hi : Nat
  k : Nat
  n : Nat

/-- The bytes. -/
def Chunk.bytes (c : Chunk) : List Nat := unpack c.k c.n

noncomputable def Chunk.ok (c : Chunk) : Bool := Chunk.rec chunk c

/-- The parts agree with the tables. -/
def AllOk (cs : List Chunk) : Prop := ∀ c ∈ cs, c.ok = true

end Verif.Shipped
