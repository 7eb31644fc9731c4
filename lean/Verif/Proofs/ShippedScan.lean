import Verif.Proofs.ShippedCheck
import Verif.Data.Idna

/-!
Checking the texts of IdnaMappingTable.txt, DerivedNormalizationProps.txt and CompositionExclusions.txt against the tables of `Verif/Data`, as
in ShippedCheck.lean. Proofs/ShippedIdna.lean and Proofs/ShippedProps.lean prove what the functions find.
-/

set_option autoImplicit false

namespace Verif.Shipped
open Verif.Unidata Verif.UniGen

/-- What remains to be done: `key` is the least key of the next entry, `cnt` the number of entries before it. -/
abbrev Cont := (key cnt k n : Nat) → Bool

/-- The bytes of a set, in reverse; then `K` with the rest. -/
noncomputable def span (mask k n : Nat) (K : List Nat → Nat → Nat → Bool) : Bool :=
  Nat.rec (motive := fun _ => Nat → List Nat → Bool) (fun n acc => K acc (nat_lit 0) n)
    (fun k ih n acc => Bool.rec (K acc (Nat.succ k) n) (ih (Nat.shiftRight n (nat_lit 8)) (Nat.land n (nat_lit 255) :: acc)) (bit mask (Nat.land n (nat_lit 255)))) k n []

/-- The next byte is `d`. -/
noncomputable def eat (d k n : Nat) (K : Nat → Nat → Bool) : Bool :=
  Nat.rec (motive := fun _ => Bool) false (fun k _ => both (Nat.beq (Nat.land n (nat_lit 255)) d) (K k (Nat.shiftRight n (nat_lit 8)))) k

/-- Whether the next byte is `d`. -/
noncomputable def peek (d n : Nat) (a b : Bool) : Bool := Bool.rec b a (Nat.beq (Nat.land n (nat_lit 255)) d)

/-- The rest of the line, with bytes of a set. -/
noncomputable def skip (mask k n : Nat) (K : Nat → Nat → Bool) : Bool := span mask k n fun _ k n => eat (nat_lit 10) k n K

/-- All bytes but NUL and line feed. -/
abbrev mAny : Nat := nat_lit 0xFFFFFFFFFFFFFFFFFFFFFFFFFFFFFFFFFFFFFFFFFFFFFFFFFFFFFFFFFFFFFBFE
/-- The printable characters of ASCII. -/
abbrev mAscii : Nat := nat_lit 0x7FFFFFFFFFFFFFFFFFFFFFFF00000000
/-- These without `;` and `#`. -/
abbrev mFree : Nat := nat_lit 0x7FFFFFFFFFFFFFFFF7FFFFF700000000
/-- These without the space. -/
abbrev mWord : Nat := nat_lit 0x7FFFFFFFFFFFFFFFF7FFFFF600000000
/-- The space. -/
abbrev mSpace : Nat := nat_lit 0x100000000
/-- Letters. -/
abbrev mAlpha : Nat := nat_lit 0x7FFFFFE07FFFFFE0000000000000000

noncomputable def eqL (l m : List Nat) : Bool :=
  List.rec (motive := fun _ => List Nat → Bool) (fun m => List.rec true (fun _ _ _ => false) m)
    (fun c _ ih m => List.rec false (fun d m _ => both (Nat.beq c d) (ih m)) m) l m

/-- The second number of a range, and the rest. -/
noncomputable def range2 (w r : List Nat) (U : Nat → Nat → Bool) : Bool :=
  List.rec false (fun d r _ => both (Nat.beq d (nat_lit 46)) (both (hexOk r) (both (hexOk w.reverse) (U (val (nat_lit 16) r) (val (nat_lit 16) w.reverse))))) r

/-- A code point or a range, in reverse. -/
noncomputable def range (r : List Nat) (U : Nat → Nat → Bool) : Bool :=
  List.rec (motive := fun _ => List Nat → Bool) (fun _ => both (hexOk r) (U (val (nat_lit 16) r) (val (nat_lit 16) r)))
    (fun c s ih w => Bool.rec (ih (c :: w)) (range2 w s U) (Nat.beq c (nat_lit 46))) r []

/-- The entry of a key, with its bounds. -/
noncomputable def lookN {α : Type} (t : RTree α) (k : Nat) (f : Nat → Nat → α → Bool) : Bool :=
  RTree.rec false (fun _ lo hi v _ il ir => Bool.rec il (Bool.rec ir (f lo hi v) (Nat.ble k hi)) (Nat.ble lo k)) t

/-- `L` for every line. -/
noncomputable def chunkG (L : Nat → Nat → Nat → Nat → Cont → Bool) (nl m lo hi k n : Nat) : Bool :=
  Nat.rec (motive := fun _ => Cont) (fun key cnt k _ => both (Nat.ble key hi) (both (Nat.beq cnt m) (Nat.beq k (nat_lit 0))))
    (fun _ ih key cnt k n => L key cnt k n ih) nl lo (nat_lit 0) k n

/-! ### IdnaMappingTable.txt -/

/-- The name of a status, in reverse. -/
noncomputable def statusCode (s : Status) : List Nat :=
  Status.rec [100, 105, 108, 97, 118] [100, 101, 112, 112, 97, 109] [100, 101, 114, 111, 110, 103, 105] [110, 111, 105, 116, 97, 105, 118, 101, 100]
    [100, 101, 119, 111, 108, 108, 97, 115, 105, 100] [100, 105, 108, 97, 118, 95, 51, 68, 84, 83, 95, 100, 101, 119, 111, 108, 108, 97, 115, 105, 100]
    [100, 101, 112, 112, 97, 109, 95, 51, 68, 84, 83, 95, 100, 101, 119, 111, 108, 108, 97, 115, 105, 100] s

/-- Numbers in hexadecimal, in reverse, against a list; empty words do not count. -/
noncomputable def numsSp (ws : List (List Nat)) (v : List Nat) : Bool :=
  List.rec (motive := fun _ => List Nat → Bool) (fun v => List.rec true (fun _ _ _ => false) v)
    (fun w _ ih v => List.rec (ih v) (fun _ _ _ => List.rec false (fun n v _ => both (hexOk w) (both (Nat.beq (val (nat_lit 16) w) n) (ih v))) v) w) ws v

/-- The fields of a line against the table: range, status and a test of the mapping. -/
noncomputable def idnaRow (t : RTree (Status × List Nat)) (r0 r1 : List Nat) (M : List Nat → Bool) (key cnt k n : Nat) (K : Cont) : Bool :=
  range r0 fun lo hi => both (Nat.ble key lo) (both (lookN t lo fun a b v => both (Nat.beq lo a) (both (Nat.beq hi b) (both (eqL (statusCode v.1) r1) (M v.2))))
    (skip mAny k n fun k n => K (Nat.succ lo) (Nat.succ cnt) k n))

noncomputable def idnaLine (t : RTree (Status × List Nat)) (key cnt k n : Nat) (K : Cont) : Bool :=
  peek (nat_lit 35) n (skip mAny k n fun k n => K key cnt k n) (peek (nat_lit 10) n (eat (nat_lit 10) k n fun k n => K key cnt k n)
    (span mWord k n fun r0 k n => span mSpace k n fun _ k n => eat (nat_lit 59) k n fun k n =>
     span mSpace k n fun _ k n => span mWord k n fun r1 k n => span mSpace k n fun _ k n =>
     peek (nat_lit 35) n (idnaRow t r0 r1 isNil key cnt k n K)
      (eat (nat_lit 59) k n fun k n => span mFree k n fun r2 k n =>
       peek (nat_lit 35) n (idnaRow t r0 r1 (numsSp (words r2 [] [])) key cnt k n K)
        (eat (nat_lit 59) k n fun k n => span mFree k n fun _ k n => peek (nat_lit 35) n (idnaRow t r0 r1 (numsSp (words r2 [] [])) key cnt k n K) false))))

/-! ### DerivedNormalizationProps.txt -/

/-- A letter at both ends of a word given in reverse. -/
noncomputable def ends (r : List Nat) : Bool :=
  List.rec false (fun c s _ => both (bit mAlpha c) (List.rec (motive := fun _ => Nat → Bool) (fun d => bit mAlpha d) (fun c _ ih _ => ih c) s c)) r

/-- A value of a property. -/
noncomputable def qcOk (v : QC) (r : List Nat) : Bool := QC.rec (eqL [89] r) (eqL [78] r) (eqL [77] r) v

/-- In the file all code points for which a property is `no` come first. -/
noncomputable def qcKey (v : QC) : Nat := QC.rec (nat_lit 0) (nat_lit 0) (nat_lit 0x200000) v

/-- A line about a property with the table `t`, after the name of the property. -/
noncomputable def propLine (t : RTree QC) (sec : Nat) (r0 : List Nat) (key cnt k n : Nat) (K : Cont) : Bool :=
  eat (nat_lit 59) k n fun k n => span mSpace k n fun _ k n => span mWord k n fun r2 k n => span mSpace k n fun _ k n =>
  peek (nat_lit 35) n (range r0 fun lo hi => lookN t lo fun a b v => both (Nat.beq lo a) (both (Nat.beq hi b) (both (qcOk v r2)
    (both (Nat.ble key (Nat.add (Nat.add sec (qcKey v)) lo)) (skip mAscii k n fun k n => K (Nat.succ (Nat.add (Nat.add sec (qcKey v)) lo)) (Nat.succ cnt) k n))))) false

noncomputable def propsLine (tc td tkc tkd : RTree QC) (key cnt k n : Nat) (K : Cont) : Bool :=
  peek (nat_lit 35) n (skip mAny k n fun k n => K key cnt k n) (peek (nat_lit 10) n (eat (nat_lit 10) k n fun k n => K key cnt k n)
    (span mWord k n fun r0 k n => span mSpace k n fun _ k n => eat (nat_lit 59) k n fun k n =>
     span mSpace k n fun _ k n => span mWord k n fun r1 k n => span mSpace k n fun _ k n =>
     Bool.rec (Bool.rec (Bool.rec (Bool.rec
      (both (ends r1) (peek (nat_lit 35) n (skip mAscii k n fun k n => K key cnt k n)
        (eat (nat_lit 59) k n fun k n => span mFree k n fun _ k n => peek (nat_lit 35) n (skip mAscii k n fun k n => K key cnt k n) false)))
      (propLine tkd (nat_lit 0x800000) r0 key cnt k n K) (eqL [67, 81, 95, 68, 75, 70, 78] r1))
      (propLine tkc (nat_lit 0xC00000) r0 key cnt k n K) (eqL [67, 81, 95, 67, 75, 70, 78] r1))
      (propLine tc (nat_lit 0x400000) r0 key cnt k n K) (eqL [67, 81, 95, 67, 70, 78] r1))
      (propLine td (nat_lit 0) r0 key cnt k n K) (eqL [67, 81, 95, 68, 70, 78] r1)))

/-! ### CompositionExclusions.txt -/

noncomputable def nth (l : List Nat) (i v : Nat) : Bool :=
  List.rec (motive := fun _ => Nat → Bool) (fun _ => false) (fun c _ ih i => Nat.rec (motive := fun _ => Bool) (Nat.beq c v) (fun i _ => ih i) i) l i

noncomputable def exclLine (key cnt k n : Nat) (K : Cont) : Bool :=
  peek (nat_lit 35) n (skip mAny k n fun k n => K key cnt k n) (peek (nat_lit 10) n (eat (nat_lit 10) k n fun k n => K key cnt k n)
    (span mWord k n fun r0 k n => peek (nat_lit 32) n (both (hexOk r0) (both (nth exclusions key (val (nat_lit 16) r0))
      (skip mAscii k n fun k n => K (Nat.succ key) (Nat.succ cnt) k n))) false))

/-! ### Parts -/

/-- A part of the text: the number of lines, the number of entries, bounds of the keys, the number of bytes and the bytes. -/
structure Piece where
  nl : Nat
  m : Nat
  lo : Nat
  hi : Nat
  k : Nat
  n : Nat

/-- The bytes. -/
def Piece.bytes (c : Piece) : List Nat := unpack c.k c.n

noncomputable def Piece.okIdna (c : Piece) : Bool := Piece.rec (fun nl m lo hi k n => chunkG (idnaLine (clip idnaTable lo hi)) nl m lo hi k n) c
noncomputable def Piece.okProps (c : Piece) : Bool := Piece.rec (fun nl m lo hi k n => chunkG (propsLine nfcQC nfdQC nfkcQC nfkdQC) nl m lo hi k n) c
noncomputable def Piece.okExcl (c : Piece) : Bool := Piece.rec (fun nl m lo hi k n => chunkG exclLine nl m lo hi k n) c

/-- The parts agree with the tables. -/
def AllIdna (cs : List Piece) : Prop := ∀ c ∈ cs, c.okIdna = true
def AllProps (cs : List Piece) : Prop := ∀ c ∈ cs, c.okProps = true
def AllExcl (cs : List Piece) : Prop := ∀ c ∈ cs, c.okExcl = true

end Verif.Shipped
