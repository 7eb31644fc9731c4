import Verif.Proofs.AvlTree

/-! The rotations, on trees and in memory. -/

namespace Verif.Avl

open Spec.Avl (Item)
open T

/-- What `rotate_right` makes of a tree. -/
def rotR : T → T
  | node x bx (node y b' A B) C =>
    if b' ≤ 0 then node y (b' + 1) A (node x (-(b' + 1)) B C)
    else match B with
      | node z bz B1 B2 => node z 0 (node y (-((1 + bz).tdiv 2)) A B1) (node x ((1 - bz).tdiv 2) B2 C)
      | nil => node x bx (node y b' A nil) C
  | t => t

/-- What `rotate_left` makes of a tree. -/
def rotL : T → T
  | node x bx C (node y b' B A) =>
    if b' ≥ 0 then node y (b' - 1) (node x (-(b' - 1)) C B) A
    else match B with
      | node z bz B1 B2 => node z 0 (node x (-((1 + bz).tdiv 2)) C B1) (node y ((1 - bz).tdiv 2) B2 A)
      | nil => node x bx C (node y b' nil A)
  | t => t

theorem rotR_items (t : T) : (rotR t).items = t.items := by
  unfold rotR
  split
  · split
    · simp [items]
    · split <;> simp [items]
  · rfl

theorem rotL_items (t : T) : (rotL t).items = t.items := by
  unfold rotL
  split
  · split
    · simp [items]
    · split <;> simp [items]
  · rfl

/-- Keep subtrees through the writes to other elements. -/
macro "keep" : tactic => `(tactic| ((repeat (first | with_reducible assumption | refine Rep.set ?_ (by assumption)))))

macro "off" : tactic => `(tactic| (repeat (first | exact Off.refl _ _ | refine Off.set ?_ (by simp))))

macro "fields" : tactic => `(tactic|
  simp only [rotateRight, rotateRightEnd, rotateLeft, rotateLeftEnd, adopt, left, right, parent, balance, key, value, setLeft, setRight, setParent, setBalance] )

theorem rotateRight_single {m : Mem} {p : Nat} {x y : Item} {bx b' : Int} {A B C : T} (h : Rep m p (node x bx (node y b' A B) C))
    (hn : (node x bx (node y b' A B) C).addrs.Nodup) (hb : b' ≤ 0) :
    Does (rotateRight x.elem) m (fun a m' => a = y.elem ∧ Rep m' p (node y (b' + 1) A (node x (-(b' + 1)) B C)) ∧
      Off m m' (node x bx (node y b' A B) C).addrs) := by
  obtain ⟨hx0, hx, ⟨hy0, hy, hA, hB⟩, hC⟩ := h
  simp only [addrs_node, List.nodup_append, List.nodup_cons, List.mem_append, List.mem_cons, not_or, ptr_node] at hn hx
  have hxy : x.elem ≠ y.elem := by grind
  have hxA : x.elem ∉ A.addrs := by grind
  have hyA : y.elem ∉ A.addrs := by grind
  have hxC : x.elem ∉ C.addrs := by grind
  have hyC : y.elem ∉ C.addrs := by grind
  have hxB : x.elem ∉ B.addrs := by grind
  have hyB : y.elem ∉ B.addrs := by grind
  fields
  steps
  refine does_pos hb ?_
  steps
  cases B with
  | nil =>
    refine Does.bind (does_neg (by simp) ?_)
    steps
    refine ⟨rfl, ⟨hy0, by cell, ?_, hx0, by cell, trivial, ?_⟩, ?_⟩
    · keep
    · keep
    · off
  | node z bz B1 B2 =>
    obtain ⟨hz0, hz, hB1, hB2⟩ := hB
    simp only [addrs_node, List.nodup_append, List.nodup_cons, List.mem_append, List.mem_cons, not_or, ptr_node] at hn hxB hyB
    have hzA : z.elem ∉ A.addrs := by grind
    have hzC : z.elem ∉ C.addrs := by grind
    have hzB1 : z.elem ∉ B1.addrs := by grind
    have hzB2 : z.elem ∉ B2.addrs := by grind
    obtain ⟨hxB1, hxz, hxB2⟩ := hxB
    obtain ⟨hyB1, hyz, hyB2⟩ := hyB
    simp only [ptr_node] at hy ⊢
    refine Does.bind (does_pos hz0 ?_)
    steps
    refine ⟨rfl, ⟨hy0, by cell, ?_, hx0, by cell, ⟨hz0, by cell, ?_, ?_⟩, ?_⟩, ?_⟩
    · keep
    · keep
    · keep
    · keep
    · off

theorem rotateLeft_single {m : Mem} {p : Nat} {x y : Item} {bx b' : Int} {A B C : T} (h : Rep m p (node x bx C (node y b' B A)))
    (hn : (node x bx C (node y b' B A)).addrs.Nodup) (hb : b' ≥ 0) :
    Does (rotateLeft x.elem) m (fun a m' => a = y.elem ∧ Rep m' p (node y (b' - 1) (node x (-(b' - 1)) C B) A) ∧
      Off m m' (node x bx C (node y b' B A)).addrs) := by
  obtain ⟨hx0, hx, hC, hy0, hy, hB, hA⟩ := h
  simp only [addrs_node, List.nodup_append, List.nodup_cons, List.mem_append, List.mem_cons, not_or, ptr_node] at hn hx
  have hxy : x.elem ≠ y.elem := by grind
  have hxA : x.elem ∉ A.addrs := by grind
  have hyA : y.elem ∉ A.addrs := by grind
  have hxC : x.elem ∉ C.addrs := by grind
  have hyC : y.elem ∉ C.addrs := by grind
  have hxB : x.elem ∉ B.addrs := by grind
  have hyB : y.elem ∉ B.addrs := by grind
  fields
  steps
  refine does_pos hb ?_
  steps
  cases B with
  | nil =>
    refine Does.bind (does_neg (by simp) ?_)
    steps
    refine ⟨rfl, ⟨hy0, by cell, ⟨hx0, by cell, ?_, trivial⟩, ?_⟩, ?_⟩
    · keep
    · keep
    · off
  | node z bz B1 B2 =>
    obtain ⟨hz0, hz, hB1, hB2⟩ := hB
    simp only [addrs_node, List.nodup_append, List.nodup_cons, List.mem_append, List.mem_cons, not_or] at hn hxB hyB
    have hzA : z.elem ∉ A.addrs := by grind
    have hzC : z.elem ∉ C.addrs := by grind
    have hzB1 : z.elem ∉ B1.addrs := by grind
    have hzB2 : z.elem ∉ B2.addrs := by grind
    obtain ⟨hxB1, hxz, hxB2⟩ := hxB
    obtain ⟨hyB1, hyz, hyB2⟩ := hyB
    simp only [ptr_node] at hy ⊢
    refine Does.bind (does_pos hz0 ?_)
    steps
    refine ⟨rfl, ⟨hy0, by cell, ⟨hx0, by cell, ?_, ⟨hz0, by cell, ?_, ?_⟩⟩, ?_⟩, ?_⟩
    · keep
    · keep
    · keep
    · keep
    · off

theorem rotateRight_double {m : Mem} {p : Nat} {x y z : Item} {bx b' bz : Int} {A B1 B2 C : T}
    (h : Rep m p (node x bx (node y b' A (node z bz B1 B2)) C)) (hn : (node x bx (node y b' A (node z bz B1 B2)) C).addrs.Nodup) (hb : ¬ b' ≤ 0) :
    Does (rotateRight x.elem) m (fun a m' => a = z.elem ∧
      Rep m' p (node z 0 (node y (-((1 + bz).tdiv 2)) A B1) (node x ((1 - bz).tdiv 2) B2 C)) ∧
      Off m m' (node x bx (node y b' A (node z bz B1 B2)) C).addrs) := by
  obtain ⟨hx0, hx, ⟨hy0, hy, hA, hz0, hz, hB1, hB2⟩, hC⟩ := h
  simp only [addrs_node, List.nodup_append, List.nodup_cons, List.mem_append, List.mem_cons, not_or, ptr_node] at hn hx hy
  have hxy : x.elem ≠ y.elem := by grind
  have hxz : x.elem ≠ z.elem := by grind
  have hyz : y.elem ≠ z.elem := by grind
  have hxA : x.elem ∉ A.addrs := by grind
  have hxC : x.elem ∉ C.addrs := by grind
  have hxB1 : x.elem ∉ B1.addrs := by grind
  have hxB2 : x.elem ∉ B2.addrs := by grind
  have hyA : y.elem ∉ A.addrs := by grind
  have hyC : y.elem ∉ C.addrs := by grind
  have hyB1 : y.elem ∉ B1.addrs := by grind
  have hyB2 : y.elem ∉ B2.addrs := by grind
  have hzA : z.elem ∉ A.addrs := by grind
  have hzC : z.elem ∉ C.addrs := by grind
  have hzB1 : z.elem ∉ B1.addrs := by grind
  have hzB2 : z.elem ∉ B2.addrs := by grind
  fields
  steps
  refine does_neg hb ?_
  steps
  cases B1 with
  | nil =>
    refine Does.bind (does_neg (by simp) ?_)
    steps
    cases B2 with
    | nil =>
      refine Does.bind (does_neg (by simp) ?_)
      steps
      refine ⟨rfl, ⟨hz0, by cell, ⟨hy0, by cell, ?_, trivial⟩, hx0, by cell, trivial, ?_⟩, ?_⟩
      · keep
      · keep
      · off
    | node v bv v1 v2 =>
      obtain ⟨hv0, hv, hv1, hv2⟩ := hB2
      simp only [addrs_node, List.nodup_append, List.nodup_cons, List.mem_append, List.mem_cons, not_or] at hn hxB2 hyB2 hzB2
      obtain ⟨hxv1, hxv, hxv2⟩ := hxB2
      obtain ⟨hyv1, hyv, hyv2⟩ := hyB2
      obtain ⟨hzv1, hzv, hzv2⟩ := hzB2
      have hvA : v.elem ∉ A.addrs := by grind
      have hvC : v.elem ∉ C.addrs := by grind
      have hvv1 : v.elem ∉ v1.addrs := by grind
      have hvv2 : v.elem ∉ v2.addrs := by grind
      simp only [ptr_node] at hz ⊢
      refine Does.bind (does_pos hv0 ?_)
      steps
      refine ⟨rfl, ⟨hz0, by cell, ⟨hy0, by cell, ?_, trivial⟩, hx0, by cell, ⟨hv0, by cell, ?_, ?_⟩, ?_⟩, ?_⟩
      · keep
      · keep
      · keep
      · keep
      · off
  | node u bu u1 u2 =>
    obtain ⟨hu0, hu, hu1, hu2⟩ := hB1
    simp only [addrs_node, List.nodup_append, List.nodup_cons, List.mem_append, List.mem_cons, not_or] at hn hxB1 hyB1 hzB1
    obtain ⟨hxu1, hxu, hxu2⟩ := hxB1
    obtain ⟨hyu1, hyu, hyu2⟩ := hyB1
    obtain ⟨hzu1, hzu, hzu2⟩ := hzB1
    have huA : u.elem ∉ A.addrs := by grind
    have huC : u.elem ∉ C.addrs := by grind
    have huB2 : u.elem ∉ B2.addrs := by grind
    have huu1 : u.elem ∉ u1.addrs := by grind
    have huu2 : u.elem ∉ u2.addrs := by grind
    simp only [ptr_node] at hz ⊢
    refine Does.bind (does_pos hu0 ?_)
    steps
    cases B2 with
    | nil =>
      refine Does.bind (does_neg (by simp) ?_)
      steps
      refine ⟨rfl, ⟨hz0, by cell, ⟨hy0, by cell, ?_, ⟨hu0, by cell, ?_, ?_⟩⟩, hx0, by cell, trivial, ?_⟩, ?_⟩
      · keep
      · keep
      · keep
      · keep
      · off
    | node v bv v1 v2 =>
      obtain ⟨hv0, hv, hv1, hv2⟩ := hB2
      simp only [addrs_node, List.nodup_append, List.nodup_cons, List.mem_append, List.mem_cons, not_or] at hn hxB2 hyB2 hzB2 huB2
      obtain ⟨hxv1, hxv, hxv2⟩ := hxB2
      obtain ⟨hyv1, hyv, hyv2⟩ := hyB2
      obtain ⟨hzv1, hzv, hzv2⟩ := hzB2
      obtain ⟨huv1, huv, huv2⟩ := huB2
      have hvA : v.elem ∉ A.addrs := by grind
      have hvC : v.elem ∉ C.addrs := by grind
      have hvu1 : v.elem ∉ u1.addrs := by grind
      have hvu2 : v.elem ∉ u2.addrs := by grind
      have hvv1 : v.elem ∉ v1.addrs := by grind
      have hvv2 : v.elem ∉ v2.addrs := by grind
      simp only [ptr_node] at hz ⊢
      refine Does.bind (does_pos hv0 ?_)
      steps
      refine ⟨rfl, ⟨hz0, by cell, ⟨hy0, by cell, ?_, ⟨hu0, by cell, ?_, ?_⟩⟩, hx0, by cell, ⟨hv0, by cell, ?_, ?_⟩, ?_⟩, ?_⟩
      · keep
      · keep
      · keep
      · keep
      · keep
      · keep
      · off

theorem rotateLeft_double {m : Mem} {p : Nat} {x y z : Item} {bx b' bz : Int} {A B1 B2 C : T}
    (h : Rep m p (node x bx C (node y b' (node z bz B1 B2) A))) (hn : (node x bx C (node y b' (node z bz B1 B2) A)).addrs.Nodup) (hb : ¬ b' ≥ 0) :
    Does (rotateLeft x.elem) m (fun a m' => a = z.elem ∧
      Rep m' p (node z 0 (node x (-((1 + bz).tdiv 2)) C B1) (node y ((1 - bz).tdiv 2) B2 A)) ∧
      Off m m' (node x bx C (node y b' (node z bz B1 B2) A)).addrs) := by
  obtain ⟨hx0, hx, hC, hy0, hy, ⟨hz0, hz, hB1, hB2⟩, hA⟩ := h
  simp only [addrs_node, List.nodup_append, List.nodup_cons, List.mem_append, List.mem_cons, not_or, ptr_node] at hn hx hy
  have hxy : x.elem ≠ y.elem := by grind
  have hxz : x.elem ≠ z.elem := by grind
  have hyz : y.elem ≠ z.elem := by grind
  have hxA : x.elem ∉ A.addrs := by grind
  have hxC : x.elem ∉ C.addrs := by grind
  have hxB1 : x.elem ∉ B1.addrs := by grind
  have hxB2 : x.elem ∉ B2.addrs := by grind
  have hyA : y.elem ∉ A.addrs := by grind
  have hyC : y.elem ∉ C.addrs := by grind
  have hyB1 : y.elem ∉ B1.addrs := by grind
  have hyB2 : y.elem ∉ B2.addrs := by grind
  have hzA : z.elem ∉ A.addrs := by grind
  have hzC : z.elem ∉ C.addrs := by grind
  have hzB1 : z.elem ∉ B1.addrs := by grind
  have hzB2 : z.elem ∉ B2.addrs := by grind
  fields
  steps
  refine does_neg hb ?_
  steps
  cases B2 with
  | nil =>
    refine Does.bind (does_neg (by simp) ?_)
    steps
    cases B1 with
    | nil =>
      refine Does.bind (does_neg (by simp) ?_)
      steps
      refine ⟨rfl, ⟨hz0, by cell, ⟨hx0, by cell, ?_, trivial⟩, hy0, by cell, trivial, ?_⟩, ?_⟩
      · keep
      · keep
      · off
    | node v bv v1 v2 =>
      obtain ⟨hv0, hv, hv1, hv2⟩ := hB1
      simp only [addrs_node, List.nodup_append, List.nodup_cons, List.mem_append, List.mem_cons, not_or] at hn hxB1 hyB1 hzB1
      obtain ⟨hxv1, hxv, hxv2⟩ := hxB1
      obtain ⟨hyv1, hyv, hyv2⟩ := hyB1
      obtain ⟨hzv1, hzv, hzv2⟩ := hzB1
      have hvA : v.elem ∉ A.addrs := by grind
      have hvC : v.elem ∉ C.addrs := by grind
      have hvv1 : v.elem ∉ v1.addrs := by grind
      have hvv2 : v.elem ∉ v2.addrs := by grind
      simp only [ptr_node] at hz ⊢
      refine Does.bind (does_pos hv0 ?_)
      steps
      refine ⟨rfl, ⟨hz0, by cell, ⟨hx0, by cell, ?_, ⟨hv0, by cell, ?_, ?_⟩⟩, hy0, by cell, trivial, ?_⟩, ?_⟩
      · keep
      · keep
      · keep
      · keep
      · off
  | node u bu u1 u2 =>
    obtain ⟨hu0, hu, hu1, hu2⟩ := hB2
    simp only [addrs_node, List.nodup_append, List.nodup_cons, List.mem_append, List.mem_cons, not_or] at hn hxB2 hyB2 hzB2
    obtain ⟨hxu1, hxu, hxu2⟩ := hxB2
    obtain ⟨hyu1, hyu, hyu2⟩ := hyB2
    obtain ⟨hzu1, hzu, hzu2⟩ := hzB2
    have huA : u.elem ∉ A.addrs := by grind
    have huC : u.elem ∉ C.addrs := by grind
    have huB1 : u.elem ∉ B1.addrs := by grind
    have huu1 : u.elem ∉ u1.addrs := by grind
    have huu2 : u.elem ∉ u2.addrs := by grind
    simp only [ptr_node] at hz ⊢
    refine Does.bind (does_pos hu0 ?_)
    steps
    cases B1 with
    | nil =>
      refine Does.bind (does_neg (by simp) ?_)
      steps
      refine ⟨rfl, ⟨hz0, by cell, ⟨hx0, by cell, ?_, trivial⟩, hy0, by cell, ⟨hu0, by cell, ?_, ?_⟩, ?_⟩, ?_⟩
      · keep
      · keep
      · keep
      · keep
      · off
    | node v bv v1 v2 =>
      obtain ⟨hv0, hv, hv1, hv2⟩ := hB1
      simp only [addrs_node, List.nodup_append, List.nodup_cons, List.mem_append, List.mem_cons, not_or] at hn hxB1 hyB1 hzB1 huB1
      obtain ⟨hxv1, hxv, hxv2⟩ := hxB1
      obtain ⟨hyv1, hyv, hyv2⟩ := hyB1
      obtain ⟨hzv1, hzv, hzv2⟩ := hzB1
      obtain ⟨huv1, huv, huv2⟩ := huB1
      have hvA : v.elem ∉ A.addrs := by grind
      have hvC : v.elem ∉ C.addrs := by grind
      have hvu1 : v.elem ∉ u1.addrs := by grind
      have hvu2 : v.elem ∉ u2.addrs := by grind
      have hvv1 : v.elem ∉ v1.addrs := by grind
      have hvv2 : v.elem ∉ v2.addrs := by grind
      simp only [ptr_node] at hz ⊢
      refine Does.bind (does_pos hv0 ?_)
      steps
      refine ⟨rfl, ⟨hz0, by cell, ⟨hx0, by cell, ?_, ⟨hv0, by cell, ?_, ?_⟩⟩, hy0, by cell, ⟨hu0, by cell, ?_, ?_⟩, ?_⟩, ?_⟩
      · keep
      · keep
      · keep
      · keep
      · keep
      · keep
      · off

/-- When a right rotation makes sense. -/
def CanR : T → Prop
  | node _ _ (node _ b' _ B) _ => b' ≤ 0 ∨ B ≠ nil
  | _ => False

/-- When a left rotation makes sense. -/
def CanL : T → Prop
  | node _ _ _ (node _ b' B _) => b' ≥ 0 ∨ B ≠ nil
  | _ => False

theorem rotateRight_spec {m : Mem} {p : Nat} {t : T} (h : Rep m p t) (hn : t.addrs.Nodup) (hc : CanR t) :
    Does (rotateRight t.ptr) m (fun a m' => a = (rotR t).ptr ∧ Rep m' p (rotR t) ∧ Off m m' t.addrs) := by
  match t, hc with
  | node x bx (node y b' A B) C, hc =>
    by_cases hb : b' ≤ 0
    · simp only [rotR, if_pos hb]
      exact rotateRight_single h hn hb
    · cases B with
      | nil => exact absurd hc (by simp [CanR, hb])
      | node z bz B1 B2 =>
        simp only [rotR, if_neg hb]
        exact rotateRight_double h hn hb

theorem rotateLeft_spec {m : Mem} {p : Nat} {t : T} (h : Rep m p t) (hn : t.addrs.Nodup) (hc : CanL t) :
    Does (rotateLeft t.ptr) m (fun a m' => a = (rotL t).ptr ∧ Rep m' p (rotL t) ∧ Off m m' t.addrs) := by
  match t, hc with
  | node x bx C (node y b' B A), hc =>
    by_cases hb : b' ≥ 0
    · simp only [rotL, if_pos hb]
      exact rotateLeft_single h hn hb
    · cases B with
      | nil => exact absurd hc (by simp [CanL, hb])
      | node z bz B1 B2 =>
        simp only [rotL, if_neg hb]
        exact rotateLeft_double h hn hb

end Verif.Avl
