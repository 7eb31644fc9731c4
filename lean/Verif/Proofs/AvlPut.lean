import Verif.Proofs.Short

/-! `put` in memory inserts into the tree. -/

namespace Verif.Avl

variable [Ptrs]

open Spec.Avl (Item)
open T

variable {m m' : Mem} {tree n : Nat} {c : Ctx} {t : T}

/-- All addresses of a tree object. -/
def foot (tree : Nat) (c : Ctx) (t : T) : List Nat := tree :: (t.addrs ++ caddrs c)

omit [Ptrs] in
theorem mem_foot {a : Nat} : a ∈ foot tree c t ↔ a = tree ∨ a ∈ t.addrs ∨ a ∈ caddrs c := by simp [foot]

omit [Ptrs] in
theorem foot_up {f : Fr} {a : Nat} : a ∈ foot tree (f :: c) t ↔ a ∈ foot tree c (f.fill t) := by
  have := (fill_perm f t).mem_iff (a := a)
  simp only [mem_foot, this, caddrs_cons, List.mem_cons, List.mem_append]
  tauto

theorem Z.disj (h : Z m tree n c t) : (∀ a ∈ t.addrs, a ≠ tree ∧ a ∉ caddrs c) ∧ tree ∉ t.addrs ∧ tree ∉ caddrs c ∧ t.addrs.Nodup := by
  have := h.nd
  simp only [List.nodup_cons, List.mem_append, not_or, List.nodup_append] at this
  refine ⟨fun a ha => ⟨?_, ?_⟩, this.1.1, this.1.2, this.2.1⟩
  · rintro rfl; exact this.1.1 ha
  · intro hc; exact this.2.2.2 a ha a hc rfl

/-- The subtree changes in place to one with the same items and the same top. -/
theorem Z.inside (h : Z m tree n c t) {t' : T} (hp : t'.ptr = t.ptr) (hi : t'.items = t.items) (hr : Rep m' (par 0 c) t')
    (ho : Off m m' t.addrs) : Z m' tree n c t' := by
  have ha : t'.addrs = t.addrs := by simp [addrs, hi]
  refine ⟨?_, hr, by rw [ha]; exact h.nd⟩
  rw [hp]
  exact h.around.frame ho h.disj.1

theorem setBalance_spec {i : Item} {b : Int} {l r : T} (h : Z m tree n c (node i b l r)) (b' : Int) :
    Does (setBalance i.elem b') m (fun _ m' => Z m' tree n c (node i b' l r) ∧ Off m m' [i.elem]) := by
  obtain ⟨h0, h1, h2, h3⟩ := h.sub
  have hn := h.disj.2.2.2
  simp only [addrs_node, List.nodup_append, List.nodup_cons, List.mem_cons] at hn
  have hl : i.elem ∉ l.addrs := by grind
  have hr : i.elem ∉ r.addrs := by grind
  simp only [setBalance]
  step
  refine ⟨h.inside rfl rfl ⟨h0, by cell, h2.set hl, h3.set hr⟩ ((Off.refl _ _).set (by simp)), (Off.refl _ _).set (by simp)⟩

theorem balance_spec {i : Item} {b : Int} {l r : T} {Q : Int → Mem → Prop} (h : Z m tree n c (node i b l r)) (q : Q b m) :
    Does (balance i.elem) m Q := by
  obtain ⟨h0, h1, h2, h3⟩ := h.sub
  simp only [balance]
  steps
  exact q

/-- Replacing the subtree when the hole has been redirected. -/
theorem Z.replace (h : Z m tree n c t) {m2 : Mem} {t' : T} (hi : t'.items = t.items) (ho : Off m m' t.addrs) (hr : Rep m' (par 0 c) t')
    (ha : Around m2 tree n c t'.ptr) (ho' : Off m' m2 [hole tree c]) : Z m2 tree n c t' ∧ Off m m2 (foot tree c t) := by
  have he : t'.addrs = t.addrs := by simp [addrs, hi]
  have hd := h.disj
  have hh : hole tree c ∉ t.addrs := by
    intro hm
    have := hole_mem tree c
    have h2 := hd.1 _ hm
    rcases List.mem_cons.1 this with h3 | h3
    · exact h2.1 h3
    · exact h2.2 h3
  refine ⟨⟨ha, hr.frame fun a hm => ho' a ?_, by rw [he]; exact h.nd⟩, ?_⟩
  · rw [he] at hm
    simp only [List.mem_singleton]
    rintro rfl; exact hh hm
  · refine (ho.mono ?_).trans (ho'.mono ?_)
    · intro a hm; rw [mem_foot]; exact Or.inr (Or.inl hm)
    · intro a hm
      simp only [List.mem_singleton] at hm
      subst hm
      rw [mem_foot]
      rcases List.mem_cons.1 (hole_mem tree c) with h3 | h3
      · exact Or.inl h3
      · exact Or.inr (Or.inr h3)

theorem Around.after (h : Z m tree n c t) (ho : Off m m' t.addrs) : Around m' tree n c t.ptr := h.around.frame ho h.disj.1

theorem rotateRight_at {β : Type} {k : M β} {Q : β → Mem → Prop} (h : Z m tree n c t) (hc : CanR t)
    (hk : ∀ m', Z m' tree n c (rotR t) → Off m m' (foot tree c t) → Does k m' Q) :
    Does (do let top ← rotateRight t.ptr; (hloc tree c).write top; k) m Q := by
  refine Does.bind ((rotateRight_spec h.sub h.disj.2.2.2 hc).mono ?_)
  rintro _ m1 ⟨rfl, h1, h2⟩
  refine Does.bind ((write_hole (Around.after h h2) _).mono ?_)
  rintro _ m2 ⟨h3, h4⟩
  obtain ⟨h5, h6⟩ := h.replace (rotR_items t) h2 h1 h3 h4
  exact hk m2 h5 h6

theorem rotateLeft_at {β : Type} {k : M β} {Q : β → Mem → Prop} (h : Z m tree n c t) (hc : CanL t)
    (hk : ∀ m', Z m' tree n c (rotL t) → Off m m' (foot tree c t) → Does k m' Q) :
    Does (do let top ← rotateLeft t.ptr; (hloc tree c).write top; k) m Q := by
  refine Does.bind ((rotateLeft_spec h.sub h.disj.2.2.2 hc).mono ?_)
  rintro _ m1 ⟨rfl, h1, h2⟩
  refine Does.bind ((write_hole (Around.after h h2) _).mono ?_)
  rintro _ m2 ⟨h3, h4⟩
  obtain ⟨h5, h6⟩ := h.replace (rotL_items t) h2 h1 h3 h4
  exact hk m2 h5 h6

omit [Ptrs] in
/-- `if (x != NULL) x->parent = q`. -/
theorem adopt_spec {p q : Nat} (h : Rep m p t) (hn : t.addrs.Nodup) :
    Does (adopt t.ptr q) m (fun _ m' => Rep m' q t ∧ Off m m' t.addrs) := by
  cases t with
  | nil => exact does_neg (by simp) (Does.pure ⟨trivial, Off.refl _ _⟩)
  | node i b l r =>
    obtain ⟨h0, h1, h2, h3⟩ := h
    simp only [addrs_node, List.nodup_append, List.nodup_cons, List.mem_cons] at hn
    have hl : i.elem ∉ l.addrs := by grind
    have hr : i.elem ∉ r.addrs := by grind
    refine does_pos h0 ?_
    simp only [ptr_node, setParent]
    step
    exact ⟨⟨h0, by cell, h2.set hl, h3.set hr⟩, (Off.refl _ _).set (by simp)⟩

/-- `substitute` redirects the hole. -/
theorem substitute_spec {old x : Nat} {e : AElem} (h : Around m tree n c old) (hp : e.parent = par 0 c) (h0 : old ≠ 0)
    (he : m.get old = some (.aelem e)) (hc : old ∉ caddrs c) :
    Does (substitute tree x old) m (fun _ m' => Around m' tree n c x ∧ Off m m' [hole tree c]) := by
  have hr := h.root; have ht := h.tree0
  have hw := write_hole h x
  simp only [substitute, root]
  steps
  cases c with
  | nil => exact does_pos rfl hw
  | cons f c =>
    refine does_neg ?_ ?_
    · intro e
      have := top_mem (f :: c) old (by simp)
      simp only at e
      rw [← e] at this
      exact hc this
    · simp only [parent]
      steps
      rw [hp]
      obtain ⟨f0, f1, -⟩ := h.ctx
      cases f with
      | l i b y =>
        simp only [Fr.item, Fr.cell, par_cons, left] at f0 f1 ⊢
        steps
        exact does_pos rfl hw
      | r i b y =>
        simp only [Fr.item, Fr.cell, par_cons, left] at f0 f1 ⊢
        steps
        refine does_neg ?_ hw
        simp only [caddrs_cons, Fr.sib, List.mem_cons, List.mem_append, not_or] at hc
        exact ptr_ne h0 hc.2.1

/-- A new element below `i`. -/
theorem putLeaf_spec {x : Item} {t' : T} (hx0 : x.elem ≠ 0) (hf : x.elem ∉ foot tree c t)
    (h : Z m tree n c t) (hp : t'.ptr = t.ptr) (hi : ∃ xs ys, t.items = xs ++ ys ∧ t'.items = xs ++ x :: ys) (hr : Rep m' (par 0 c) t') {n' : Nat}
    (ho : ∀ a, a ∉ t.addrs → a ≠ x.elem → a ≠ tree → m'.get a = m.get a) (hg : m'.get tree = some (.atree ⟨top t.ptr c, n', Ptrs.cmp, Ptrs.obj⟩)) :
    Z m' tree n' c t' := by
  obtain ⟨xs, ys, e1, e2⟩ := hi
  have hd := h.disj
  rw [mem_foot] at hf
  push Not at hf
  refine ⟨⟨h.around.tree0, by rw [hp]; exact hg, ?_, h.around.nd⟩, hr, ?_⟩
  · rw [hp]
    refine h.around.ctx.frame fun a ha => ho a ?_ ?_ ?_
    · exact fun h' => (hd.1 a h').2 ha
    · rintro rfl; exact hf.2.2 ha
    · rintro rfl; exact hd.2.2.1 ha
  · have : (t'.addrs ++ caddrs c).Perm (x.elem :: (t.addrs ++ caddrs c)) := by
      simp only [addrs, e1, e2, List.map_append, List.map_cons]
      rw [← List.cons_append]
      exact List.perm_middle.append_right _
    refine ((this.cons tree).nodup_iff).2 ?_
    have hnd := h.nd
    simp only [List.nodup_cons, List.mem_cons, List.mem_append, not_or] at hnd ⊢
    exact ⟨⟨fun e => hf.1 e.symm, hnd.1⟩, ⟨hf.2.1, hf.2.2⟩, hnd.2⟩

omit [Ptrs] in
theorem Bal.right_nil {i : Item} {b : Int} {r : T} (h : (node i b nil r).Bal) : r = nil ↔ b - 1 = -1 := by
  obtain ⟨h1, -⟩ := h
  simp only [height] at h1
  constructor
  · rintro rfl; simp [height] at h1; omega
  · intro hb
    cases r with
    | nil => rfl
    | node j b' l r' => simp only [height] at h1; omega

omit [Ptrs] in
theorem Bal.left_nil {i : Item} {b : Int} {l : T} (h : (node i b l nil).Bal) : l = nil ↔ b + 1 = 1 := by
  obtain ⟨h1, -⟩ := h
  simp only [height] at h1
  constructor
  · rintro rfl; simp [height] at h1; omega
  · intro hb
    cases l with
    | nil => rfl
    | node j b' l' r' => simp only [height] at h1; omega

omit [Ptrs] in
theorem ins_grew_none (cmp : Nat → Nat → Int) (x : Item) (t : T) (h : (ins cmp x t).2.1 = true) : (ins cmp x t).2.2 = none := by
  induction t with
  | nil => rfl
  | node i b l r ihl ihr =>
    simp only [ins] at h ⊢
    split at h
    · rw [if_pos (by assumption)]
      split at h
      · rename_i hg
        rw [if_pos hg]
        split <;> exact ihl hg
      · simp at h
    · rw [if_neg (by assumption)]
      split at h
      · rw [if_pos (by assumption)]
        split at h
        · rename_i hg
          rw [if_pos hg]
          split <;> exact ihr hg
        · simp at h
      · simp at h

omit [Ptrs] in
theorem ins_addrs (cmp : Nat → Nat → Int) (x : Item) (t : T) {a : Nat} (h : a ∈ (ins cmp x t).1.addrs) : a = x.elem ∨ a ∈ t.addrs := by
  obtain ⟨i1, i2⟩ := ins_items cmp x t
  cases hq : (ins cmp x t).2.2 with
  | none =>
    obtain ⟨xs, ys, e1, e2⟩ := i1 hq
    simp only [addrs, e1, e2, List.map_append, List.map_cons, List.mem_append, List.mem_cons] at h ⊢
    tauto
  | some k =>
    obtain ⟨xs, ys, e1, e2, -⟩ := i2 k hq
    simp only [addrs, e1, e2, List.map_append, List.map_cons, List.mem_append, List.mem_cons] at h ⊢
    tauto

omit [Ptrs] in
theorem ins_old_mem (cmp : Nat → Nat → Int) (x : Item) (t : T) {k : Item} (hk : (ins cmp x t).2.2 = some k) : k.elem ∈ t.addrs := by
  obtain ⟨xs, ys, e1, -⟩ := (ins_items cmp x t).2 k hk
  simp [addrs, e1]

/-- avltree.c:234-242: after the insertion on the left. -/
theorem afterLeft_spec {i : Item} {b : Int} {l r : T} (hz : Z m tree n c (node i b l r)) (hl : l.Bal) (hr : r.Bal) (g : Bool) (rm : Nat)
    (hh : g = true → b - 1 = -2 → l.height = r.height + 2) :
    Does (if g = true then do
        setBalance i.elem ((← balance i.elem) - 1)
        let b ← balance i.elem
        if b = -2 then
          let top ← rotateRight i.elem
          (hloc tree c).write top
          pure (false, rm)
        else if b = -1 then pure (true, rm)
        else pure (false, rm)
      else pure (false, rm)) m (fun p m' =>
      p = (if g then (if b - 1 = -2 then false else decide (b - 1 = -1)) else false, rm) ∧
      Z m' tree n c (if g then (if b - 1 = -2 then rotR (node i (b - 1) l r) else node i (b - 1) l r) else node i b l r) ∧
      Off m m' (foot tree c (node i b l r)) ∧ (g = false → m' = m)) := by
  cases g with
  | false => exact does_neg (by simp) (Does.pure ⟨rfl, hz, Off.refl _ _, fun _ => rfl⟩)
  | true =>
    simp only [if_true, Bool.true_eq_false, false_implies, and_true]
    refine Does.bind (balance_spec hz ?_)
    refine Does.bind ((setBalance_spec hz (b - 1)).mono ?_)
    rintro _ m2 ⟨hz2, o2⟩
    have o2' : Off m m2 (foot tree c (node i b l r)) := o2.mono (by simp [mem_foot])
    refine Does.bind (balance_spec hz2 ?_)
    by_cases hb : b - 1 = -2
    · simp only [if_pos hb]
      obtain ⟨hcan, -⟩ := rotR_bal (i := i) (b := b - 1) hl hr (hh rfl hb)
      refine rotateRight_at (t := node i (b - 1) l r) hz2 hcan fun m3 hz3 o3 => Does.pure ⟨rfl, hz3, o2'.trans o3⟩
    · simp only [if_neg hb]
      by_cases hb1 : b - 1 = -1
      · exact does_pos hb1 (Does.pure ⟨by simp [hb1], hz2, o2'⟩)
      · exact does_neg hb1 (Does.pure ⟨by simp [hb1], hz2, o2'⟩)

/-- avltree.c:286-294: after the insertion on the right. -/
theorem afterRight_spec {i : Item} {b : Int} {l r : T} (hz : Z m tree n c (node i b l r)) (hl : l.Bal) (hr : r.Bal) (g : Bool) (rm : Nat)
    (hh : g = true → b + 1 = 2 → r.height = l.height + 2) :
    Does (if g = true then do
        setBalance i.elem ((← balance i.elem) + 1)
        let b ← balance i.elem
        if b = 2 then
          let top ← rotateLeft i.elem
          (hloc tree c).write top
          pure (false, rm)
        else if b = 1 then pure (true, rm)
        else pure (false, rm)
      else pure (false, rm)) m (fun p m' =>
      p = (if g then (if b + 1 = 2 then false else decide (b + 1 = 1)) else false, rm) ∧
      Z m' tree n c (if g then (if b + 1 = 2 then rotL (node i (b + 1) l r) else node i (b + 1) l r) else node i b l r) ∧
      Off m m' (foot tree c (node i b l r)) ∧ (g = false → m' = m)) := by
  cases g with
  | false => exact does_neg (by simp) (Does.pure ⟨rfl, hz, Off.refl _ _, fun _ => rfl⟩)
  | true =>
    simp only [if_true, Bool.true_eq_false, false_implies, and_true]
    refine Does.bind (balance_spec hz ?_)
    refine Does.bind ((setBalance_spec hz (b + 1)).mono ?_)
    rintro _ m2 ⟨hz2, o2⟩
    have o2' : Off m m2 (foot tree c (node i b l r)) := o2.mono (by simp [mem_foot])
    refine Does.bind (balance_spec hz2 ?_)
    by_cases hb : b + 1 = 2
    · simp only [if_pos hb]
      obtain ⟨hcan, -⟩ := rotL_bal (i := i) (b := b + 1) hl hr (hh rfl hb)
      refine rotateLeft_at (t := node i (b + 1) l r) hz2 hcan fun m3 hz3 o3 => Does.pure ⟨rfl, hz3, o2'.trans o3⟩
    · simp only [if_neg hb]
      by_cases hb1 : b + 1 = 1
      · exact does_pos hb1 (Does.pure ⟨by simp [hb1], hz2, o2'⟩)
      · exact does_neg hb1 (Does.pure ⟨by simp [hb1], hz2, o2'⟩)

/-- What `put` does in memory. -/
structure PutPost (cmp : Nat → Nat → Int) (m : Mem) (tree n : Nat) (c : Ctx) (t : T) (x : Item) (r : Bool × Nat) (m' : Mem) : Prop where
  grew : r.1 = (ins cmp x t).2.1
  removed : r.2 = match (ins cmp x t).2.2 with
    | none => 0
    | some i => i.elem
  z : Z m' tree (if (ins cmp x t).2.2 = none then (n + 1) % 2 ^ 64 else n) c (ins cmp x t).1
  off : Off m m' (x.elem :: foot tree c t)
  old : ∀ i, (ins cmp x t).2.2 = some i → m'.get i.elem = m.get i.elem

/-- The separation facts about an element and a new one. -/
structure Sep (tree : Nat) (c : Ctx) (i : Item) (l r : T) (x : Item) : Prop where
  il : i.elem ∉ l.addrs
  ir : i.elem ∉ r.addrs
  xi : x.elem ≠ i.elem
  xl : x.elem ∉ l.addrs
  xr : x.elem ∉ r.addrs
  xc : x.elem ∉ caddrs c
  xt : x.elem ≠ tree
  ti : tree ≠ i.elem
  tl : tree ∉ l.addrs
  tr : tree ∉ r.addrs
  ic : i.elem ∉ caddrs c
  ln : l.addrs.Nodup
  rn : r.addrs.Nodup
  lr : ∀ a ∈ l.addrs, a ∉ r.addrs
  lc : ∀ a ∈ l.addrs, a ∉ caddrs c
  rc : ∀ a ∈ r.addrs, a ∉ caddrs c
  tc : tree ∉ caddrs c

theorem Z.sep {i : Item} {b : Int} {l r : T} {x : Item} (h : Z m tree n c (node i b l r)) (hf : x.elem ∉ foot tree c (node i b l r)) :
    Sep tree c i l r x := by
  have hd := h.nd
  simp only [addrs_node, List.append_assoc, List.cons_append, List.nodup_cons, List.nodup_append, List.mem_cons, List.mem_append] at hd
  simp only [mem_foot, addrs_node, List.mem_append, List.mem_cons, not_or] at hf
  constructor <;> grind

/-- Insertion of a new element in the place of an empty left child. -/
theorem putLeft_leaf (cmp : Nat → Nat → Int) (d : Nat) {x i : Item} {b : Int} {r : T} (hx0 : x.elem ≠ 0) (h : Z m tree n c (node i b nil r))
    (hb : (node i b nil r).Bal) (hx : m.get x.elem = some (.aelem ⟨x.key, x.value, 0, 0, 0, 0⟩)) (hf : x.elem ∉ foot tree c (node i b nil r))
    (hlt : cmp x.key i.key < 0) :
    Does (putLeftS cmp tree (d + 1) (hloc tree c) x.elem) m (PutPost cmp m tree n c (node i b nil r) x) := by
  obtain ⟨h0, h1, hl, hr⟩ := h.sub
  have hroot := h.around.root
  have htree := h.around.tree0
  obtain ⟨hil, hir, hxi, hxl, hxr, hxc, hxt, hti, htl, htr, -⟩ := h.sep hf
  rw [putLeftS]
  refine Does.bind (read_hole h.around ?_)
  simp only [left, ptr_node]
  steps
  refine does_pos rfl ?_
  simp only [setParent, setLeft, incSize, balance, setBalance, right]
  steps
  have hins : ins cmp x (node i b nil r) = (node i (b - 1) (node x 0 nil nil) r, decide (b - 1 = -1), none) := by
    have : ¬ b - 1 = -2 := by have := hb.1; simp only [height] at this; omega
    simp only [ins, if_pos hlt, if_true, if_neg this]
  have hgr : decide (r.ptr = 0) = decide (b - 1 = -1) := by
    rw [decide_eq_decide, hr.ptr_eq_zero]; exact Bal.right_nil hb
  refine ⟨?_, ?_, ?_, ?_, ?_⟩
  · rw [hins]; exact hgr
  · rw [hins]
  · rw [hins]
    refine putLeaf_spec (t' := node i (b - 1) (node x 0 nil nil) r) hx0 hf h rfl ⟨[], i :: r.items, by simp [items], by simp [items]⟩ ?_ ?_ ?_
    · refine ⟨h0, by cell, ⟨hx0, by cell, trivial, trivial⟩, ?_⟩
      keep
    · intro a ha1 ha2 ha3
      have : a ≠ i.elem := by rintro rfl; simp at ha1
      simp only [Mem.get_set]
      rw [if_neg this.symm, if_neg ha3.symm, if_neg this.symm, if_neg ha2.symm]
    · cell
  · have hi : i.elem ∈ x.elem :: foot tree c (node i b nil r) := by simp [mem_foot]
    have ht : tree ∈ x.elem :: foot tree c (node i b nil r) := by simp [mem_foot]
    repeat (first | exact Off.refl _ _ | refine Off.set ?_ (by first | exact hi | exact ht | simp))
  · rw [hins]; simp

/-- Insertion of a new element in the place of an empty right child. -/
theorem putRight_leaf (cmp : Nat → Nat → Int) (d : Nat) {x i : Item} {b : Int} {l : T} (hx0 : x.elem ≠ 0) (h : Z m tree n c (node i b l nil))
    (hb : (node i b l nil).Bal) (hx : m.get x.elem = some (.aelem ⟨x.key, x.value, 0, 0, 0, 0⟩)) (hf : x.elem ∉ foot tree c (node i b l nil))
    (hlt : ¬ cmp x.key i.key < 0) (hgt : cmp x.key i.key > 0) :
    Does (putRightS cmp tree (d + 1) (hloc tree c) x.elem) m (PutPost cmp m tree n c (node i b l nil) x) := by
  obtain ⟨h0, h1, hl, hr⟩ := h.sub
  have hroot := h.around.root
  have htree := h.around.tree0
  obtain ⟨hil, hir, hxi, hxl, hxr, hxc, hxt, hti, htl, htr, -⟩ := h.sep hf
  rw [putRightS]
  refine Does.bind (read_hole h.around ?_)
  simp only [right, ptr_node]
  steps
  refine does_pos rfl ?_
  simp only [setParent, setRight, incSize, balance, setBalance, left]
  steps
  have hins : ins cmp x (node i b l nil) = (node i (b + 1) l (node x 0 nil nil), decide (b + 1 = 1), none) := by
    have : ¬ b + 1 = 2 := by have := hb.1; simp only [height] at this; omega
    simp only [ins, if_neg hlt, if_pos hgt, if_true, if_neg this]
  have hgr : decide (l.ptr = 0) = decide (b + 1 = 1) := by
    rw [decide_eq_decide, hl.ptr_eq_zero]; exact Bal.left_nil hb
  refine ⟨?_, ?_, ?_, ?_, ?_⟩
  · rw [hins]; exact hgr
  · rw [hins]
  · rw [hins]
    refine putLeaf_spec (t' := node i (b + 1) l (node x 0 nil nil)) hx0 hf h rfl ⟨l.items ++ [i], [], by simp [items], by simp [items]⟩ ?_ ?_ ?_
    · refine ⟨h0, by cell, ?_, ⟨hx0, by cell, trivial, trivial⟩⟩
      keep
    · intro a ha1 ha2 ha3
      have : a ≠ i.elem := by rintro rfl; simp at ha1
      simp only [Mem.get_set]
      rw [if_neg this.symm, if_neg ha3.symm, if_neg this.symm, if_neg ha2.symm]
    · cell
  · have hi : i.elem ∈ x.elem :: foot tree c (node i b l nil) := by simp [mem_foot]
    have ht : tree ∈ x.elem :: foot tree c (node i b l nil) := by simp [mem_foot]
    repeat (first | exact Off.refl _ _ | refine Off.set ?_ (by first | exact hi | exact ht | simp))
  · rw [hins]; simp

omit [Ptrs] in
theorem ite_fst {α β : Type} (g : Prop) [Decidable g] (a b : α × β) : (if g then a else b).1 = if g then a.1 else b.1 := by split <;> rfl
omit [Ptrs] in
theorem ite_snd {α β : Type} (g : Prop) [Decidable g] (a b : α × β) : (if g then a else b).2 = if g then a.2 else b.2 := by split <;> rfl

theorem putLeft_node (cmp : Nat → Nat → Int) (d : Nat) {x i : Item} {b : Int} {l r : T} (h : Z m tree n c (node i b l r)) (hln : l ≠ nil)
    (hb : (node i b l r).Bal) (hf : x.elem ∉ foot tree c (node i b l r)) (hlt : cmp x.key i.key < 0)
    (ih : Does (putS cmp tree d (.left i.elem) x.elem) m (PutPost cmp m tree n (.l i b r :: c) l x)) :
    Does (putLeftS cmp tree (d + 1) (hloc tree c) x.elem) m (PutPost cmp m tree n c (node i b l r) x) := by
  obtain ⟨h0, h1, hl, hr⟩ := h.sub
  obtain ⟨hb1, hb2, hb3, hbl, hbr⟩ := hb
  have hil := (h.sep hf).il
  rw [putLeftS]
  refine Does.bind (read_hole h.around ?_)
  simp only [left, ptr_node]
  steps
  refine does_neg (fun e => hln (hl.ptr_eq_zero.1 e)) ?_
  refine Does.bind (ih.mono ?_)
  rintro ⟨g, rm⟩ m1 ⟨p1, p2, p3, p4, p5⟩
  simp only at p1 p2 p3 p4 p5
  have hib := ins_bal cmp x hbl
  have hz1 := Z.up.1 p3
  simp only [Fr.fill] at hz1
  refine (afterLeft_spec hz1 hib.1 hbr g rm ?_).mono ?_
  · rintro rfl hb
    rw [← p1, if_pos rfl] at hib
    omega
  · rintro p m' ⟨rfl, q2, q3, q4⟩
    have hins : ins cmp x (node i b l r) =
      (if g then (if b - 1 = -2 then rotR (node i (b - 1) (ins cmp x l).1 r) else node i (b - 1) (ins cmp x l).1 r) else node i b (ins cmp x l).1 r,
       if g then (if b - 1 = -2 then false else decide (b - 1 = -1)) else false, (ins cmp x l).2.2) := by
      simp only [ins, if_pos hlt, ← p1]
      cases g with
      | false => rfl
      | true => simp only [if_true]; split <;> rfl
    refine ⟨?_, ?_, ?_, ?_, ?_⟩
    · rw [hins]
    · rw [hins]; exact p2
    · rw [hins]; exact q2
    · refine Off.trans (p4.mono fun a ha => ?_) (q3.mono fun a ha => ?_)
      · rcases List.mem_cons.1 ha with ha | ha
        · simp [ha]
        · exact List.mem_cons_of_mem _ (foot_up.1 ha)
      · simp only [mem_foot, addrs_node, List.mem_append, List.mem_cons] at ha ⊢
        rcases ha with ha | (ha | ha) | ha
        · exact Or.inr (Or.inl ha)
        · rcases ins_addrs cmp x l ha with ha | ha
          · exact Or.inl ha
          · exact Or.inr (Or.inr (Or.inl (Or.inl ha)))
        · exact Or.inr (Or.inr (Or.inl (Or.inr ha)))
        · exact Or.inr (Or.inr (Or.inr ha))
    · rw [hins]
      intro k hk
      have hg : g = false := by
        cases g with
        | false => rfl
        | true => rw [ins_grew_none cmp x l p1.symm] at hk; simp at hk
      rw [q4 hg]
      exact p5 k hk

theorem putRight_node (cmp : Nat → Nat → Int) (d : Nat) {x i : Item} {b : Int} {l r : T} (h : Z m tree n c (node i b l r)) (hln : r ≠ nil)
    (hb : (node i b l r).Bal) (hf : x.elem ∉ foot tree c (node i b l r)) (hlt : ¬ cmp x.key i.key < 0) (hgt : cmp x.key i.key > 0)
    (ih : Does (putS cmp tree d (.right i.elem) x.elem) m (PutPost cmp m tree n (.r i b l :: c) r x)) :
    Does (putRightS cmp tree (d + 1) (hloc tree c) x.elem) m (PutPost cmp m tree n c (node i b l r) x) := by
  obtain ⟨h0, h1, hl, hr⟩ := h.sub
  obtain ⟨hb1, hb2, hb3, hbl, hbr⟩ := hb
  have hil := (h.sep hf).il
  rw [putRightS]
  refine Does.bind (read_hole h.around ?_)
  simp only [right, ptr_node]
  steps
  refine does_neg (fun e => hln (hr.ptr_eq_zero.1 e)) ?_
  refine Does.bind (ih.mono ?_)
  rintro ⟨g, rm⟩ m1 ⟨p1, p2, p3, p4, p5⟩
  simp only at p1 p2 p3 p4 p5
  have hib := ins_bal cmp x hbr
  have hz1 := Z.up.1 p3
  simp only [Fr.fill] at hz1
  refine (afterRight_spec hz1 hbl hib.1 g rm ?_).mono ?_
  · rintro rfl hb
    rw [← p1, if_pos rfl] at hib
    omega
  · rintro p m' ⟨rfl, q2, q3, q4⟩
    have hins : ins cmp x (node i b l r) =
      (if g then (if b + 1 = 2 then rotL (node i (b + 1) l (ins cmp x r).1) else node i (b + 1) l (ins cmp x r).1) else node i b l (ins cmp x r).1,
       if g then (if b + 1 = 2 then false else decide (b + 1 = 1)) else false, (ins cmp x r).2.2) := by
      simp only [ins, if_neg hlt, if_pos hgt, ← p1]
      cases g with
      | false => rfl
      | true => simp only [if_true]; split <;> rfl
    refine ⟨?_, ?_, ?_, ?_, ?_⟩
    · rw [hins]
    · rw [hins]; exact p2
    · rw [hins]; exact q2
    · refine Off.trans (p4.mono fun a ha => ?_) (q3.mono fun a ha => ?_)
      · rcases List.mem_cons.1 ha with ha | ha
        · simp [ha]
        · exact List.mem_cons_of_mem _ (foot_up.1 ha)
      · simp only [mem_foot, addrs_node, List.mem_append, List.mem_cons] at ha ⊢
        rcases ha with ha | (ha | ha | ha) | ha
        · exact Or.inr (Or.inl ha)
        · exact Or.inr (Or.inr (Or.inl (Or.inl ha)))
        · exact Or.inr (Or.inr (Or.inl (Or.inr (Or.inl ha))))
        · rcases ins_addrs cmp x r ha with ha | ha
          · exact Or.inl ha
          · exact Or.inr (Or.inr (Or.inl (Or.inr (Or.inr ha))))
        · exact Or.inr (Or.inr (Or.inr ha))
    · rw [hins]
      intro k hk
      have hg : g = false := by
        cases g with
        | false => rfl
        | true => rw [ins_grew_none cmp x r p1.symm] at hk; simp at hk
      rw [q4 hg]
      exact p5 k hk

omit [Ptrs] in
theorem hole_not {x : Nat} (ht : x ≠ tree) (hc : x ∉ caddrs c) : x ∉ [hole tree c] := by
  simp only [List.mem_singleton]
  rintro rfl
  rcases List.mem_cons.1 (hole_mem tree c) with h | h
  · exact ht h
  · exact hc h

omit [Ptrs] in
/-- A subtree that is elsewhere. -/
theorem Rep.off {m m' : Mem} {p : Nat} {t : T} {S : List Nat} (h : Rep m p t) (ho : Off m m' S) (hs : ∀ a ∈ t.addrs, a ∉ S) : Rep m' p t :=
  h.frame fun a ha => ho a (hs a ha)

/-- avltree.c:325-330: the new element, with its fields copied, takes the place of the old one. -/
theorem replace_spec {x i : Item} {b : Int} {l r : T} (hx0 : x.elem ≠ 0) (h : Z m tree n c (node i b l r))
    (hs : Sep tree c i l r x) (hx : m.get x.elem = some (.aelem ⟨x.key, x.value, par 0 c, l.ptr, r.ptr, b⟩)) :
    Does (do
      substitute tree x.elem i.elem
      adopt (← left x.elem) x.elem
      adopt (← right x.elem) x.elem
      pure (false, i.elem)) m (fun p m' => p = (false, i.elem) ∧ Z m' tree n c (node x b l r) ∧
        Off m m' (x.elem :: foot tree c (node i b l r)) ∧ m'.get i.elem = m.get i.elem) := by
  obtain ⟨h0, h1, hl, hr⟩ := h.sub
  refine Does.bind ((substitute_spec (old := i.elem) h.around rfl h0 h1 hs.ic).mono ?_)
  rintro _ m1 ⟨a1, o1⟩
  have ht : ∀ a ∈ l.addrs, a ≠ tree := fun a ha e => hs.tl (e ▸ ha)
  have ht' : ∀ a ∈ r.addrs, a ≠ tree := fun a ha e => hs.tr (e ▸ ha)
  have x1 := (o1 _ (hole_not hs.xt hs.xc)).trans hx
  have l1 : Rep m1 i.elem l := hl.off o1 fun a ha => hole_not (ht a ha) (hs.lc a ha)
  have r1 : Rep m1 i.elem r := hr.off o1 fun a ha => hole_not (ht' a ha) (hs.rc a ha)
  have i1 := o1 _ (hole_not hs.ti.symm hs.ic)
  simp only [left, right]
  steps
  refine Does.bind ((adopt_spec l1 hs.ln).mono ?_)
  rintro _ m2 ⟨l2, o2⟩
  have x2 := (o2 _ hs.xl).trans x1
  have r2 : Rep m2 i.elem r := r1.off o2 fun a ha h' => hs.lr a h' ha
  have a2 : Around m2 tree n c x.elem := a1.frame o2 fun a ha => ⟨ht a ha, hs.lc a ha⟩
  have i2 := (o2 _ hs.il).trans i1
  steps
  refine Does.bind ((adopt_spec r2 hs.rn).mono ?_)
  rintro _ m3 ⟨r3, o3⟩
  have x3 := (o3 _ hs.xr).trans x2
  have l3 : Rep m3 x.elem l := l2.off o3 fun a ha h' => hs.lr a ha h'
  have a3 : Around m3 tree n c x.elem := a2.frame o3 fun a ha => ⟨ht' a ha, hs.rc a ha⟩
  have i3 := (o3 _ hs.ir).trans i2
  refine Does.pure ⟨rfl, ⟨a3, ⟨hx0, x3, l3, r3⟩, ?_⟩, ?_, i3⟩
  · have hn := h.nd
    simp only [addrs_node, List.append_assoc, List.cons_append, List.nodup_cons, List.nodup_append, List.mem_cons, List.mem_append] at hn ⊢
    obtain ⟨-, -, -, hxl, hxr, hxc, hxt, -⟩ := hs
    grind
  · refine Off.trans (Off.trans (o1.mono ?_) (o2.mono ?_)) (o3.mono ?_)
    · intro a ha
      simp only [List.mem_singleton] at ha
      subst ha
      rcases List.mem_cons.1 (hole_mem tree c) with h | h <;> simp [mem_foot, h]
    · intro a ha; simp [mem_foot, ha]
    · intro a ha; simp [mem_foot, ha]

/-- `put` on a stack: each level of the tree takes a call of `put` and one of `put_left` or `put_right`. -/
theorem putS_spec (cmp : Nat → Nat → Int) {x : Item} (hx0 : x.elem ≠ 0) : ∀ (t : T) (c : Ctx) (m : Mem) (d : Nat), 2 * t.height ≤ d → Z m tree n c t →
    t ≠ nil → t.Bal → m.get x.elem = some (.aelem ⟨x.key, x.value, 0, 0, 0, 0⟩) → x.elem ∉ foot tree c t →
    Does (putS cmp tree d (hloc tree c) x.elem) m (PutPost cmp m tree n c t x) := by
  intro t
  induction t with
  | nil => intro c m _ _ _ h; exact absurd rfl h
  | node i b l r ihl ihr =>
    intro c m d hd h _ hb hx hf
    obtain ⟨h0, h1, hl, hr⟩ := h.sub
    have hs := h.sep hf
    obtain ⟨d, rfl⟩ : ∃ d', d = d' + 2 := ⟨d - 2, by simp only [height] at hd; omega⟩
    have hdl : 2 * l.height ≤ d := by simp only [height] at hd; omega
    have hdr : 2 * r.height ≤ d := by simp only [height] at hd; omega
    rw [putS]
    refine Does.bind (read_hole h.around ?_)
    simp only [key, ptr_node]
    steps
    by_cases hlt : cmp x.key i.key < 0
    · refine does_pos hlt ?_
      by_cases hln : l = nil
      · subst hln; exact putLeft_leaf cmp d hx0 h hb hx hf hlt
      · exact putLeft_node cmp d h hln hb hf hlt
          (ihl (.l i b r :: c) m d hdl (Z.up.2 h) hln hb.2.2.2.1 hx (fun h' => hf (foot_up.1 h')))
    · refine does_neg hlt ?_
      by_cases hgt : cmp x.key i.key > 0
      · refine does_pos hgt ?_
        by_cases hln : r = nil
        · subst hln; exact putRight_leaf cmp d hx0 h hb hx hf hlt hgt
        · exact putRight_node cmp d h hln hb hf hlt hgt
            (ihr (.r i b l :: c) m d hdr (Z.up.2 h) hln hb.2.2.2.2 hx (fun h' => hf (foot_up.1 h')))
      · refine does_neg hgt (does_neg hs.xi.symm ?_)
        have hxi := hs.xi
        simp only [parent, left, right, balance, setParent, setLeft, setRight, setBalance]
        steps
        have hz : Z (((((m.set x.elem (.aelem ⟨x.key, x.value, par 0 c, 0, 0, 0⟩)).set x.elem (.aelem ⟨x.key, x.value, par 0 c, l.ptr, 0, 0⟩)).set
            x.elem (.aelem ⟨x.key, x.value, par 0 c, l.ptr, r.ptr, 0⟩))).set x.elem (.aelem ⟨x.key, x.value, par 0 c, l.ptr, r.ptr, b⟩)) tree n c
            (node i b l r) := by
          have ho : Off m (((((m.set x.elem (.aelem ⟨x.key, x.value, par 0 c, 0, 0, 0⟩)).set x.elem
              (.aelem ⟨x.key, x.value, par 0 c, l.ptr, 0, 0⟩)).set x.elem (.aelem ⟨x.key, x.value, par 0 c, l.ptr, r.ptr, 0⟩))).set
              x.elem (.aelem ⟨x.key, x.value, par 0 c, l.ptr, r.ptr, b⟩)) [x.elem] := by off
          refine ⟨h.around.frame ho ?_, h.sub.off ho ?_, h.nd⟩
          · intro a ha
            rw [List.mem_singleton.1 ha]; exact ⟨hs.xt, hs.xc⟩
          · intro a ha ha'
            rw [List.mem_singleton.1 ha'] at ha
            exact hf (mem_foot.2 (Or.inr (Or.inl ha)))
        refine (replace_spec hx0 hz hs (by cell)).mono ?_
        rintro p m' ⟨rfl, z', o', g'⟩
        have hins : ins cmp x (node i b l r) = (node x b l r, false, some i) := by simp only [ins, if_neg hlt, if_neg hgt]
        refine ⟨by rw [hins], by rw [hins], by rw [hins]; exact z', ?_, ?_⟩
        · refine Off.trans ?_ o'
          off
        · rw [hins]
          rintro k hk
          simp only [Option.some.injEq] at hk
          subst hk
          rw [g', h1]; cell

theorem put_spec (cmp : Nat → Nat → Int) {x : Item} (hx0 : x.elem ≠ 0) (t : T) (c : Ctx) (m : Mem) (h : Z m tree n c t) (hn : t ≠ nil) (hb : t.Bal)
    (hx : m.get x.elem = some (.aelem ⟨x.key, x.value, 0, 0, 0, 0⟩)) (hf : x.elem ∉ foot tree c t) :
    Does (put cmp tree (hloc tree c) x.elem) m (PutPost cmp m tree n c t x) :=
  (short_put _ _ _ _ _).2.2.does (putS_spec cmp hx0 t c m _ (le_refl _) h hn hb hx hf)

end Verif.Avl
