import Verif.Proofs.AvlSim

/-! The height of a tree in memory, and the number of elements a lookup inspects. -/

namespace Verif.Avl

open Spec.Avl (Item)
open T

variable {m m' : Mem} {t : T}

/-- The height of the subtree at `p`, following the child pointers in memory. -/
inductive Height (m : Mem) : Nat → Nat → Prop
  | null : Height m 0 0
  | node {p a b : Nat} {e : AElem} (h0 : p ≠ 0) (h : m.get p = some (.aelem e)) (hl : Height m e.left a) (hr : Height m e.right b) :
      Height m p (max a b + 1)

/-- `q` is the element at `p` or one below it. -/
inductive Below (m : Mem) : Nat → Nat → Prop
  | refl {p} (h0 : p ≠ 0) : Below m p p
  | left {p q : Nat} {e : AElem} (h0 : p ≠ 0) (h : m.get p = some (.aelem e)) (hq : Below m e.left q) : Below m p q
  | right {p q : Nat} {e : AElem} (h0 : p ≠ 0) (h : m.get p = some (.aelem e)) (hq : Below m e.right q) : Below m p q

/-- The subtrees of the element at `p` differ in height by at most one. -/
def Even (m : Mem) (p : Nat) : Prop :=
  ∃ e a b, m.get p = some (.aelem e) ∧ Height m e.left a ∧ Height m e.right b ∧ a ≤ b + 1 ∧ b ≤ a + 1

theorem Rep.height {p : Nat} : ∀ {t : T} {p : Nat}, Rep m p t → Height m t.ptr t.height := by
  intro t
  induction t with
  | nil => intro p _; exact .null
  | node i b l r ihl ihr =>
    rintro p ⟨h0, h1, h2, h3⟩
    exact .node h0 h1 (ihl h2) (ihr h3)

theorem below_null {p q : Nat} (h : Below m p q) : p ≠ 0 := by
  cases h with
  | refl h0 => exact h0
  | left h0 => exact h0
  | right h0 => exact h0

theorem Rep.even : ∀ {t : T} {p : Nat}, Rep m p t → t.Bal → ∀ q, Below m t.ptr q → Even m q := by
  intro t
  induction t with
  | nil => intro p _ _ q hq; exact absurd rfl (below_null hq)
  | node i b l r ihl ihr =>
    rintro p ⟨h0, h1, h2, h3⟩ ⟨b1, b2, b3, b4, b5⟩ q hq
    rw [ptr_node] at hq
    cases hq with
    | refl => exact ⟨_, _, _, h1, Rep.height (p := 0) h2, Rep.height (p := 0) h3, by omega, by omega⟩
    | left _ e hq => rw [h1] at e; cases e; exact ihl h2 b4 q hq
    | right _ e hq => rw [h1] at e; cases e; exact ihr h3 b5 q hq

theorem Rep.mem_below : ∀ {t : T} {p : Nat}, Rep m p t → ∀ i ∈ t.items, Below m t.ptr i.elem := by
  intro t
  induction t with
  | nil => intro p _ i hi; simp [items] at hi
  | node j b l r ihl ihr =>
    rintro p ⟨h0, h1, h2, h3⟩ i hi
    simp only [items, List.mem_append, List.mem_cons] at hi
    rcases hi with hi | rfl | hi
    · exact .left h0 h1 (ihl h2 i hi)
    · exact .refl h0
    · exact .right h0 h1 (ihr h3 i hi)

/-- The loop of `avl_tree_get`, counting the elements whose keys it compares. -/
def getLoopCount (cmp : Nat → Nat → Int) (k element : Nat) : M (Nat × Nat) := do
  if element ≠ 0 then
    let c := cmp k (← key element)
    if c = 0 then pure (element, 1)
    else if c > 0 then do
      let r ← getLoopCount cmp k (← right element)
      pure (r.1, r.2 + 1)
    else do
      let r ← getLoopCount cmp k (← left element)
      pure (r.1, r.2 + 1)
  else pure (0, 0)
partial_fixpoint

def getCount (cmp : Nat → Nat → Int) (tree k : Nat) : M (Nat × Nat) := do getLoopCount cmp k (← root tree)

theorem getLoopCount_spec (cmp : Nat → Nat → Int) (k : Nat) : ∀ (t : T) (p : Nat), Rep m p t → Does (getLoopCount cmp k t.ptr) m (fun a m' => m' = m ∧
    a.2 ≤ t.height ∧ Run (getLoop cmp k t.ptr) m a.1 m) := by
  intro t
  induction t with
  | nil =>
    intro p _
    rw [getLoopCount]
    refine does_neg (by simp) (Does.pure ⟨rfl, Nat.zero_le _, ?_⟩)
    rw [getLoop, ptr_nil, if_neg (by simp)]
    exact Run.pure _ _
  | node i b l r ihl ihr =>
    rintro p ⟨h0, h1, h2, h3⟩
    have hkey : Run (key i.elem) m i.key m := Run.bind (run_readAE h0 h1) (Run.pure _ _)
    have hleft : Run (left i.elem) m l.ptr m := Run.bind (run_readAE h0 h1) (Run.pure _ _)
    have hright : Run (right i.elem) m r.ptr m := Run.bind (run_readAE h0 h1) (Run.pure _ _)
    rw [getLoopCount, getLoop, ptr_node, if_pos h0, if_pos h0]
    refine Does.bind (hkey.does ?_)
    dsimp only
    by_cases hc : cmp k i.key = 0
    · refine does_pos hc (Does.pure ⟨rfl, by simp [height], Run.bind hkey ?_⟩)
      rw [if_pos hc]; exact Run.pure _ _
    · refine does_neg hc ?_
      by_cases hg : cmp k i.key > 0
      · refine does_pos hg (Does.bind (hright.does (Does.bind ((ihr _ h3).mono ?_))))
        rintro ⟨a, c⟩ _ ⟨rfl, hle, hr⟩
        refine Does.pure ⟨rfl, by simp only [height]; simp only at hle; omega, Run.bind hkey ?_⟩
        rw [if_neg hc, if_pos hg]
        exact Run.bind hright hr
      · refine does_neg hg (Does.bind (hleft.does (Does.bind ((ihl _ h2).mono ?_))))
        rintro ⟨a, c⟩ _ ⟨rfl, hle, hr⟩
        refine Does.pure ⟨rfl, by simp only [height]; simp only at hle; omega, Run.bind hkey ?_⟩
        rw [if_neg hc, if_neg hg]
        exact Run.bind hleft hr

end Verif.Avl
