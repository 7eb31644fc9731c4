import Verif.Proofs.AvlRotate

/-! Insertion: on trees, and `put` in memory. -/

namespace Verif.Avl

open Spec.Avl (Item)
open T

def T.bal : T → Int
  | nil => 0
  | node _ b _ _ => b

theorem half_pos (b : Int) (h1 : -1 ≤ b) (h2 : b ≤ 1) : -((1 + b).tdiv 2) = if b = 1 then -1 else 0 := by
  have : b = -1 ∨ b = 0 ∨ b = 1 := by omega
  rcases this with rfl | rfl | rfl <;> decide

theorem half_neg (b : Int) (h1 : -1 ≤ b) (h2 : b ≤ 1) : (1 - b).tdiv 2 = if b = -1 then 1 else 0 := by
  have : b = -1 ∨ b = 0 ∨ b = 1 := by omega
  rcases this with rfl | rfl | rfl <;> decide

theorem height_pos {t : T} (h : 0 < t.height) : ∃ i b l r, t = node i b l r := by
  cases t with
  | nil => simp [height] at h
  | node i b l r => exact ⟨i, b, l, r, rfl⟩

/-- A right rotation restores the balance. -/
theorem rotR_bal {i : Item} {b : Int} {l r : T} (hl : l.Bal) (hr : r.Bal) (hh : l.height = r.height + 2) :
    CanR (node i b l r) ∧ (rotR (node i b l r)).Bal ∧
    (l.bal = 0 → (rotR (node i b l r)).height = l.height + 1 ∧ (rotR (node i b l r)).bal = 1) ∧
    (l.bal ≠ 0 → (rotR (node i b l r)).height = l.height ∧ (rotR (node i b l r)).bal = 0) := by
  obtain ⟨y, b', A, B, rfl⟩ := height_pos (t := l) (by omega)
  obtain ⟨h1, h2, h3, hA, hB⟩ := hl
  simp only [height] at hh
  by_cases hb : b' ≤ 0
  · simp only [CanR, rotR, if_pos hb, Bal, T.bal, height]
    refine ⟨Or.inl hb, ⟨?_, ?_, ?_, hA, ?_, ?_, ?_, hB, hr⟩, fun _ => ⟨?_, ?_⟩, fun _ => ⟨?_, ?_⟩⟩ <;> omega
  · obtain ⟨z, bz, B1, B2, rfl⟩ := height_pos (t := B) (by omega)
    obtain ⟨g1, g2, g3, hB1, hB2⟩ := hB
    simp only [height] at hh h1
    simp only [CanR, rotR, if_neg hb, Bal, T.bal, height, half_pos bz g2 g3, half_neg bz g2 g3]
    refine ⟨Or.inr (by simp), ⟨?_, ?_, ?_, ⟨?_, ?_, ?_, hA, hB1⟩, ?_, ?_, ?_, hB2, hr⟩, fun _ => ⟨?_, ?_⟩, fun _ => ⟨?_, ?_⟩⟩ <;>
      (try split) <;> first | trivial | omega

/-- A left rotation restores the balance. -/
theorem rotL_bal {i : Item} {b : Int} {l r : T} (hl : l.Bal) (hr : r.Bal) (hh : r.height = l.height + 2) :
    CanL (node i b l r) ∧ (rotL (node i b l r)).Bal ∧
    (r.bal = 0 → (rotL (node i b l r)).height = r.height + 1 ∧ (rotL (node i b l r)).bal = -1) ∧
    (r.bal ≠ 0 → (rotL (node i b l r)).height = r.height ∧ (rotL (node i b l r)).bal = 0) := by
  obtain ⟨y, b', B, A, rfl⟩ := height_pos (t := r) (by omega)
  obtain ⟨h1, h2, h3, hB, hA⟩ := hr
  simp only [height] at hh
  by_cases hb : b' ≥ 0
  · simp only [CanL, rotL, if_pos hb, Bal, T.bal, height]
    refine ⟨Or.inl hb, ⟨?_, ?_, ?_, ⟨?_, ?_, ?_, hl, hB⟩, hA⟩, fun _ => ⟨?_, ?_⟩, fun _ => ⟨?_, ?_⟩⟩ <;> omega
  · obtain ⟨z, bz, B1, B2, rfl⟩ := height_pos (t := B) (by omega)
    obtain ⟨g1, g2, g3, hB1, hB2⟩ := hB
    simp only [height] at hh h1
    simp only [CanL, rotL, if_neg hb, Bal, T.bal, height, half_pos bz g2 g3, half_neg bz g2 g3]
    refine ⟨Or.inr (by simp), ⟨?_, ?_, ?_, ⟨?_, ?_, ?_, hl, hB1⟩, ?_, ?_, ?_, hB2, hA⟩, fun _ => ⟨?_, ?_⟩, fun _ => ⟨?_, ?_⟩⟩ <;>
      (try split) <;> first | trivial | omega

/-- Insertion into a tree: the new tree, whether it is higher, and the item displaced. -/
def ins (cmp : Nat → Nat → Int) (x : Item) : T → T × Bool × Option Item
  | nil => (node x 0 nil nil, true, none)
  | node i b l r =>
    if cmp x.key i.key < 0 then
      let p := ins cmp x l
      if p.2.1 then
        if b - 1 = -2 then (rotR (node i (b - 1) p.1 r), false, p.2.2) else (node i (b - 1) p.1 r, decide (b - 1 = -1), p.2.2)
      else (node i b p.1 r, false, p.2.2)
    else if cmp x.key i.key > 0 then
      let p := ins cmp x r
      if p.2.1 then
        if b + 1 = 2 then (rotL (node i (b + 1) l p.1), false, p.2.2) else (node i (b + 1) l p.1, decide (b + 1 = 1), p.2.2)
      else (node i b l p.1, false, p.2.2)
    else (node x b l r, false, some i)

theorem ins_bal (cmp : Nat → Nat → Int) (x : Item) {t : T} (h : t.Bal) :
    (ins cmp x t).1.Bal ∧ (ins cmp x t).1.height = t.height + (if (ins cmp x t).2.1 then 1 else 0) ∧
    ((ins cmp x t).2.1 = true → t ≠ nil → (ins cmp x t).1.bal ≠ 0) ∧ (ins cmp x t).1 ≠ nil := by
  induction t with
  | nil => simp [ins, Bal, height]
  | node i b l r ihl ihr =>
    obtain ⟨h1, h2, h3, hl, hr⟩ := h
    simp only [ins]
    split
    · obtain ⟨k1, k2, k3, k4⟩ := ihl hl
      split
      · rename_i hg
        rw [if_pos hg] at k2
        split
        · rename_i hb
          have hln : l ≠ nil := by rintro rfl; simp only [height] at h1; omega
          obtain ⟨-, r1, -, r3⟩ := rotR_bal (i := i) (b := b - 1) k1 hr (by omega)
          refine ⟨r1, ?_, by simp, ?_⟩
          · rw [(r3 (k3 hg hln)).1]; simp only [height, Bool.false_eq_true, if_false]; omega
          · intro e
            have := (r3 (k3 hg hln)).1
            simp only at e; rw [e] at this; simp only [height] at this; omega
        · simp only [Bal, height, T.bal, decide_eq_true_eq]
          refine ⟨⟨?_, ?_, ?_, k1, hr⟩, ?_, ?_, by simp⟩
          · omega
          · omega
          · omega
          · split <;> omega
          · intros; omega
      · rename_i hg
        rw [if_neg hg] at k2
        simp only [Bal, height, Bool.false_eq_true, if_false, false_implies, ne_eq, reduceCtorEq, not_false_eq_true, and_true]
        refine ⟨⟨?_, h2, h3, k1, hr⟩, ?_⟩ <;> omega
    · split
      · obtain ⟨k1, k2, k3, k4⟩ := ihr hr
        split
        · rename_i hg
          rw [if_pos hg] at k2
          split
          · rename_i hb
            have hln : r ≠ nil := by rintro rfl; simp only [height] at h1; omega
            obtain ⟨-, r1, -, r3⟩ := rotL_bal (i := i) (b := b + 1) hl k1 (by omega)
            refine ⟨r1, ?_, by simp, ?_⟩
            · rw [(r3 (k3 hg hln)).1]; simp only [height, Bool.false_eq_true, if_false]; omega
            · intro e
              have := (r3 (k3 hg hln)).1
              simp only at e; rw [e] at this; simp only [height] at this; omega
          · simp only [Bal, height, T.bal, decide_eq_true_eq]
            refine ⟨⟨?_, ?_, ?_, hl, k1⟩, ?_, ?_, by simp⟩
            · omega
            · omega
            · omega
            · split <;> omega
            · intros; omega
        · rename_i hg
          rw [if_neg hg] at k2
          simp only [Bal, height, Bool.false_eq_true, if_false, false_implies, ne_eq, reduceCtorEq, not_false_eq_true, and_true]
          refine ⟨⟨?_, h2, h3, hl, k1⟩, ?_⟩ <;> omega
      · simp only [Bal, height, Bool.false_eq_true, if_false, false_implies, ne_eq, reduceCtorEq, not_false_eq_true, and_true]
        exact ⟨h1, h2, h3, hl, hr⟩

/-- What insertion does to the sequence of items. -/
theorem ins_items (cmp : Nat → Nat → Int) (x : Item) (t : T) :
    ((ins cmp x t).2.2 = none → ∃ xs ys, t.items = xs ++ ys ∧ (ins cmp x t).1.items = xs ++ x :: ys) ∧
    (∀ i, (ins cmp x t).2.2 = some i → ∃ xs ys, t.items = xs ++ i :: ys ∧ (ins cmp x t).1.items = xs ++ x :: ys ∧
      ¬ cmp x.key i.key < 0 ∧ ¬ cmp x.key i.key > 0) := by
  induction t with
  | nil => simp [ins, items]
  | node i b l r ihl ihr =>
    simp only [ins]
    split
    · have key : ∀ (t' : T), t'.items = (ins cmp x l).1.items ++ i :: r.items →
          ((ins cmp x l).2.2 = none → ∃ xs ys, (node i b l r).items = xs ++ ys ∧ t'.items = xs ++ x :: ys) ∧
          (∀ j, (ins cmp x l).2.2 = some j → ∃ xs ys, (node i b l r).items = xs ++ j :: ys ∧ t'.items = xs ++ x :: ys ∧
            ¬ cmp x.key j.key < 0 ∧ ¬ cmp x.key j.key > 0) := by
        intro t' ht
        refine ⟨fun hn => ?_, fun j hj => ?_⟩
        · obtain ⟨xs, ys, e1, e2⟩ := ihl.1 hn
          exact ⟨xs, ys ++ i :: r.items, by simp [items, e1], by simp [ht, e2]⟩
        · obtain ⟨xs, ys, e1, e2, e3⟩ := ihl.2 j hj
          exact ⟨xs, ys ++ i :: r.items, by simp [items, e1], by simp [ht, e2], e3⟩
      split
      · split
        · exact key _ (by rw [rotR_items]; rfl)
        · exact key _ rfl
      · exact key _ rfl
    · split
      · have key : ∀ (t' : T), t'.items = l.items ++ i :: (ins cmp x r).1.items →
            ((ins cmp x r).2.2 = none → ∃ xs ys, (node i b l r).items = xs ++ ys ∧ t'.items = xs ++ x :: ys) ∧
            (∀ j, (ins cmp x r).2.2 = some j → ∃ xs ys, (node i b l r).items = xs ++ j :: ys ∧ t'.items = xs ++ x :: ys ∧
              ¬ cmp x.key j.key < 0 ∧ ¬ cmp x.key j.key > 0) := by
          intro t' ht
          refine ⟨fun hn => ?_, fun j hj => ?_⟩
          · obtain ⟨xs, ys, e1, e2⟩ := ihr.1 hn
            exact ⟨l.items ++ i :: xs, ys, by simp [items, e1], by simp [ht, e2]⟩
          · obtain ⟨xs, ys, e1, e2, e3⟩ := ihr.2 j hj
            exact ⟨l.items ++ i :: xs, ys, by simp [items, e1], by simp [ht, e2], e3⟩
        split
        · split
          · exact key _ (by rw [rotL_items]; rfl)
          · exact key _ rfl
        · exact key _ rfl
      · refine ⟨by simp, ?_⟩
        rintro j hj
        simp only [Option.some.injEq] at hj
        subst hj
        exact ⟨l.items, r.items, rfl, rfl, by assumption, by assumption⟩

end Verif.Avl
