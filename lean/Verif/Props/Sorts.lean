import Verif.Props.Sweep
import Verif.Props.Prioq
import Verif.Props.IntSetLoop

/-! Property C130: trees, priority queues and integer sets deliver the same sequence. -/

set_option autoImplicit false

namespace Verif.Sorts
open Verif.Spec.Avl

/-- `avl_tree_put(tree, x, x)` for each element. -/
def fill (t : Nat) : List Nat → Prog
  | [] => .done
  | x :: xs => .call (.put t x x) fun _ => fill t xs

/-- Make a tree and fill it. -/
def enter (xs : List Nat) : Prog := .call .make fun
  | .ptr t => fill t xs
  | _ => .done

variable {cmp : Nat → Nat → Int}

theorem fill_legal (t : Nat) : ∀ (xs : List Nat) (s : State), Has s t → Legal cmp (fill t xs) s
  | [], _, _ => trivial
  | x :: xs, _, h => ⟨h, fun _ _ hs => fill_legal t xs _ ((Avl.put_has hs t x x rfl).1 t h)⟩

theorem enter_legal (xs : List Nat) : Legal cmp (enter xs) ⟨0, 0⟩ := by
  refine ⟨trivial, fun r s' h => ?_⟩
  obtain ⟨t, rfl, ht⟩ := Avl.make_has h rfl
  exact fill_legal t xs s' ht

/-- What filling a tree with elements that all differ, also from those in the tree, amounts to. -/
theorem fill_runs (o : Order cmp) (t : Nat) : ∀ (xs : List Nat) (items : List Item) (rs : List Res) (s : State),
    Runs cmp (fill t xs) ⟨{(t, items)}, 0⟩ rs s → xs.Pairwise (fun a b => cmp a b ≠ 0) → (∀ x ∈ xs, ∀ i ∈ items, cmp x i.key ≠ 0) →
    (∀ i ∈ items, i.value = i.key) →
    rs = xs.map (fun _ => .ptr 0) ∧ ∃ items', s = ⟨{(t, items')}, 0⟩ ∧ (items'.map (·.value)).Perm (xs ++ items.map (·.value)) ∧
      ∀ i ∈ items', i.value = i.key := by
  intro xs
  induction xs with
  | nil =>
    intro items rs s h _ _ hv
    cases h
    exact ⟨rfl, items, rfl, by simp, hv⟩
  | cons x xs ih =>
    intro items rs s h hx hi hv
    rw [List.pairwise_cons] at hx
    cases h with
    | @call _ _ _ r s1 rs _ h h' =>
      generalize hop : Op.put t x x = op at h
      generalize hs0 : (⟨{(t, items)}, 0⟩ : State) = s0 at h
      cases h with
      | @put_new t' ys zs ts loose k v a ho hf =>
        cases hop
        rw [State.mk.injEq] at hs0
        obtain ⟨e1, rfl⟩ := hs0
        obtain ⟨rfl, e2⟩ : ts = 0 ∧ items = ys ++ zs := by
          have := congrArg Multiset.card e1
          rw [Multiset.card_singleton, Multiset.card_cons] at this
          have hz : ts = 0 := Multiset.card_eq_zero.1 (by omega)
          subst hz
          have := (Multiset.singleton_inj.1 e1)
          simpa using this
        subst e2
        obtain ⟨h1, items', h2, h3, h4⟩ := ih (ys ++ ⟨a, x, x⟩ :: zs) rs s h' hx.2 (by
            intro y hy i hm
            rw [List.mem_append, List.mem_cons] at hm
            rcases hm with hm | rfl | hm
            · exact hi y (by simp [hy]) i (by simp [hm])
            · intro h0
              have := hx.1 y hy
              have := o.anti x y
              have := o.anti y x
              simp only at h0
              omega
            · exact hi y (by simp [hy]) i (by simp [hm])) (by
            intro i hm
            rw [List.mem_append, List.mem_cons] at hm
            rcases hm with hm | rfl | hm
            · exact hv i (by simp [hm])
            · rfl
            · exact hv i (by simp [hm]))
        refine ⟨by rw [h1]; rfl, items', h2, h3.trans ?_, h4⟩
        simp only [List.map_append, List.map_cons, List.cons_append]
        rw [← List.append_assoc, ← List.append_assoc]
        exact List.perm_middle
      | @put_replace t' ys i zs ts loose k v a ho hf =>
        cases hop
        rw [State.mk.injEq] at hs0
        obtain ⟨e1, rfl⟩ := hs0
        have hm : (t, ys ++ i :: zs) ∈ ({(t, items)} : Multiset (Nat × List Item)) := by rw [e1]; simp
        rw [Multiset.mem_singleton, Prod.mk.injEq] at hm
        exact absurd ho (hi x (by simp) i (by rw [← hm.2]; simp))
      | looks hl => cases hop; cases hl
      | _ => cases hop

/-- A strictly ascending arrangement is unique. -/
theorem ascending_unique (o : Order cmp) {xs ys : List Nat} (h : xs.Perm ys) (hx : xs.Pairwise fun a b => cmp a b < 0)
    (hy : ys.Pairwise fun a b => cmp a b < 0) : xs = ys :=
  h.eq_of_pairwise (fun a b _ _ h1 h2 => by have := o.anti a b; omega) hx hy

/-- C130. Elements that differ, put into a tree or enqueued in any order: a loop over the tree finds, and dequeueing until the queue is empty
delivers, the same sequence, which is the elements in ascending order; a loop backwards finds the reverse. No element replaces another. -/
theorem sorts_agree {A : Alloc} (hA : A.Good) (F : Funs) (f d : Nat) (o : Order (F.cmp f d)) (xs : List Nat)
    (hx : xs.Pairwise fun a b => F.cmp f d a b ≠ 0) (hl : xs.length ≤ 2 ^ 60) (m0 : Mem) :
    ∃ vs : List Nat, vs.Perm xs ∧ vs.Pairwise (fun a b => F.cmp f d a b < 0) ∧
      (∃ t m, Run (Avl.exec A F f d (enter xs)) m0 (.ptr t :: xs.map fun _ => .ptr 0) m ∧
        ∀ back, ∃ items m', Run (Avl.sweep back (fun _ _ => false) t) m items m' ∧ items.map (·.value) = if back then vs.reverse else vs) ∧
      ∃ q q', Returns (Prioq.run (F.cmp f d) Prioq.make (xs.map .enqueue)) (xs.map fun _ => none, q) ∧
        Returns (Prioq.drain (F.cmp f d) q) (vs, q') ∧ Prioq.size q' = 0 := by
  obtain ⟨rs, m, s, h1, h2, h3⟩ := Avl.avl_sweep hA F f d (enter xs) m0 (enter_legal xs)
  have hw := Avl.avl_reachable_wf h2
  cases h2 with
  | @call _ _ _ r s1 rs _ hs hr =>
    generalize hop : Op.make = op at hs
    generalize hs0 : (⟨0, 0⟩ : State) = s0 at hs
    cases hs with
    | @make ts loose t hf =>
      rw [State.mk.injEq] at hs0
      obtain ⟨rfl, rfl⟩ := hs0
      obtain ⟨rfl, items, rfl, h4, h5⟩ := fill_runs o t xs [] rs s hr hx (by simp) (by simp)
      have h6 := hw.sorted o (t, items) (by simp)
      have h7 : items.map (·.value) = items.map (·.key) := List.map_congr_left h5
      have h8 : (items.map (·.value)).Pairwise fun a b => F.cmp f d a b < 0 := by
        rw [h7, List.pairwise_map]
        exact h6
      simp only [List.map_nil, List.append_nil] at h4
      refine ⟨items.map (·.value), h4, h8, ⟨t, m, h1, fun back => ?_⟩, ?_⟩
      · obtain ⟨m', g1, -⟩ := h3 t items 0 rfl back fun _ _ => false
        refine ⟨_, m', g1, ?_⟩
        cases back <;> simp [Avl.visits]
      · have hq : ∀ (ys : List Nat) (m m' : Multiset Nat) (rs : List (Option Nat)),
            Spec.Prioq.Steps (fun a b => F.cmp f d a b ≤ 0) m (ys.map .enqueue) rs m' → rs = ys.map (fun _ => none) ∧ m' = ↑ys + m := by
          intro ys
          induction ys with
          | nil => intro m m' rs h; cases h; simp
          | cons y ys ih =>
            intro m m' rs h
            cases h with
            | cons h h' =>
              cases h with
              | enqueue =>
                obtain ⟨rfl, rfl⟩ := ih _ _ _ h'
                refine ⟨rfl, ?_⟩
                rw [← Multiset.cons_coe, Multiset.cons_add, Multiset.add_cons]
        obtain ⟨rs, q, mm, vs, q', k1, k2, k3, k4, k5, k6⟩ := Prioq.priorq_drain_sorts (cmp := F.cmp f d) ⟨o.anti, o.trans⟩ (xs.map .enqueue)
          (Prioq.legal_of_length _ _ 0 (by simpa using hl) (by simp))
        obtain ⟨rfl, rfl⟩ := hq _ _ _ _ k2
        rw [add_zero, Multiset.coe_eq_coe] at k4
        have k7 : vs.Pairwise fun a b => F.cmp f d a b < 0 := by
          have hd : vs.Pairwise fun a b => F.cmp f d a b ≠ 0 :=
            (k4.symm.pairwise_iff (fun {a b} h h0 => h (by have := o.anti a b; have := o.anti b a; omega))).1 hx
          exact (k5.and hd).imp fun h => by omega
        obtain rfl := ascending_unique o (k4.trans h4.symm) k7 h8
        exact ⟨q, q', k1, k3, k6⟩
    | looks hl => cases hop; cases hl
    | _ => cases hop

theorem after_adds (n : Nat) : ∀ (xs : List Nat) (S : Nat → Bool) (i : Nat), (∀ x ∈ xs, x < n) →
    (xs.map Spec.IntSet.Op.add).foldl (Spec.IntSet.apply n) S i = (decide (i ∈ xs) || S i)
  | [], S, i, _ => by simp
  | x :: xs, S, i, h => by
    rw [List.map_cons, List.foldl_cons, after_adds n xs _ i fun y hy => h y (by simp [hy])]
    have hx := h x (by simp)
    simp only [Spec.IntSet.apply, List.mem_cons]
    by_cases e : i = x
    · subst e; simp [hx]
    · simp [e]

/-- C130, numbers. The loop over an integer set to which the numbers were added finds that sequence too. -/
theorem sorts_numbers {A : Alloc} (hA : A.Good) (F : Funs) (f d : Nat) (hc : ∀ a b : Nat, F.cmp f d a b = (a : Int) - b) (n : UInt64)
    (hn : n.toNat < 2 ^ 31) (xs : List Nat) (hx : xs.Nodup) (hxn : ∀ x ∈ xs, x < n.toNat) (m0 : Mem) :
    ∃ vs : List Nat, vs.Perm xs ∧ vs.Pairwise (· < ·) ∧
      (∃ t m, Run (Avl.exec A F f d (enter xs)) m0 (.ptr t :: xs.map fun _ => .ptr 0) m ∧
        ∃ items m', Run (Avl.sweep false (fun _ _ => false) t) m items m' ∧ items.map (·.value) = vs) ∧
      (∃ q q', Returns (Prioq.run (F.cmp f d) Prioq.make (xs.map .enqueue)) (xs.map fun _ => none, q) ∧
        Returns (Prioq.drain (F.cmp f d) q) (vs, q') ∧ Prioq.size q' = 0) ∧
      ∃ s s', Returns (IntSet.run (IntSet.make n) (xs.map fun x => .add (UInt32.ofNat x))) s ∧
        Returns (IntSet.sweep true (fun _ _ => []) s [] 0) (vs, s') := by
  have o : Order (F.cmp f d) := ⟨fun a b => by rw [hc, hc]; omega, fun a b c => by rw [hc, hc, hc]; omega⟩
  have hlen : xs.length ≤ 2 ^ 60 := by
    have h1 : xs.Subperm (List.range n.toNat) := List.subperm_of_subset hx fun x h => List.mem_range.2 (hxn x h)
    have h2 := h1.length_le
    rw [List.length_range] at h2
    omega
  obtain ⟨vs, h1, h2, ⟨t, m, h3, h4⟩, h5⟩ := sorts_agree hA F f d o xs (hx.imp fun {a b} h => by rw [hc]; omega) hlen m0
  obtain ⟨items, m', h6, h7⟩ := h4 false
  have h2' : vs.Pairwise (· < ·) := h2.imp fun {a b} h => by rw [hc] at h; omega
  refine ⟨vs, h1, h2', ⟨t, m, h3, items, m', h6, h7⟩, h5, ?_⟩
  obtain ⟨s, ws, s', k1, k2, k3, -⟩ := IntSet.intset_sweep n hn (xs.map fun x => .add (UInt32.ofNat x)) true (fun _ _ => []) (by simp)
  have hmap : (xs.map fun x => IntSet.Op.add (UInt32.ofNat x)).map IntSet.Op.abs = xs.map Spec.IntSet.Op.add := by
    rw [List.map_map]
    refine List.map_congr_left fun x hm => ?_
    have := hxn x hm
    simp only [Function.comp, IntSet.Op.abs, UInt32.toNat_ofNat']
    rw [Nat.mod_eq_of_lt (by omega)]
  have hs : ws.Pairwise (· < ·) := by rw [k3]; exact List.pairwise_lt_range.filter _
  have hm : ∀ i, i ∈ ws ↔ i ∈ vs := by
    intro i
    rw [k3, hmap, List.mem_filter, List.mem_range, Spec.IntSet.after, h1.mem_iff, after_adds _ _ _ _ hxn]
    simp only [Bool.or_false, decide_eq_true_eq]
    exact ⟨fun h => h.2, fun h => ⟨hxn i h, h⟩⟩
  have hp : ws.Perm vs := (List.perm_ext_iff_of_nodup (hs.imp Nat.ne_of_lt) (h2'.imp Nat.ne_of_lt)).2 hm
  obtain rfl := hp.eq_of_pairwise (fun a b _ _ h1 h2 => by omega) hs h2'
  exact ⟨s, s', k1, k2⟩

/-- Not vacuous: an order, elements that differ, and the sequence. -/
example : Order (fun a b : Nat => (a : Int) - b) ∧ [30, 10, 20].Pairwise (fun a b : Nat => (a : Int) - b ≠ 0) ∧ [30, 10, 20].length ≤ 2 ^ 60 ∧
    [10, 20, 30].Perm [30, 10, 20] ∧ [10, 20, 30].Pairwise (· < ·) := by
  refine ⟨Avl.order_int, by simp, by simp, by decide, by decide⟩

end Verif.Sorts
