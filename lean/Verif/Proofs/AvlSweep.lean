import Verif.Spec.Sweep
import Verif.Proofs.AvlSim

/-! Loops of the user over a tree that remove elements as they go. -/

set_option autoImplicit false

namespace Verif.Avl
open Spec.Avl Spec

/-- `avl_tree_next`, or `avl_tree_previous`. -/
def onward (back : Bool) (e : Nat) : M Nat := if back then previous e else next e

/-- `avl_tree_get_first`, or `avl_tree_get_last`. -/
def outer (back : Bool) (tree : Nat) : M Nat := if back then getLast tree else getFirst tree

/-- `avl_tree_pop_first`, or `avl_tree_pop_last`. -/
def popOuter (back : Bool) (tree : Nat) : M Nat := if back then popLast tree else popFirst tree

/-- `if (b) avl_tree_remove(tree, e);` -/
def removeIf (b : Bool) (tree e : Nat) : M Unit := if b then remove tree e else pure ()

/-- `while (e) { n = avl_tree_next(e); if (drop(e)) avl_tree_remove(tree, e); e = n; }`, or the same with `avl_tree_previous`. The result is the
elements visited, with the keys and values they had. -/
def sweepLoop (back : Bool) (drop : List Item → Item → Bool) (tree : Nat) (seen : List Item) (e : Nat) : M (List Item) := do
  if e = 0 then pure seen
  else
    let n ← onward back e
    let k ← getKey e
    let v ← getValue e
    removeIf (drop seen ⟨e, k, v⟩) tree e
    sweepLoop back drop tree (seen ++ [⟨e, k, v⟩]) n
partial_fixpoint

/-- The loop from `avl_tree_get_first` on, or from `avl_tree_get_last` backwards. -/
def sweep (back : Bool) (drop : List Item → Item → Bool) (tree : Nat) : M (List Item) := do
  let e ← outer back tree
  sweepLoop back drop tree [] e

/-- `while ((e = avl_tree_pop_first(tree))) destroy_avl_element(e);`, or the same with `avl_tree_pop_last`. -/
def drain (back : Bool) (tree : Nat) (seen : List Item) : M (List Item) := do
  let e ← popOuter back tree
  if e = 0 then pure seen
  else
    let k ← getKey e
    let v ← getValue e
    destroyElement e
    drain back tree (seen ++ [⟨e, k, v⟩])
partial_fixpoint

variable [Ptrs] {cmp : Nat → Nat → Int} {m0 m : Mem} {t : T} {tree : Nat} {ws : List (Nat × T)} {det : List Item}

theorem Front.of (h : WMem cmp m0 ((tree, t) :: ws) det m) : Front cmp m0 ⟨(tree, t.items) ::ₘ ↑(ws.map view), ↑det⟩ m tree t ws det := ⟨h, rfl⟩

theorem WInv.front {s : State} {items : List Item} {ts : Multiset (Nat × List Item)} (h : WInv cmp m0 s m) (hs : s.trees = (tree, items) ::ₘ ts) :
    ∃ t ws det, WMem cmp m0 ((tree, t) :: ws) det m ∧ t.items = items ∧ ts = ↑(ws.map view) ∧ s.loose = ↑det := by
  obtain ⟨ws, det, h, rfl⟩ := h
  simp only at hs
  have hx : (tree, items) ∈ ((ws.map view : List _) : Multiset (Nat × List Item)) := by rw [hs]; simp
  simp only [Multiset.mem_coe, List.mem_map] at hx
  obtain ⟨w, hw, e⟩ := hx
  obtain ⟨xs, ys, rfl⟩ := List.append_of_mem hw
  have hp : (xs ++ w :: ys).Perm (w :: (xs ++ ys)) := List.perm_middle
  obtain ⟨a, t⟩ := w
  simp only [view, Prod.mk.injEq] at e
  obtain ⟨rfl, rfl⟩ := e
  refine ⟨t, xs ++ ys, det, h.perm hp (List.Perm.refl _), rfl, ?_, rfl⟩
  have : ((a, t.items) ::ₘ ts) = (a, t.items) ::ₘ ↑((xs ++ ys).map view) := hs.symm.trans (Multiset.coe_eq_coe.2 (hp.map view))
  exact (Multiset.cons_inj_right _).1 this

/-- Key and value of an element in a tree. -/
theorem Front.fields {s : State} {i : Item} (h : Front cmp m0 s m tree t ws det) (hi : i ∈ t.items) :
    i.elem ≠ 0 ∧ Run (getKey i.elem) m i.key m ∧ Run (getValue i.elem) m i.value m := by
  obtain ⟨q, l, r, b, e⟩ := h.good.z.sub.live i hi
  have h0 := h.good.z.elem_ne hi
  exact ⟨h0, (run_readAE h0 e).bind (Run.pure _ _), (run_readAE h0 e).bind (Run.pure _ _)⟩

theorem remove_front {xs ys : List Item} {i : Item} (h : WMem cmp m0 ((tree, t) :: ws) det m) (hi : t.items = xs ++ i :: ys) :
    Does (remove tree i.elem) m (fun _ m' => ∃ t', t'.items = xs ++ ys ∧ WMem cmp m0 ((tree, t') :: ws) det m') :=
  Does.bind (((Front.of h).detach hi).mono fun _ _ ⟨t', e', hm⟩ => (Front.discard hm).mono fun _ _ hm => ⟨t', e', hm⟩)

theorem sweepLoop_forwards {drop : List Item → Item → Bool} (ys : List Item) : ∀ {xs seen : List Item} {t : T} {m : Mem},
    WMem cmp m0 ((tree, t) :: ws) det m → t.items = xs ++ ys → Does (sweepLoop false drop tree seen (hd ys)) m (fun r m' => r = seen ++ ys ∧
      ∃ t', t'.items = xs ++ kept drop seen ys ∧ WMem cmp m0 ((tree, t') :: ws) det m') := by
  induction ys with
  | nil =>
    intro xs seen t m h e
    rw [sweepLoop]
    exact does_pos rfl (Does.pure ⟨by simp, t, e, h⟩)
  | cons i ys ih =>
    intro xs seen t m h e
    obtain ⟨h0, hk, hv⟩ := (Front.of h).fields (i := i) (by rw [e]; simp)
    rw [sweepLoop]
    refine does_neg h0 (Does.bind ((next_spec (Front.of h).good.z e).mono ?_))
    rintro _ _ ⟨rfl, rfl⟩
    refine Does.bind (hk.does (Does.bind (hv.does (Does.bind ?_))))
    have back : ∀ (t' : T) (zs : List Item) (m' : Mem), WMem cmp m0 ((tree, t') :: ws) det m' → t'.items = zs ++ ys →
        zs ++ kept drop (seen ++ [i]) ys = xs ++ kept drop seen (i :: ys) →
        Does (sweepLoop false drop tree (seen ++ [i]) (hd ys)) m' (fun r m' => r = seen ++ i :: ys ∧
          ∃ t', t'.items = xs ++ kept drop seen (i :: ys) ∧ WMem cmp m0 ((tree, t') :: ws) det m') := by
      intro t' zs m' h' e' ek
      refine (ih h' e').mono ?_
      rintro _ m2 ⟨rfl, t2, e2, h2⟩
      exact ⟨by simp, t2, by rw [e2, ek], h2⟩
    by_cases hd : drop seen i
    · refine does_pos hd ((remove_front h e).mono ?_)
      rintro _ m1 ⟨t1, e1, h1⟩
      exact back t1 xs m1 h1 e1 (by rw [kept, if_pos hd])
    · refine does_neg hd (Does.pure ?_)
      exact back t (xs ++ [i]) _ h (by rw [e]; simp) (by rw [kept, if_neg hd]; simp)

theorem sweepLoop_backwards {drop : List Item → Item → Bool} (ys : List Item) : ∀ {xs seen : List Item} {t : T} {m : Mem},
    WMem cmp m0 ((tree, t) :: ws) det m → t.items = ys.reverse ++ xs → Does (sweepLoop true drop tree seen (lst ys.reverse)) m (fun r m' => r = seen ++ ys ∧
      ∃ t', t'.items = (kept drop seen ys).reverse ++ xs ∧ WMem cmp m0 ((tree, t') :: ws) det m') := by
  induction ys with
  | nil =>
    intro xs seen t m h e
    rw [sweepLoop]
    exact does_pos rfl (Does.pure ⟨by simp, t, e, h⟩)
  | cons i ys ih =>
    intro xs seen t m h e
    rw [List.reverse_cons, List.append_assoc, List.singleton_append] at e
    obtain ⟨h0, hk, hv⟩ := (Front.of h).fields (i := i) (by rw [e]; simp)
    rw [sweepLoop, List.reverse_cons, lst_snoc]
    refine does_neg h0 (Does.bind ((previous_spec (Front.of h).good.z e).mono ?_))
    rintro _ _ ⟨rfl, rfl⟩
    refine Does.bind (hk.does (Does.bind (hv.does (Does.bind ?_))))
    have back : ∀ (t' : T) (zs : List Item) (m' : Mem), WMem cmp m0 ((tree, t') :: ws) det m' → t'.items = ys.reverse ++ zs →
        (kept drop (seen ++ [i]) ys).reverse ++ zs = (kept drop seen (i :: ys)).reverse ++ xs →
        Does (sweepLoop true drop tree (seen ++ [i]) (lst ys.reverse)) m' (fun r m' => r = seen ++ i :: ys ∧
          ∃ t', t'.items = (kept drop seen (i :: ys)).reverse ++ xs ∧ WMem cmp m0 ((tree, t') :: ws) det m') := by
      intro t' zs m' h' e' ek
      refine (ih h' e').mono ?_
      rintro _ m2 ⟨rfl, t2, e2, h2⟩
      exact ⟨by simp, t2, by rw [e2, ek], h2⟩
    by_cases hd : drop seen i
    · refine does_pos hd ((remove_front h e).mono ?_)
      rintro _ m1 ⟨t1, e1, h1⟩
      exact back t1 xs m1 h1 e1 (by rw [kept, if_pos hd])
    · refine does_neg hd (Does.pure ?_)
      exact back t (i :: xs) _ h e (by rw [kept, if_neg hd]; simp)

/-- Visited in this order. -/
def visits (back : Bool) (items : List Item) : List Item := if back then items.reverse else items

theorem sweep_does (back : Bool) (drop : List Item → Item → Bool) (h : WMem cmp m0 ((tree, t) :: ws) det m) :
    Does (sweep back drop tree) m (fun r m' => r = visits back t.items ∧
      ∃ t', t'.items = visits back (kept drop [] (visits back t.items)) ∧ WMem cmp m0 ((tree, t') :: ws) det m') := by
  have hz := (Front.of h).good.z
  cases back with
  | false =>
    refine Does.bind ((getFirst_spec hz).mono ?_)
    rintro _ _ ⟨rfl, rfl⟩
    exact sweepLoop_forwards (xs := []) t.items h rfl
  | true =>
    refine Does.bind ((getLast_spec hz).mono ?_)
    rintro _ _ ⟨rfl, rfl⟩
    have := sweepLoop_backwards (drop := drop) (xs := []) (seen := []) t.items.reverse h (by simp)
    rw [List.reverse_reverse] at this
    simpa [visits] using this

theorem drain_does (back : Bool) : ∀ (items : List Item) {seen : List Item} {t : T} {m : Mem},
    WMem cmp m0 ((tree, t) :: ws) det m → visits back t.items = items → Does (drain back tree seen) m (fun r m' => r = seen ++ items ∧
      ∃ t', t'.items = [] ∧ WMem cmp m0 ((tree, t') :: ws) det m') := by
  intro items
  induction items with
  | nil =>
    intro seen t m h e
    have hz := (Front.of h).good.z
    have e' : t.items = [] := by cases back <;> simpa [visits] using e
    rw [drain]
    have : Does (popOuter back tree) m (fun a m' => m' = m ∧ a = 0) := by
      cases back with
      | false =>
        refine Does.bind ((getFirst_spec hz).mono ?_)
        rintro _ _ ⟨rfl, rfl⟩
        rw [e']
        exact does_neg (by simp [hd]) (Does.pure ⟨rfl, rfl⟩)
      | true =>
        refine Does.bind ((getLast_spec hz).mono ?_)
        rintro _ _ ⟨rfl, rfl⟩
        rw [e']
        exact does_neg (by simp [lst]) (Does.pure ⟨rfl, rfl⟩)
    refine Does.bind (this.mono ?_)
    rintro _ _ ⟨rfl, rfl⟩
    exact does_pos rfl (Does.pure ⟨by simp, t, e', h⟩)
  | cons i items ih =>
    intro seen t m h e
    have hz := (Front.of h).good.z
    have hm : i ∈ t.items := by
      have : i ∈ visits back t.items := by rw [e]; simp
      cases back <;> simpa [visits] using this
    have h0 := hz.elem_ne hm
    rw [drain]
    have : Does (popOuter back tree) m (fun a m' => a = i.elem ∧
        ∃ t', visits back t'.items = items ∧ WMem cmp m0 ((tree, t') :: ws) (i :: det) m') := by
      cases back with
      | false =>
        have e : t.items = [] ++ i :: items := e
        refine Does.bind ((getFirst_spec hz).mono ?_)
        rintro _ _ ⟨rfl, rfl⟩
        rw [e]
        refine does_pos h0 (Does.bind (((Front.of h).detach e).mono ?_))
        rintro _ m1 ⟨t', e', hm⟩
        exact Does.pure ⟨rfl, t', e', hm⟩
      | true =>
        have e : t.items = items.reverse ++ i :: [] := by
          have e : t.items.reverse = i :: items := e
          rw [← List.reverse_reverse t.items, e]; simp
        refine Does.bind ((getLast_spec hz).mono ?_)
        rintro _ _ ⟨rfl, rfl⟩
        rw [e, lst_snoc]
        refine does_pos h0 (Does.bind (((Front.of h).detach e).mono ?_))
        rintro _ m1 ⟨t', e', hm⟩
        exact Does.pure ⟨rfl, t', by simp [visits, e'], hm⟩
    refine Does.bind (this.mono ?_)
    rintro _ m1 ⟨rfl, t1, e1, h1⟩
    obtain ⟨-, q, l, r, b, ec⟩ := h1.loose i (by simp)
    refine does_neg h0 ?_
    have hk : Run (getKey i.elem) m1 i.key m1 := (run_readAE h0 ec).bind (Run.pure _ _)
    have hv : Run (getValue i.elem) m1 i.value m1 := (run_readAE h0 ec).bind (Run.pure _ _)
    refine Does.bind (hk.does (Does.bind (hv.does (Does.bind ((Front.discard h1).mono fun _ m2 h2 => ?_)))))
    refine (ih h2 e1).mono ?_
    rintro _ m3 ⟨rfl, t3, e3, h3⟩
    exact ⟨by simp, t3, e3, h3⟩

end Verif.Avl
