import Verif.Proofs.AvlWalkBack
import Verif.Props.Sorts

/-! Property C132: a loop over a whole tree takes linear time. -/

set_option autoImplicit false

namespace Verif.Avl
open Spec.Avl Spec.Cost

/-- C132. After any program, with any comparator: in a tree of `n` elements `avl_tree_get_first` finds the first, `avl_tree_next` leads from each
element to the next one and from the last to NULL, and these `n + 1` calls together look at no more than `3 n + 1` objects in memory, an object counted
once for each call that looks at it. The same holds for the loop from `avl_tree_get_last` with `avl_tree_previous`. -/
theorem avl_walk {A : Alloc} (hA : A.Good) (F : Funs) (f d : Nat) (p : Prog) (m0 : Mem) (hp : Legal (F.cmp f d) p ⟨0, 0⟩) :
    ∃ rs m s, Run (exec A F f d p) m0 rs m ∧ Runs (F.cmp f d) p ⟨0, 0⟩ rs s ∧ ∀ t items, (t, items) ∈ s.trees →
      (∃ k1 k2, k1 + k2 ≤ 3 * items.length + 1 ∧
        Looks (getFirst t) m (items.map (·.elem)).headI k1 ∧ Passes next m (items.map (·.elem)) k2) ∧
      ∃ k1 k2, k1 + k2 ≤ 3 * items.length + 1 ∧
        Looks (getLast t) m (items.reverse.map (·.elem)).headI k1 ∧ Passes previous m (items.reverse.map (·.elem)) k2 := by
  letI : Ptrs := ⟨0, f, d, 0⟩
  obtain ⟨rs, m, s, h1, h2, h3⟩ := exec_inv hA m0 hp
  refine ⟨rs, m, s, h1, h2, fun tree items ht => ?_⟩
  obtain ⟨ws, det, h, rfl⟩ := h3
  simp only [Multiset.mem_coe, List.mem_map] at ht
  obtain ⟨w, hw, e⟩ := ht
  obtain ⟨rfl, rfl⟩ : w.1 = tree ∧ w.2.items = items := by simpa [view] using e
  have hz := (h.good w hw).z
  exact ⟨forwards_linear hz, backwards_linear hz⟩

/-- Not vacuous: the program that makes a tree and puts three elements into it keeps to the rules (C130 says what it leaves behind). -/
example : Legal (fun a b => (a : Int) - b) (Sorts.enter [3, 1, 2]) ⟨0, 0⟩ := Sorts.enter_legal _

/-- Not vacuous: what an object looks like cannot be known without looking at it. -/
example (a : Nat) (h0 : a ≠ 0) (e : AElem) (m : Mem) (h : m.get a = some (.aelem e)) : ¬ Looks (left a) m e.left 0 := by
  rintro ⟨S, hS, h'⟩
  have hn : S = [] := List.length_eq_zero_iff.1 (by omega)
  subst hn
  have := h' (m.set a (.aelem { e with left := e.left + 1 })) (by simp)
  have g : Run (left a) (m.set a (.aelem { e with left := e.left + 1 })) (e.left + 1) (m.set a (.aelem { e with left := e.left + 1 })) :=
    Run.bind (run_readAE (e := { e with left := e.left + 1 }) h0 (by simp)) (Run.pure _ _)
  have := (g.unique this).1
  omega

end Verif.Avl
