import Verif.Proofs.SourceIndex
import Verif.Props.SourceList

/-!
Property C151: the text of `list_get_by_index`, read as C. For a negative index and 2^31 elements or more the counter overflows (C82), which the hypothesis excludes.
-/

set_option autoImplicit false

namespace Verif.Source

open Verif.Spec.CSource

/-- C151. `list_get_by_index` returns the element with the index, counted from 0, and NULL if there is none; nothing changes. -/
theorem source_list_get_by_index {M : Mem} {L : Str} {j k : Int} {p : V} {es : List (V × V)} (hk : -2 ^ 31 ≤ k ∧ k < 2 ^ 31) (hf : At M L j c!"first" p) (hp : Nodes M p es)
    (hl : 0 ≤ k ∨ es.length < 2 ^ 31) :
    ∃ r, Returns (run nullHeaders indexText c!"list_get_by_index" [(listT, .ptr L j), (intT, .num k)] M) ((elemT, r), M) ∧
      (∀ n : Nat, k = n → ∀ e, es[n]? = some e → r = e.1) ∧ (k < 0 ∨ (es.length : Int) ≤ k → r = .null) := by
  refine ⟨nth es 0 k, by rw [run_get_by_index hk hf hp hl]; exact (returns_pure _ _).mpr rfl, ?_, ?_⟩
  · rintro n rfl e he
    simp [nth, he]
  · intro h
    unfold nth
    split
    · rfl
    · rw [List.getElem?_eq_none (by omega)]
      rfl

/-- C151, the case that is excluded: the text overflows its counter in a list of 2^31 elements or more if the index is negative. -/
theorem source_list_index_overflow {M : Mem} {L : Str} {j k : Int} {p : V} {es : List (V × V)} (hk : -2 ^ 31 ≤ k ∧ k < 0) (hf : At M L j c!"first" p) (hp : Nodes M p es)
    (hl : 2 ^ 31 ≤ es.length) : run nullHeaders indexText c!"list_get_by_index" [(listT, .ptr L j), (intT, .num k)] M = liftC (.error .ub) :=
  run_index_overflow hk hf hp hl _ _

/-- There is such a list. -/
example : ∃ M L j, run nullHeaders indexText c!"list_get_by_index" [(listT, .ptr L j), (intT, .num (-1))] M = liftC (.error .ub) := by
  obtain ⟨es, he, hl⟩ := longList_nodes (n := 2 ^ 31) (2 ^ 31 - 1) 0 (by omega)
  exact ⟨longList (2 ^ 31), c!"l", 0, source_list_index_overflow (by decide) ⟨by decide, _, _, rfl, rfl, rfl⟩ he (by omega)⟩

example : ∃ r, Returns (run nullHeaders indexText c!"list_get_by_index" [(listT, .ptr c!"l" 0), (intT, .num 1)] twoBoxes) ((elemT, r), twoBoxes) ∧
    (∀ n : Nat, (1 : Int) = n → ∀ e, [(V.ptr c!"a" 0, V.num 5), (V.ptr c!"b" 0, V.num 7)][n]? = some e → r = e.1) ∧ ((1 : Int) < 0 ∨ (2 : Int) ≤ 1 → r = .null) :=
  source_list_get_by_index (by decide) ⟨by decide, _, _, rfl, rfl, rfl⟩ twoBoxes_nodes (by decide)

end Verif.Source
