import Verif.Proofs.SourceList

/-!
Property C150: the text of `list_get` and of the functions of `src/list.c` that return a member, with the structures of `include/list_imp.h`, read as C. The list is in memory:
any objects linked by their members `next`, in any order and whatever else is in memory.
-/

set_option autoImplicit false

namespace Verif.Source

open Verif.Spec.CSource

/-- C150. `list_get` returns the first element whose value is the one searched for, and NULL if there is none; nothing changes. -/
theorem source_list_get {M : Mem} {L : Str} {j : Int} {p w : V} {es : List (V × V)} (hw : Pointer w) (hf : At M L j c!"first" p) (hp : Nodes M p es)
    (he : ∀ e ∈ es, Pointer e.2 ∧ ¬ Mixed e.2 w) :
    ∃ r, Returns (run nullHeaders listText c!"list_get" [(listT, .ptr L j), (anyT, w)] M) ((elemT, r), M) ∧
      ((r = .null ∧ ∀ e ∈ es, e.2 ≠ w) ∨ ∃ before after, es = before ++ (r, w) :: after ∧ r ≠ .null ∧ ∀ e ∈ before, e.2 ≠ w) := by
  refine ⟨_, by rw [run_list_get hw hf hp he]; exact (returns_pure _ _).mpr rfl, ?_⟩
  cases h : es.find? fun e => e.2 = w with
  | none => exact .inl ⟨rfl, fun e hm => by simpa using List.find?_eq_none.mp h e hm⟩
  | some e =>
    obtain ⟨hv, before, after, hs, hb⟩ := List.find?_eq_some_iff_append.mp h
    have hv : e.2 = w := by simpa using hv
    refine .inr ⟨before, after, ?_, ?_, fun e hm => by simpa using hb e hm⟩
    · rw [hs, ← hv]; rfl
    · exact hp.not_null e (List.mem_of_find?_eq_some h)

/-- C150. The functions that return a member return it; nothing changes. -/
theorem source_list_members {M : Mem} {o : Str} {i : Int} {v : V} (hv : Pointer v) :
    (At M o i c!"value" v → Returns (run nullHeaders listText c!"list_elem_get_value" [(elemT, .ptr o i)] M) ((anyT, v), M)) ∧
    (At M o i c!"first" v → Returns (run nullHeaders listText c!"list_get_first" [(listT, .ptr o i)] M) ((elemT, v), M)) ∧
    (At M o i c!"last" v → Returns (run nullHeaders listText c!"list_get_last" [(listT, .ptr o i)] M) ((elemT, v), M)) ∧
    (At M o i c!"next" v → Returns (run nullHeaders listText c!"list_next" [(elemT, .ptr o i)] M) ((elemT, v), M)) ∧
    (At M o i c!"previous" v → Returns (run nullHeaders listText c!"list_previous" [(elemT, .ptr o i)] M) ((elemT, v), M)) := by
  obtain ⟨h1, h2, h3, h4, h5⟩ := run_members (M := M) (o := o) (i := i) hv
    |> fun h => (⟨(h elemT).1, (h listT).2.1, (h listT).2.2.1, (h elemT).2.2.2.1, (h elemT).2.2.2.2⟩ : _ ∧ _ ∧ _ ∧ _ ∧ _)
  exact ⟨fun h => by rw [h1 h]; exact (returns_pure _ _).mpr rfl, fun h => by rw [h2 h]; exact (returns_pure _ _).mpr rfl, fun h => by rw [h3 h]; exact (returns_pure _ _).mpr rfl,
    fun h => by rw [h4 h]; exact (returns_pure _ _).mpr rfl, fun h => by rw [h5 h]; exact (returns_pure _ _).mpr rfl⟩

/-- A list of the boxes of 5 and 7. -/
def twoBoxes : Mem := [
  (c!"b", [[(c!"value", .num 7), (c!"previous", .ptr c!"a" 0), (c!"next", .null)]]),
  (c!"l", [[(c!"first", .ptr c!"a" 0), (c!"last", .ptr c!"b" 0), (c!"size", .num 2)]]),
  (c!"a", [[(c!"value", .num 5), (c!"previous", .null), (c!"next", .ptr c!"b" 0)]])]

theorem twoBoxes_nodes : Nodes twoBoxes (.ptr c!"a" 0) [(.ptr c!"a" 0, .num 5), (.ptr c!"b" 0, .num 7)] :=
  .cons ⟨by decide, _, _, rfl, rfl, rfl⟩ ⟨by decide, _, _, rfl, rfl, rfl⟩ (.cons ⟨by decide, _, _, rfl, rfl, rfl⟩ ⟨by decide, _, _, rfl, rfl, rfl⟩ .nil)

example : ∃ r, Returns (run nullHeaders listText c!"list_get" [(listT, .ptr c!"l" 0), (anyT, .num 7)] twoBoxes) ((elemT, r), twoBoxes) ∧
    ((r = .null ∧ ∀ e ∈ [(V.ptr c!"a" 0, V.num 5), (V.ptr c!"b" 0, V.num 7)], e.2 ≠ V.num 7) ∨
      ∃ before after, [(V.ptr c!"a" 0, V.num 5), (V.ptr c!"b" 0, V.num 7)] = before ++ (r, V.num 7) :: after ∧ r ≠ .null ∧ ∀ e ∈ before, e.2 ≠ V.num 7) :=
  source_list_get ⟨by decide, by decide⟩ ⟨by decide, _, _, rfl, rfl, rfl⟩ twoBoxes_nodes (by simp [Pointer, Mixed])

example : Returns (run nullHeaders listText c!"list_next" [(elemT, .ptr c!"a" 0)] twoBoxes) ((elemT, .ptr c!"b" 0), twoBoxes) :=
  (source_list_members (v := .ptr c!"b" 0) trivial).2.2.2.1 ⟨by decide, _, _, rfl, rfl, rfl⟩

end Verif.Source
