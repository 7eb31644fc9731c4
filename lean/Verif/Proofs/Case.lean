import Verif.Model.Case
import Verif.Proofs.Category13

/-! `charstr_naive_lcase_unicode` and `charstr_naive_ucase_unicode`. -/

set_option autoImplicit false

namespace Verif.Categorize
open Verif.Unidata Verif.UniGen

/-- The line makes a case. -/
def caseOf {κ : Type} [DecidableEq κ] (want : κ) (field : CaseRec κ → Option Nat) (r : CaseRec κ) : Option (Nat × Nat) := if r.cat = want then (field r).map (r.cp, ·) else none

theorem caseLoop_spec {κ : Type} [DecidableEq κ] (want : κ) (field : CaseRec κ → Option Nat) : ∀ (n : Nat) (rs : List (CaseRec κ)), rs.length ≤ n →
    Paired (rs.map CaseRec.toRec) → caseLoop want field rs none = .ok (rs.filterMap (caseOf want field)) := by
  intro n
  induction n with
  | zero =>
    intro rs h _
    have : rs = [] := by simpa using h
    subst this
    rfl
  | succ n ih =>
    intro rs hn hp
    have step : ∀ (r : CaseRec κ) (rs cases' : List (CaseRec κ)) (start : Option κ), (r.kind = .last → start = some r.cat) → (r.kind ≠ .last → start = none) →
        caseLoop want field rs (if r.kind = .first then some r.cat else none) = .ok (rs.filterMap (caseOf want field)) →
        caseLoop want field (r :: rs) start = .ok ((r :: rs).filterMap (caseOf want field)) := by
      intro r rs _ start h1 h2 h3
      rw [caseLoop, if_neg (by rintro ⟨a, b⟩; exact b (h1 a)), if_neg (by rintro ⟨a, b⟩; exact b (h2 a)), h3, List.filterMap_cons]
      simp only [caseOf]
      split
      · cases field r <;> rfl
      · rfl
    match rs with
    | [] => rfl
    | [r] =>
      have hk : r.kind = .plain := hp
      exact step r [] [] none (by simp [hk]) (by simp) (by simp [hk, caseLoop])
    | r :: l :: rest =>
      rcases hp with ⟨hk, hp⟩ | ⟨h1, h2, h3, hp⟩
      · exact step r (l :: rest) [] none (by simp [hk]) (by simp) (by rw [if_neg (by simp [hk])]; exact ih (l :: rest) (by simpa using hn) hp)
      · refine step r (l :: rest) [] none (by simp [h1]) (by simp) ?_
        rw [if_pos h1]
        refine step l rest [] _ (by simp [h3]) (by simp [h2]) ?_
        rw [if_neg (by simp [h2])]
        exact ih rest (by simp at hn; omega) hp

theorem switch_mem {cases : List (Nat × Nat)} (hd : cases.Pairwise fun a b => a.1 ≠ b.1) {c dst : Nat} (h : (c, dst) ∈ cases) : switch cases c = dst := by
  induction cases with
  | nil => simp at h
  | cons x cases ih =>
    obtain ⟨a, b⟩ := x
    rw [List.pairwise_cons] at hd
    rw [switch]
    rcases List.mem_cons.1 h with h | h
    · rw [Prod.mk.injEq] at h
      rw [h.1, h.2, if_pos rfl]
    · rw [if_neg, ih hd.2 h]
      have := hd.1 _ h
      simp only at this
      omega

theorem switch_other {cases : List (Nat × Nat)} {c : Int} (h : ∀ a dst, (a, dst) ∈ cases → (a : Int) ≠ c) : switch cases c = c := by
  induction cases with
  | nil => rfl
  | cons x cases ih =>
    obtain ⟨a, b⟩ := x
    rw [switch, if_neg (fun e => h a b (by simp) e.symm), ih fun a dst hm => h a dst (List.mem_cons_of_mem _ hm)]

theorem chainE_ok {t : RTree (Kind × Cat)} (h : t.ok 0 0x110000 = true) (cp : Nat) (k : Kind) (c : Cat) :
    (⟨cp, k, c⟩ : Rec Cat) ∈ t.toList.flatMap expand ↔ t.lookup cp = some (k, c) := by
  rw [lookup_iff h, List.mem_flatMap]
  constructor
  · rintro ⟨⟨lo, hi, k', c'⟩, hm, hr⟩
    rw [expand_mem] at hr
    obtain ⟨h1, h2, rfl, rfl⟩ := hr
    exact ⟨lo, hi, hm, h1, h2⟩
  · rintro ⟨lo, hi, hm, h1, h2⟩
    exact ⟨(lo, hi, (k, c)), hm, expand_mem.2 ⟨h1, h2, rfl, rfl⟩⟩

theorem categoryTable_ok : categoryTable.ok 0 0x110000 = true := by decide +kernel

theorem mem_lines13 (cp : Nat) (k : Kind) (c : Cat) : (⟨cp, k, c⟩ : Rec Cat) ∈ lines13 ↔ categoryTable.lookup cp = some (k, c) :=
  chainE_ok categoryTable_ok cp k c

theorem mem_cases13 (want : Cat) (field : CaseRec Cat → Option Nat) (c dst : Nat) : (c, dst) ∈ caseLines13.filterMap (caseOf want field) ↔
    ∃ r ∈ caseLines13, r.cp = c ∧ r.cat = want ∧ field r = some dst := by
  simp only [List.mem_filterMap, caseOf, Option.ite_none_right_eq_some, Option.map_eq_some_iff, Prod.mk.injEq]
  constructor
  · rintro ⟨r, hr, h1, a, h2, h3, rfl⟩; exact ⟨r, hr, h3, h1, h2⟩
  · rintro ⟨r, hr, h1, h2, h3⟩; exact ⟨r, hr, h2, dst, h3, h1, rfl⟩

theorem cases13_distinct (want : Cat) (field : CaseRec Cat → Option Nat) : (caseLines13.filterMap (caseOf want field)).Pairwise fun a b => a.1 ≠ b.1 := by
  rw [List.pairwise_filterMap, caseLines13, List.pairwise_map]
  refine List.Pairwise.imp ?_ lines13_ordered
  intro a b hab x hx y hy
  simp only [caseOf, Option.mem_def, Option.ite_none_right_eq_some, Option.map_eq_some_iff] at hx hy
  obtain ⟨_, _, _, rfl⟩ := hx
  obtain ⟨_, _, _, rfl⟩ := hy
  simp only; omega

theorem caseLoop13 (want : Cat) (field : CaseRec Cat → Option Nat) : caseLoop want field caseLines13 none = .ok (caseLines13.filterMap (caseOf want field)) := by
  refine caseLoop_spec want field _ _ (le_refl _) ?_
  rw [caseLines13, List.map_map]
  have : (CaseRec.toRec ∘ fun r : Rec Cat => (⟨r, lowerTable.lookup r.cp, upperTable.lookup r.cp⟩ : CaseRec Cat)) = id := rfl
  rw [this, List.map_id]
  exact lines13_paired

/-- The emitted functions, computed with the tables. -/
def lowerFast (c : Nat) : Nat :=
  match categoryTable.lookup c with
  | some (_, .Lu) => (lowerTable.lookup c).getD c
  | _ => c

def upperFast (c : Nat) : Nat :=
  match categoryTable.lookup c with
  | some (_, .Ll) => (upperTable.lookup c).getD c
  | _ => c

theorem switch_fast (want : Cat) (field : CaseRec Cat → Option Nat) (table : RTree Nat) (hf : ∀ r : Rec Cat, field ⟨r, lowerTable.lookup r.cp, upperTable.lookup r.cp⟩ = table.lookup r.cp) (c : Nat) :
    switch (caseLines13.filterMap (caseOf want field)) c =
      ((match categoryTable.lookup c with | some (_, x) => if x = want then (table.lookup c).getD c else c | none => c : Nat) : Int) := by
  have hmem : ∀ a dst, (a, dst) ∈ caseLines13.filterMap (caseOf want field) ↔ (∃ k, categoryTable.lookup a = some (k, want)) ∧ table.lookup a = some dst := by
    intro a dst
    rw [mem_cases13]
    constructor
    · rintro ⟨r, hr, h1, h2, h3⟩
      rw [caseLines13, List.mem_map] at hr
      obtain ⟨⟨cp, k, x⟩, hq, rfl⟩ := hr
      simp only at h1 h2
      subst h1 h2
      rw [hf] at h3
      exact ⟨⟨k, (mem_lines13 _ _ _).1 hq⟩, h3⟩
    · rintro ⟨⟨k, h1⟩, h2⟩
      refine ⟨⟨⟨a, k, want⟩, _, _⟩, List.mem_map.2 ⟨⟨a, k, want⟩, (mem_lines13 _ _ _).2 h1, rfl⟩, rfl, rfl, ?_⟩
      rw [← h2]; exact hf ⟨a, k, want⟩
  cases hl : categoryTable.lookup c with
  | none =>
    refine switch_other fun a dst hm h => ?_
    have : a = c := by omega
    subst this
    obtain ⟨⟨k, h1⟩, _⟩ := (hmem _ _).1 hm
    rw [hl] at h1; cases h1
  | some v =>
    obtain ⟨k, x⟩ := v
    simp only
    by_cases hx : x = want
    · subst hx
      rw [if_pos rfl]
      cases ht : table.lookup c with
      | none =>
        refine switch_other fun a dst hm h => ?_
        have : a = c := by omega
        subst this
        have := ((hmem _ _).1 hm).2
        rw [ht] at this; cases this
      | some dst => exact switch_mem (cases13_distinct _ _) ((hmem _ _).2 ⟨⟨k, hl⟩, ht⟩)
    · rw [if_neg hx]
      refine switch_other fun a dst hm h => ?_
      have : a = c := by omega
      subst this
      obtain ⟨⟨k, h1⟩, _⟩ := (hmem _ _).1 hm
      rw [hl, Option.some.injEq, Prod.mk.injEq] at h1
      exact hx h1.2

theorem lower_spec : ∃ cases, lowerMain caseLines13 = .ok cases ∧ (∀ c : Nat, switch cases c = lowerFast c) ∧ ∀ c : Int, c < 0 → switch cases c = c := by
  refine ⟨_, caseLoop13 _ _, fun c => ?_, fun c hc => switch_other fun a dst _ h => by omega⟩
  rw [switch_fast .Lu CaseRec.lower lowerTable (fun _ => rfl), lowerFast]
  split <;> rename_i h <;> simp only [h] <;> split <;> rename_i h' <;> simp_all

theorem upper_spec : ∃ cases, upperMain caseLines13 = .ok cases ∧ (∀ c : Nat, switch cases c = upperFast c) ∧ ∀ c : Int, c < 0 → switch cases c = c := by
  refine ⟨_, caseLoop13 _ _, fun c => ?_, fun c hc => switch_other fun a dst _ h => by omega⟩
  rw [switch_fast .Ll CaseRec.upper upperTable (fun _ => rfl), upperFast]
  split <;> rename_i h <;> simp only [h] <;> split <;> rename_i h' <;> simp_all

end Verif.Categorize
