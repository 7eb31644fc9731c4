import Verif.Model.Unicode
import Verif.Proofs.Text

/-! Proofs about `charstr_detect_unicode_normal_form`. -/

namespace Verif.Unicode
open Verif.Utf8 Verif.Spec.Utf8 Verif.Spec.Unicode

/-- Whether the loop finds something disallowed. -/
def bad (u : Ucd) (disallowed last : Nat) : List Nat → Bool
  | [] => false
  | c :: cps => decide (u.ccc c ≠ 0 ∧ last > u.ccc c) || decide (u.flags c &&& disallowed ≠ 0) || bad u disallowed (u.ccc c) cps

theorem detectLoop_spec (u : Ucd) (disallowed maybe : Nat) {t : List UInt8} {cps : List Nat} {b : Bool} (hs : Scan Loose t cps b) :
    ∀ (p : Pos) (last result : Nat), Input p t → detectLoop u disallowed maybe p last result = .ok
      (if bad u disallowed last cps then (disallowed : Int) else if b = false then -1
        else if cps.any fun c => decide (u.flags c &&& maybe ≠ 0) then maybe else result) := by
  induction hs with
  | nil =>
    intro p last result h
    rw [detectLoop]
    simp only [bad, List.any_nil, Bool.false_eq_true, if_false, reduceCtorEq]
    rcases input_nil h with h0 | ⟨h0, r, hr⟩
    · rw [if_pos h0]
    · rw [if_neg h0]
      simp only [hr, if_true]
  | bad h1 h2 =>
    intro p last result h
    obtain ⟨h0, ⟨c, s, hc, hc0⟩, h3⟩ := input_cons h h1
    rw [detectLoop, if_neg h0]
    simp only [hc, if_neg hc0, bad, Bool.false_eq_true, if_false, if_true]
    rcases h3 with ⟨hd, _⟩ | ⟨pre, t', cp, q, hd, hl, he, _⟩
    · split
      · rename_i e he; rw [hd] at he; simp at he
      · rfl
      · rename_i he; rw [hd] at he; simp at he
    · exact absurd he (h2 _ _ _ hl)
  | @cons pre cp r cps b hl hs ih =>
    intro p last result h
    obtain ⟨h0, ⟨c, s, hc, hc0⟩, h3⟩ := input_cons h (by intro h; exact loose_ne_nil hl (List.append_eq_nil_iff.1 h).1)
    rw [detectLoop, if_neg h0]
    simp only [hc, if_neg hc0]
    rcases h3 with ⟨_, hd⟩ | ⟨pre', t', cp', q, hd, hl', he, hq⟩
    · exact absurd rfl (hd _ _ _ hl)
    · obtain ⟨rfl, rfl, rfl⟩ := loose_unique hl hl' he
      split
      · rename_i e he; rw [hd] at he; simp at he
      · rename_i he; rw [hd] at he; simp at he
      · rename_i cp'' q' he
        rw [hd] at he
        simp only [Except.ok.injEq, Option.some.injEq, Prod.mk.injEq] at he
        obtain ⟨rfl, rfl⟩ := he
        rw [ih q _ _ hq]
        have hany : (cp :: cps).any (fun c => decide (u.flags c &&& maybe ≠ 0)) =
            (decide (u.flags cp &&& maybe ≠ 0) || cps.any (fun c => decide (u.flags c &&& maybe ≠ 0))) := List.any_cons ..
        rw [hany]
        simp only [bad]
        by_cases h1 : u.ccc cp ≠ 0 ∧ last > u.ccc cp
        · rw [if_pos h1]; simp [h1]
        · rw [if_neg h1]
          by_cases h2 : u.flags cp &&& disallowed ≠ 0
          · rw [if_pos h2]; simp [h2]
          · rw [if_neg h2]
            simp only [h1, h2, decide_false, Bool.false_or]
            by_cases h4 : u.flags cp &&& maybe ≠ 0
            · rw [if_pos h4]
              rw [decide_eq_true h4, Bool.true_or, if_pos rfl]
              split <;> [rfl; split <;> [rfl; skip]]
              split <;> rfl
            · rw [if_neg h4]
              rw [decide_eq_false h4, Bool.false_or]

/-- The first reason to say no: an excluded character, or one following a larger class. -/
theorem bad_iff (u : Ucd) (disallowed : Nat) (cps : List Nat) : ∀ last, bad u disallowed last cps = true ↔
    ∃ x c y, cps = x ++ c :: y ∧ (u.flags c &&& disallowed ≠ 0 ∨
      u.ccc c > 0 ∧ (x = [] ∧ last > u.ccc c ∨ ∃ x' a, x = x' ++ [a] ∧ u.ccc a > u.ccc c)) := by
  induction cps with
  | nil => intro last; simp [bad]
  | cons c cps ih =>
    intro last
    simp only [bad, Bool.or_eq_true, decide_eq_true_eq, ih]
    constructor
    · rintro ((⟨h1, h2⟩ | h) | ⟨x, d, y, rfl, h⟩)
      · exact ⟨[], c, cps, rfl, Or.inr ⟨by omega, Or.inl ⟨rfl, h2⟩⟩⟩
      · exact ⟨[], c, cps, rfl, Or.inl h⟩
      · refine ⟨c :: x, d, y, rfl, ?_⟩
        rcases h with h | ⟨h1, ⟨rfl, h2⟩ | ⟨x', a, rfl, h2⟩⟩
        · exact Or.inl h
        · exact Or.inr ⟨h1, Or.inr ⟨[], c, rfl, h2⟩⟩
        · exact Or.inr ⟨h1, Or.inr ⟨c :: x', a, rfl, h2⟩⟩
    · rintro ⟨x, d, y, he, h⟩
      cases x with
      | nil =>
        simp only [List.nil_append, List.cons.injEq] at he
        obtain ⟨rfl, rfl⟩ := he
        rcases h with h | ⟨h1, ⟨_, h2⟩ | ⟨x', a, h2, _⟩⟩
        · exact Or.inl (Or.inr h)
        · exact Or.inl (Or.inl ⟨by omega, h2⟩)
        · simp at h2
      | cons c' x =>
        simp only [List.cons_append, List.cons.injEq] at he
        obtain ⟨rfl, rfl⟩ := he
        right
        refine ⟨x, d, y, rfl, ?_⟩
        rcases h with h | ⟨h1, ⟨h2, _⟩ | ⟨x', a, h2, h3⟩⟩
        · exact Or.inl h
        · simp at h2
        · refine Or.inr ⟨h1, ?_⟩
          cases x' with
          | nil =>
            simp only [List.nil_append, List.cons.injEq] at h2
            obtain ⟨rfl, rfl⟩ := h2
            exact Or.inl ⟨rfl, h3⟩
          | cons _ x' =>
            simp only [List.cons_append, List.cons.injEq] at h2
            obtain ⟨rfl, rfl⟩ := h2
            exact Or.inr ⟨x', a, rfl, h3⟩

end Verif.Unicode
