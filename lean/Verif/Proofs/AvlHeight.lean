import Verif.Proofs.AvlTree
import Mathlib.Data.Nat.Fib.Basic
import Mathlib.Data.Nat.Log

/-! The height of a balanced tree. -/

namespace Verif.Avl

open Spec.Avl (Item)
open T

theorem fib_le : ∀ {t : T}, t.Bal → Nat.fib (t.height + 2) ≤ t.items.length + 1 := by
  intro t
  induction t with
  | nil => intro _; simp [height, items, Nat.fib]
  | node i b l r ihl ihr =>
    rintro ⟨b1, b2, b3, b4, b5⟩
    have h1 := ihl b4; have h2 := ihr b5
    simp only [height, items, List.length_append, List.length_cons]
    rcases Nat.lt_trichotomy l.height r.height with h | h | h
    · have e : r.height = l.height + 1 := by omega
      rw [e] at h2 ⊢
      have := Nat.fib_add_two (n := l.height + 2)
      have e2 : max l.height (l.height + 1) + 1 + 2 = l.height + 2 + 2 := by omega
      rw [e2, this]
      have e3 : l.height + 1 + 2 = l.height + 2 + 1 := by omega
      rw [e3] at h2
      omega
    · rw [← h] at h2 ⊢
      have := Nat.fib_add_two (n := l.height + 1)
      have e2 : max l.height l.height + 1 + 2 = l.height + 1 + 2 := by omega
      rw [e2, this]
      have := Nat.fib_le_fib_succ (n := l.height + 1)
      have e3 : l.height + 1 + 1 = l.height + 2 := by omega
      rw [e3] at this ⊢
      omega
    · have e : l.height = r.height + 1 := by omega
      rw [e] at h1 ⊢
      have := Nat.fib_add_two (n := r.height + 2)
      have e2 : max (r.height + 1) r.height + 1 + 2 = r.height + 2 + 2 := by omega
      rw [e2, this]
      have e3 : r.height + 1 + 2 = r.height + 2 + 1 := by omega
      rw [e3] at h1
      omega

theorem two_pow_le_fib : ∀ h : Nat, 2 ^ ((h + 1) / 2) ≤ Nat.fib (h + 2)
  | 0 => by simp
  | 1 => by decide
  | h + 2 => by
    have := two_pow_le_fib h
    have e : (h + 2 + 1) / 2 = (h + 1) / 2 + 1 := by omega
    have hm : Nat.fib (h + 2) ≤ Nat.fib (h + 3) := Nat.fib_mono (by omega)
    have hf : Nat.fib (h + 2 + 2) = Nat.fib (h + 2) + Nat.fib (h + 3) := Nat.fib_add_two
    rw [e, pow_succ, hf]
    omega

/-- The height of a balanced tree is logarithmic. -/
theorem T.Bal.height_le {t : T} (h : t.Bal) : t.height ≤ 2 * Nat.log 2 (t.items.length + 1) := by
  have := Nat.le_log_of_pow_le (by omega) ((two_pow_le_fib t.height).trans (fib_le h))
  omega

end Verif.Avl
