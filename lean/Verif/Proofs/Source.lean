import Verif.Spec.CSource

/-! Lemmas for the execution of C source text: statements one after the other. -/

set_option autoImplicit false

namespace Verif.Source

open Verif.Spec.CSource

theorem liftC_ok {α β : Type} (a : α) (f : α → D β) : (liftC (.ok a) >>= f) = f a := liftC_bind rfl f

theorem liftC_err {α β : Type} (e : Err) (f : α → D β) : (liftC (.error e) >>= f) = liftC (.error e) := rfl

theorem map_liftC_ok {α β : Type} (a : α) (f : α → β) : (f <$> liftC (.ok a)) = pure (f a) := rfl

theorem map_liftC_err {α β : Type} (e : Err) (f : α → β) : (f <$> liftC (.error e)) = liftC (.error e) := rfl

theorem pure_liftC {α : Type} (a : α) : (pure a : D α) = liftC (.ok a) := rfl

variable {c : Ctx} {ty : Str → Option T}

theorem seq_next {a b : S} {s s' : Store} (h : a.exec c ty s = pure (.next s')) : (S.seq a b).exec c ty s = b.exec c ty s' := by
  simp only [S.exec, h, pure_bind]

theorem seq_ret {a b : S} {s : Store} {v : T × V} {m : Mem} (h : a.exec c ty s = pure (.ret v m)) :
    (S.seq a b).exec c ty s = pure (.ret v m) := by
  simp only [S.exec, h, pure_bind]

theorem seq_err {a b : S} {s : Store} {e : Err} (h : a.exec c ty s = liftC (.error e)) : (S.seq a b).exec c ty s = liftC (.error e) := by
  simp only [S.exec, h, liftC_err]

theorem bmod32 {n : Int} (h : -2147483648 ≤ n) (h' : n < 2147483648) : Int.bmod n 4294967296 = n := by
  rw [Int.bmod_def]; omega

theorem bmod64 {n : Int} (h : -9223372036854775808 ≤ n) (h' : n < 9223372036854775808) : Int.bmod n 18446744073709551616 = n := by
  rw [Int.bmod_def]; omega

end Verif.Source
