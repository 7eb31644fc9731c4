import Verif.Base.Outcome

/-!
Calls that may not return.

`D α` adds non-termination to `C α`: `none` is a call that never returns. Loops without a syntactic bound are written with
`partial_fixpoint`, whose least fixed point is `none` exactly on the inputs on which the loop runs forever.
-/

namespace Verif

/-- Outcome of a C call that may diverge. -/
abbrev D (α : Type) := ExceptT Err Option α

/-- A call that returns `a`. -/
def Returns {α : Type} (x : D α) (a : α) : Prop := x.run = some (.ok a)

/-- A call that never returns. -/
def Diverges {α : Type} (x : D α) : Prop := x.run = none

/-- Embed a call that cannot diverge. -/
def liftC {α : Type} (x : C α) : D α := ExceptT.mk (some x)

@[simp] theorem returns_pure {α : Type} (a b : α) : Returns (pure a : D α) b ↔ a = b := by
  simp only [Returns, ExceptT.run_pure]
  constructor
  · intro h; injection h with h; injection h
  · intro h; rw [h]; rfl

theorem returns_unique {α : Type} {x : D α} {a b : α} (h : Returns x a) (h' : Returns x b) : a = b := by
  unfold Returns at h h'
  rw [h] at h'
  injection h' with h'
  injection h'

theorem returns_liftC {α : Type} (x : C α) (a : α) : Returns (liftC x) a ↔ x = .ok a := by
  simp [Returns, liftC]

theorem returns_bind {α β : Type} {x : D α} {a : α} (h : Returns x a) (f : α → D β) : (x >>= f) = f a := by
  unfold Returns at h
  show ExceptT.bind x f = f a
  unfold ExceptT.bind
  have hx : x = (some (.ok a) : Option (Except Err α)) := h
  subst hx
  rfl

theorem liftC_bind {α β : Type} {x : C α} {a : α} (h : x = .ok a) (f : α → D β) : (liftC x >>= f) = f a :=
  returns_bind ((returns_liftC x a).mpr h) f

end Verif
