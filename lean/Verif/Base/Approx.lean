import Verif.Base.Diverge

/-!
Evaluation with fuel. `x ⊑ y` says that the call `x`, if it ends, ends like `y`. A loop written with `partial_fixpoint` is above its version
with fuel, which the kernel can compute: this is how concrete runs are proved.
-/

namespace Verif

/-- `x`, if it ends, ends like `y`. -/
def Approx {α : Type} (x y : D α) : Prop := x.run = none ∨ x = y

theorem Approx.refl {α : Type} (x : D α) : Approx x x := Or.inr rfl

theorem Approx.none {α : Type} (y : D α) : Approx (ExceptT.mk none) y := Or.inl rfl

theorem Approx.bind {α β : Type} {x y : D α} {f g : α → D β} (h : Approx x y) (h' : ∀ a, Approx (f a) (g a)) : Approx (x >>= f) (y >>= g) := by
  rcases h with h | h
  · left
    have hx : x = (Option.none : Option (Except Err α)) := h
    subst hx
    rfl
  · subst h
    match e : x.run with
    | .none =>
      left
      have hx : x = (Option.none : Option (Except Err α)) := e
      subst hx
      rfl
    | .some (.error b) =>
      right
      have hx : x = (some (.error b) : Option (Except Err α)) := e
      subst hx
      rfl
    | .some (.ok a) =>
      rw [returns_bind e, returns_bind e]
      exact h' a

theorem Approx.ite {α : Type} {p : Prop} [Decidable p] {x y x' y' : D α} (h : Approx x x') (h' : Approx y y') :
    Approx (if p then x else y) (if p then x' else y') := by
  split
  · exact h
  · exact h'

theorem Approx.returns {α : Type} {x y : D α} {a : α} (h : Approx x y) (hx : x.run = some (.ok a)) : Returns y a := by
  rcases h with h | h
  · rw [h] at hx; simp at hx
  · subst h; exact hx

end Verif
