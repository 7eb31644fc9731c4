import Verif.Model.Stack
import Verif.Proofs.AvlInsert

/-! What the functions do on a stack of limited size, they do on any: `Short x y` says that `x` does the same as `y` or aborts. -/

namespace Verif
set_option autoImplicit false

/-- `x` does what `y` does, or aborts. -/
def Short {α : Type} (x y : M α) : Prop := ∀ m, x m = y m ∨ x m = liftC (.error .abort)

namespace Short
variable {α β : Type}

theorem refl (x : M α) : Short x x := fun _ => .inl rfl

theorem bind {x y : M α} {f g : α → M β} (h : Short x y) (hf : ∀ a, Short (f a) (g a)) : Short (x >>= f) (y >>= g) := by
  intro m
  have ex : (x >>= f) m = (x m >>= fun p => f p.1 p.2) := rfl
  have ey : (y >>= g) m = (y m >>= fun p => g p.1 p.2) := rfl
  rw [ex, ey]
  rcases h m with h | h
  · rw [h]
    rcases y m with _ | ⟨e⟩ | ⟨a, m'⟩
    · left; rfl
    · left; rfl
    · exact hf a m'
  · right; rw [h]; rfl

theorem ite {c : Prop} [Decidable c] {x y x' y' : M α} (h : Short x x') (h' : Short y y') : Short (if c then x else y) (if c then x' else y') := by
  split <;> assumption

theorem overflow (y : M α) : Short Avl.overflow y := fun _ => .inr rfl

/-- Where `x` returns, so does `y`. -/
theorem does {x y : M α} {m : Mem} {Q : α → Mem → Prop} (h : Short x y) (hx : Does x m Q) : Does y m Q := by
  obtain ⟨a, m', r, q⟩ := hx
  refine ⟨a, m', ?_, q⟩
  rcases h m with e | e
  · rwa [Run, ← e]
  · rw [Run, e, returns_liftC] at r; cases r

theorem eq {x y : M α} {m : Mem} {Q : α → Mem → Prop} (h : Short x y) (hx : Does x m Q) : x m = y m := by
  obtain ⟨a, m', r, q⟩ := hx
  rcases h m with e | e
  · exact e
  · rw [Run, e, returns_liftC] at r; cases r

end Short

/-- Close or reduce a goal `Short x y`. -/
syntax "short" ("[" term,* "]")? : tactic
macro_rules
  | `(tactic| short) => `(tactic| short [])
  | `(tactic| short [$ts,*]) => do
    let alts ← ts.getElems.mapM fun t => `(Lean.Parser.Tactic.tacticSeq| with_reducible exact $t)
    `(tactic| repeat' first
      | with_reducible exact Short.refl _
      | first $[| $alts]* | fail
      | refine Short.bind ?_ (fun _ => ?_)
      | refine Short.ite ?_ ?_
      | split)

namespace Avl

theorem short_destroySubtree : ∀ d e, Short (destroySubtreeS d e) (destroySubtree e)
  | 0, _ => Short.overflow _
  | d + 1, e => by
    have ih := short_destroySubtree d
    rw [destroySubtreeS, destroySubtree]
    short [ih _]

theorem short_put (cmp : Nat → Nat → Int) (tree : Nat) : ∀ d p e, Short (putLeftS cmp tree d p e) (putLeft cmp tree p e) ∧
    Short (putRightS cmp tree d p e) (putRight cmp tree p e) ∧ Short (putS cmp tree d p e) (put cmp tree p e)
  | 0, _, _ => ⟨Short.overflow _, Short.overflow _, Short.overflow _⟩
  | d + 1, p, e => by
    have ih := short_put cmp tree d
    refine ⟨?_, ?_, ?_⟩
    · rw [putLeftS, putLeft]
      short [(ih _ _).2.2]
    · rw [putRightS, putRight]
      short [(ih _ _).2.2]
    · rw [putS, put]
      short [(ih _ _).1, (ih _ _).2.1]

theorem short_lighten (tree : Nat) : ∀ d e, Short (lightenLeftS tree d e) (lightenLeft tree e) ∧
    Short (lightenRightS tree d e) (lightenRight tree e) ∧ Short (lightenParentS tree d e) (lightenParent tree e)
  | 0, _ => ⟨Short.overflow _, Short.overflow _, Short.overflow _⟩
  | d + 1, e => by
    have ih := short_lighten tree d
    refine ⟨?_, ?_, ?_⟩
    · rw [lightenLeftS, lightenLeft]
      short [(ih _).2.2]
    · rw [lightenRightS, lightenRight]
      short [(ih _).2.2]
    · rw [lightenParentS, lightenParent]
      short [(ih _).1, (ih _).2.1]

theorem short_copyTree (A : Alloc) : ∀ d e, Short (copyTreeS A d e) (copyTree A e)
  | 0, _ => Short.overflow _
  | d + 1, e => by
    have ih := short_copyTree A d
    rw [copyTreeS, copyTree]
    short [ih _]

theorem short_destroy (d tree : Nat) : Short (destroyS d tree) (destroy tree) := by
  unfold destroyS destroy
  short [short_destroySubtree _ _]

theorem short_treePut (d : Nat) (A : Alloc) (cmp : Nat → Nat → Int) (tree k v : Nat) : Short (treePutS d A cmp tree k v) (treePut A cmp tree k v) := by
  unfold treePutS treePut
  short [(short_put _ _ _ _ _).2.2]

theorem short_detach (d tree e : Nat) : Short (detachS d tree e) (detach tree e) := by
  unfold detachS detach
  short [(short_lighten _ _ _).1, (short_lighten _ _ _).2.1]

theorem short_copy (d : Nat) (A : Alloc) (tree : Nat) : Short (copyS d A tree) (copy A tree) := by
  unfold copyS copy
  short [short_copyTree _ _ _]

end Avl
end Verif
