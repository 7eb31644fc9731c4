import Verif.Proofs.SourceInteger

/-!
Property C149: the text of `src/integer.c` and of the functions of `include/integer.h`, read as C, boxes, unboxes and compares integers as C67 says. The model is not part
of the statements: a box is whatever pointer the text makes of the integer.
-/

set_option autoImplicit false

namespace Verif.Source

open Verif.Spec.CSource

/-- C149. Any two values of `intptr_t`: the pointers that `as_integer` makes of them give them back, and `integer_cmp` of the pointers is the sign of the difference. -/
theorem source_integer_boxes {x y : Int} (hx : -2 ^ 63 ≤ x ∧ x < 2 ^ 63) (hy : -2 ^ 63 ≤ y ∧ y < 2 ^ 63) (m : Mem) :
    ∃ p q, Returns (run nothing integerText c!"as_integer" [(longT, .num x)] m) ((boxT, p), m) ∧
      Returns (run nothing integerText c!"as_integer" [(longT, .num y)] m) ((boxT, q), m) ∧
      Returns (run nothing integerText c!"as_intptr" [(boxT, p)] m) ((longT, .num x), m) ∧
      Returns (run nothing integerText c!"integer_cmp" [(voidT, p), (voidT, q)] m) ((intT, .num (x - y).sign), m) := by
  refine ⟨word x, word y, ?_, ?_, ?_, ?_⟩
  · rw [(run_boxes x m).1]; exact (returns_pure _ _).mpr rfl
  · rw [(run_boxes y m).1]; exact (returns_pure _ _).mpr rfl
  · rw [(run_boxes x m).2.2.1, show Int.bmod x (2 ^ 64) = x from bmod64 (by omega) (by omega)]; exact (returns_pure _ _).mpr rfl
  · rw [run_integer_cmp hx hy]; exact (returns_pure _ _).mpr rfl

/-- C149. The same for `uintptr_t`, above `INTPTR_MAX` too, where the first comparison of `unsigned_cmp` takes a negative number for its left operand. -/
theorem source_unsigned_boxes {x y : Int} (hx : 0 ≤ x ∧ x < 2 ^ 64) (hy : 0 ≤ y ∧ y < 2 ^ 64) (m : Mem) :
    ∃ p q, Returns (run nothing integerText c!"as_unsigned" [(ulongT, .num x)] m) ((uboxT, p), m) ∧
      Returns (run nothing integerText c!"as_unsigned" [(ulongT, .num y)] m) ((uboxT, q), m) ∧
      Returns (run nothing integerText c!"as_uintptr" [(uboxT, p)] m) ((ulongT, .num x), m) ∧
      Returns (run nothing integerText c!"unsigned_cmp" [(voidT, p), (voidT, q)] m) ((intT, .num (x - y).sign), m) := by
  refine ⟨word x, word y, ?_, ?_, ?_, ?_⟩
  · rw [(run_boxes x m).2.1]; exact (returns_pure _ _).mpr rfl
  · rw [(run_boxes y m).2.1]; exact (returns_pure _ _).mpr rfl
  · rw [(run_boxes x m).2.2.2, show x % 2 ^ 64 = x by omega]; exact (returns_pure _ _).mpr rfl
  · rw [run_unsigned_cmp hx hy]; exact (returns_pure _ _).mpr rfl

/-- Below 0, and NULL. -/
example (m : Mem) : ∃ p q, Returns (run nothing integerText c!"as_integer" [(longT, .num (-7))] m) ((boxT, p), m) ∧
    Returns (run nothing integerText c!"as_integer" [(longT, .num 0)] m) ((boxT, q), m) ∧
    Returns (run nothing integerText c!"as_intptr" [(boxT, p)] m) ((longT, .num (-7)), m) ∧
    Returns (run nothing integerText c!"integer_cmp" [(voidT, p), (voidT, q)] m) ((intT, .num (-1)), m) := source_integer_boxes (by decide) (by decide) m

example (m : Mem) : ∃ p q, Returns (run nothing integerText c!"as_unsigned" [(ulongT, .num (2 ^ 64 - 1))] m) ((uboxT, p), m) ∧
    Returns (run nothing integerText c!"as_unsigned" [(ulongT, .num 1)] m) ((uboxT, q), m) ∧
    Returns (run nothing integerText c!"as_uintptr" [(uboxT, p)] m) ((ulongT, .num (2 ^ 64 - 1)), m) ∧
    Returns (run nothing integerText c!"unsigned_cmp" [(voidT, p), (voidT, q)] m) ((intT, .num 1), m) := source_unsigned_boxes (by decide) (by decide) m

end Verif.Source
