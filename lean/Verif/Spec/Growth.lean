/-! What growing blocks cost. -/

set_option autoImplicit false

namespace Verif.Spec.Growth

/-- How often the size of a block changes in the list of its sizes, oldest first. -/
def changes : List Nat → Nat
  | [] => 0
  | x :: l => (match l.head? with | some y => if y = x then 0 else 1 | none => 0) + changes l

/-- What all changes of size together copy, each copying the old block. -/
def moved : List Nat → Nat
  | [] => 0
  | x :: l => (match l.head? with | some y => if y = x then 0 else x | none => 0) + moved l

end Verif.Spec.Growth
