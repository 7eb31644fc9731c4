/-! What a loop does that visits the elements of a container one by one and removes some of them as it goes. -/

namespace Verif.Spec
set_option autoImplicit false

/-- What is left of `xs` once each element was visited in turn and removed if `drop` says so; `drop` knows the elements visited before. -/
def kept {α : Type} (drop : List α → α → Bool) : List α → List α → List α
  | _, [] => []
  | seen, x :: xs => if drop seen x then kept drop (seen ++ [x]) xs else x :: kept drop (seen ++ [x]) xs

end Verif.Spec
