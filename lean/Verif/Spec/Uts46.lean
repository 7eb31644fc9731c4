import Verif.Data.Idna
import Mathlib.Data.List.Forall2

/-!
Unicode Technical Standard #46, section 4, step 1 (non-transitional processing, UseSTD3ASCIIRules = true) with the data of
`/repo/idna/IdnaMappingTable.txt`.
-/

set_option autoImplicit false

namespace Verif.Spec.Uts46
open Verif.Unidata

/-- The file gives the code point the status and the mapping. -/
def Row (c : Nat) (s : Status) (m : List Nat) : Prop := ∃ lo hi, (lo, hi, (s, m)) ∈ idnaTable.toList ∧ lo ≤ c ∧ c ≤ hi

/-- What the step makes of a code point: it is kept, removed or replaced, or the domain name is in error. -/
inductive Step (c : Nat) : Option (List Nat) → Prop
  | valid (m : List Nat) (h : Row c .valid m) : Step c (some [c])
  | deviation (m : List Nat) (h : Row c .deviation m) : Step c (some [c])
  | ignored (m : List Nat) (h : Row c .ignored m) : Step c (some [])
  | mapped (m : List Nat) (h : Row c .mapped m) : Step c (some m)
  | disallowed (m : List Nat) (h : Row c .disallowed m) : Step c none
  | std3Valid (m : List Nat) (h : Row c .std3Valid m) : Step c none
  | std3Mapped (m : List Nat) (h : Row c .std3Mapped m) : Step c none

/-- The step for a text without errors. -/
def Processed (x z : List Nat) : Prop := ∃ ms, List.Forall₂ (fun c m => Step c (some m)) x ms ∧ z = ms.flatten

end Verif.Spec.Uts46
