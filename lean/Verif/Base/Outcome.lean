/-!
Outcomes of a C call.

A modelled C function returns `Except Err α`. `Err.ub` is undefined behaviour (out-of-bounds access, NULL or dangling
pointer, signed overflow). `Err.abort` is a failed `assert`. Both are distinct from every value, so a theorem
`f x = .ok v` also says that neither happens.
-/

namespace Verif

/-- The two ways a C call can go wrong. -/
inductive Err where
  | ub
  | abort
  deriving DecidableEq, Repr

/-- Outcome of a C call. -/
abbrev C (α : Type) := Except Err α

/-- Read the byte at index `i` of a buffer. -/
def rd (b : List UInt8) (i : Nat) : C UInt8 :=
  match b[i]? with
  | some c => .ok c
  | none => .error .ub

/-- Write the byte at index `i` of a buffer. -/
def wr (b : List UInt8) (i : Nat) (c : UInt8) : C (List UInt8) :=
  if i < b.length then .ok (b.set i c) else .error .ub

theorem rd_ok {b : List UInt8} {i : Nat} (h : i < b.length) : rd b i = .ok b[i] := by
  simp [rd, h]

theorem wr_ok {b : List UInt8} {i : Nat} (h : i < b.length) (c : UInt8) : wr b i c = .ok (b.set i c) := by
  simp [wr, h]

/-- `s` written over the start of the fixed-size buffer `d`: what does not fit is lost, what is not covered stays. -/
def over (d s : List UInt8) : List UInt8 := s.take d.length ++ d.drop s.length

@[simp] theorem over_length (d s : List UInt8) : (over d s).length = d.length := by
  simp [over]; omega

@[simp] theorem over_nil (d : List UInt8) : over d [] = d := by simp [over]

theorem over_snoc (d s : List UInt8) (c : UInt8) :
    over d (s ++ [c]) = if s.length < d.length then (over d s).set s.length c else over d s := by
  split
  · rename_i h
    apply List.ext_getElem?
    intro i
    simp only [over, List.getElem?_append, List.getElem?_set, List.length_append, List.length_take, List.getElem?_take,
      List.length_drop, List.getElem?_drop, List.length_cons, List.length_nil]
    grind
  · rename_i h
    apply List.ext_getElem?
    intro i
    simp only [over, List.getElem?_append, List.getElem?_set, List.length_append, List.length_take, List.getElem?_take,
      List.length_drop, List.getElem?_drop, List.length_cons, List.length_nil]
    grind

theorem over_full {d s : List UInt8} (h : d.length ≤ s.length) : over d s = s.take d.length := by
  simp [over, List.drop_eq_nil_of_le h]

end Verif
