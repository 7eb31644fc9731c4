/-! Writing a run of elements into a list at an offset. -/

namespace Verif

/-- `out` with `bs` written at offset `q`. -/
def splice {α : Type} (out : List α) (q : Nat) (bs : List α) : List α := out.take q ++ bs ++ out.drop (q + bs.length)

variable {α : Type}

@[simp] theorem splice_nil (out : List α) (q : Nat) : splice out q [] = out := by simp [splice]

theorem splice_length {out : List α} {q : Nat} {bs : List α} (h : q + bs.length ≤ out.length) :
    (splice out q bs).length = out.length := by
  simp [splice]; omega

theorem splice_splice {out : List α} {q : Nat} {a b : List α} (h : q + a.length ≤ out.length) :
    splice (splice out q a) (q + a.length) b = splice out q (a ++ b) := by
  have hl : (out.take q ++ a).length = q + a.length := by simp; omega
  simp only [splice]
  rw [List.take_left' hl, ← List.drop_drop, List.drop_left' hl, List.drop_drop]
  simp [Nat.add_assoc]

theorem splice_one {out : List α} {q : Nat} {b : α} (h : q < out.length) : splice out q [b] = out.set q b := by
  simp [splice, List.set_eq_take_append_cons_drop, h]

theorem splice_set {out : List α} {q : Nat} {b : α} {bs : List α} (h : q < out.length) :
    splice (out.set q b) (q + 1) bs = splice out q (b :: bs) := by
  rw [← splice_one h]
  exact splice_splice (a := [b]) h

theorem splice_zero {out bs : List α} : splice out 0 bs = bs ++ out.drop bs.length := by simp [splice]

theorem splice_full {out bs : List α} (h : out.length = bs.length) : splice out 0 bs = bs := by
  simp [splice, ← h]

end Verif
