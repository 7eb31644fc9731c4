import Verif.Spec.Unicode
import Mathlib.Data.List.Chain

/-! Canonical ordering and decomposition of code point strings. -/

namespace Verif.Spec.Unicode

/-! ### Canonical ordering -/

/-- Stable insertion of a character in front. -/
def ins (ccc : Nat → Nat) (a : Nat) : List Nat → List Nat
  | [] => [a]
  | b :: l => if ccc a > ccc b ∧ ccc b > 0 then b :: ins ccc a l else a :: b :: l

/-- The canonical order of a string. -/
def ord (ccc : Nat → Nat) (l : List Nat) : List Nat := l.foldr (ins ccc) []

variable {ccc : Nat → Nat}

theorem ord_cons (a : Nat) (l : List Nat) : ord ccc (a :: l) = ins ccc a (ord ccc l) := rfl

theorem ord_append (x y : List Nat) : ord ccc (x ++ y) = x.foldr (ins ccc) (ord ccc y) := by
  simp [ord, List.foldr_append]

theorem ins_comm {a b : Nat} (h : ccc a ≠ ccc b) (ha : ccc a > 0) (hb : ccc b > 0) (m : List Nat) :
    ins ccc a (ins ccc b m) = ins ccc b (ins ccc a m) := by
  induction m with
  | nil =>
    simp only [ins]
    by_cases h1 : ccc a > ccc b
    · rw [if_pos ⟨h1, hb⟩, if_neg (by omega)]
    · rw [if_neg (by omega), if_pos ⟨by omega, ha⟩]
  | cons c m ih =>
    simp only [ins]
    by_cases h1 : ccc a > ccc c ∧ ccc c > 0 <;> by_cases h2 : ccc b > ccc c ∧ ccc c > 0
    · rw [if_pos h1, if_pos h2]
      simp only [ins]
      rw [if_pos h1, if_pos h2, ih]
    · rw [if_pos h1, if_neg h2]
      simp only [ins]
      rw [if_pos ⟨by omega, hb⟩, if_pos h1, if_neg h2]
    · rw [if_neg h1, if_pos h2]
      simp only [ins]
      rw [if_neg h1, if_pos ⟨by omega, ha⟩, if_pos h2]
    · rw [if_neg h1, if_neg h2]
      simp only [ins]
      by_cases h3 : ccc a > ccc b
      · rw [if_pos ⟨h3, hb⟩, if_neg h1, if_neg (by omega)]
      · rw [if_neg (by omega), if_pos ⟨by omega, ha⟩, if_neg h2]

/-- Two adjacent characters with different nonzero classes may change places. -/
theorem ord_swap {x y : List Nat} {a b : Nat} (h : ccc a ≠ ccc b) (ha : ccc a > 0) (hb : ccc b > 0) :
    ord ccc (x ++ a :: b :: y) = ord ccc (x ++ b :: a :: y) := by
  rw [ord_append, ord_append]
  congr 1
  simp only [ord_cons]
  exact ins_comm h ha hb _

theorem ord_exchange {x y : List Nat} (h : Exchange ccc x y) : ord ccc x = ord ccc y := by
  cases h with
  | mk h1 h2 => exact ord_swap (by omega) (by omega) h2

theorem ord_exchanges {x y : List Nat} (h : Exchanges ccc x y) : ord ccc x = ord ccc y := by
  induction h with
  | refl => rfl
  | step h1 _ ih => exact (ord_exchange h1).trans ih

theorem Exchanges.trans {x y z : List Nat} (h : Exchanges ccc x y) (h' : Exchanges ccc y z) : Exchanges ccc x z := by
  induction h with
  | refl => exact h'
  | step h1 _ ih => exact .step h1 (ih h')

theorem Exchange.cons {x y : List Nat} (c : Nat) (h : Exchange ccc x y) : Exchange ccc (c :: x) (c :: y) := by
  cases h with
  | @mk x y a b h1 h2 => exact .mk (x := c :: x) h1 h2

theorem Exchanges.cons {x y : List Nat} (c : Nat) (h : Exchanges ccc x y) : Exchanges ccc (c :: x) (c :: y) := by
  induction h with
  | refl => exact .refl
  | step h1 _ ih => exact .step (h1.cons c) ih

theorem Exchanges.append_left {x y : List Nat} (a : List Nat) (h : Exchanges ccc x y) : Exchanges ccc (a ++ x) (a ++ y) := by
  induction a with
  | nil => exact h
  | cons c a ih => exact ih.cons c

theorem Exchanges.append_right {x y : List Nat} (z : List Nat) (h : Exchanges ccc x y) : Exchanges ccc (x ++ z) (y ++ z) := by
  induction h with
  | refl => exact .refl
  | step h1 _ ih =>
    refine .step ?_ ih
    cases h1 with
    | @mk x y a b h1 h2 => simpa using Exchange.mk (x := x) (y := y ++ z) h1 h2

theorem ins_exchanges (a : Nat) (l : List Nat) : Exchanges ccc (a :: l) (ins ccc a l) := by
  induction l with
  | nil => exact .refl
  | cons b l ih =>
    simp only [ins]
    split
    · rename_i h
      exact .step (Exchange.mk (x := []) h.1 h.2) (ih.cons b)
    · exact .refl

theorem ord_of (l : List Nat) : Exchanges ccc l (ord ccc l) := by
  induction l with
  | nil => exact .refl
  | cons a l ih => exact (ih.cons a).trans (ins_exchanges a _)

/-- Ordered, as a recursion. -/
theorem ordered_cons_cons {a b : Nat} {l : List Nat} : Ordered ccc (a :: b :: l) ↔ ¬ (ccc a > ccc b ∧ ccc b > 0) ∧ Ordered ccc (b :: l) := by
  constructor
  · intro h
    refine ⟨h [] a b l rfl, fun x c d y he => h (a :: x) c d y (by rw [he]; rfl)⟩
  · rintro ⟨h1, h2⟩ x c d y he
    cases x with
    | nil => simp only [List.nil_append, List.cons.injEq] at he; obtain ⟨rfl, rfl, rfl⟩ := he; exact h1
    | cons e x => simp only [List.cons_append, List.cons.injEq] at he; exact h2 x c d y he.2

theorem ordered_nil : Ordered ccc [] := by
  intro x a b y h; simp at h

theorem ordered_one (a : Nat) : Ordered ccc [a] := by
  intro x c d y h
  have := congrArg List.length h
  simp at this; omega

theorem Ordered.tail {a : Nat} {l : List Nat} (h : Ordered ccc (a :: l)) : Ordered ccc l := by
  intro x c d y he
  exact h (a :: x) c d y (by rw [he]; rfl)

theorem Ordered.append_left {x y : List Nat} (h : Ordered ccc (x ++ y)) : Ordered ccc x := by
  intro a c d b he
  exact h a c d (b ++ y) (by rw [he]; simp)

theorem Ordered.append_right {x y : List Nat} (h : Ordered ccc (x ++ y)) : Ordered ccc y := by
  intro a c d b he
  exact h (x ++ a) c d b (by rw [he]; simp)

theorem ins_ordered (a : Nat) (l : List Nat) (h : Ordered ccc l) : Ordered ccc (ins ccc a l) := by
  induction l with
  | nil => exact ordered_one a
  | cons b l ih =>
    simp only [ins]
    split
    · rename_i hab
      have ih := ih h.tail
      cases l with
      | nil => simp only [ins] at ih ⊢; exact ordered_cons_cons.2 ⟨by omega, ordered_one a⟩
      | cons c l =>
        have h2 := (ordered_cons_cons.1 h).1
        simp only [ins] at ih ⊢
        split
        · rename_i hac
          rw [if_pos hac] at ih
          exact ordered_cons_cons.2 ⟨h2, ih⟩
        · rename_i hac
          rw [if_neg hac] at ih
          exact ordered_cons_cons.2 ⟨by omega, ih⟩
    · rename_i hab
      exact ordered_cons_cons.2 ⟨hab, h⟩

theorem ord_ordered (l : List Nat) : Ordered ccc (ord ccc l) := by
  induction l with
  | nil => exact ordered_nil
  | cons a l ih => exact ins_ordered a _ ih

theorem ord_self {l : List Nat} (h : Ordered ccc l) : ord ccc l = l := by
  induction l with
  | nil => rfl
  | cons a l ih =>
    rw [ord_cons, ih h.tail]
    cases l with
    | nil => rfl
    | cons b l =>
      simp only [ins]
      rw [if_neg (ordered_cons_cons.1 h).1]

/-- The canonical order is the only ordered string reachable by exchanges. -/
theorem exchanges_ordered_iff {x y : List Nat} : Exchanges ccc x y ∧ Ordered ccc y ↔ y = ord ccc x := by
  constructor
  · rintro ⟨h1, h2⟩
    rw [ord_exchanges h1, ord_self h2]
  · rintro rfl
    exact ⟨ord_of x, ord_ordered x⟩

theorem ord_ord_append (x y : List Nat) : ord ccc (ord ccc x ++ y) = ord ccc (x ++ y) :=
  (ord_exchanges ((ord_of x).append_right y)).symm

theorem ord_append_ord (x y : List Nat) : ord ccc (x ++ ord ccc y) = ord ccc (x ++ y) :=
  (ord_exchanges ((ord_of y).append_left x)).symm

/-- A character of higher class moves in front of others. -/
theorem ord_move {x y b : List Nat} {c : Nat} (h : ∀ d ∈ b, 0 < ccc d ∧ ccc d < ccc c) :
    ord ccc (x ++ b ++ c :: y) = ord ccc (x ++ c :: b ++ y) := by
  induction b generalizing x with
  | nil => simp
  | cons d b ih =>
    have hd := h d (by simp)
    have := ih (x := x ++ [d]) (fun e he => h e (by simp [he]))
    simp only [List.append_assoc, List.cons_append, List.nil_append] at this ⊢
    rw [this]
    exact ord_swap (by omega) (by omega) (by omega)

/-- A character of lower class moves in front of others. -/
theorem ord_move_low {x y b : List Nat} {c : Nat} (hc : 0 < ccc c) (h : ∀ d ∈ b, ccc c < ccc d) :
    ord ccc (x ++ b ++ c :: y) = ord ccc (x ++ c :: b ++ y) := by
  induction b generalizing x with
  | nil => simp
  | cons d b ih =>
    have hd := h d (by simp)
    have := ih (x := x ++ [d]) (fun e he => h e (by simp [he]))
    simp only [List.append_assoc, List.cons_append, List.nil_append] at this ⊢
    rw [this]
    exact ord_swap (by omega) (by omega) (by omega)

theorem ordered_iff_chain {l : List Nat} : Ordered ccc l ↔ l.IsChain fun a b => ¬ (ccc a > ccc b ∧ ccc b > 0) := by
  induction l with
  | nil => simp [ordered_nil]
  | cons a l ih =>
    cases l with
    | nil => simp [ordered_one]
    | cons b l => rw [ordered_cons_cons, ih, List.isChain_cons_cons]

/-- Ordered up to a starter, followed by a sorted run. -/
theorem ordered_append_run {a r : List Nat} (h1 : Ordered ccc a) (h2 : ∀ x c, a = x ++ [c] → ccc c = 0)
    (h3 : r.Pairwise fun x y => ccc x ≤ ccc y) : Ordered ccc (a ++ r) := by
  rw [ordered_iff_chain] at h1 ⊢
  rw [List.isChain_append]
  refine ⟨h1, ?_, ?_⟩
  · exact (h3.imp (fun {x y} h => by omega)).isChain
  · intro x hx y hy
    obtain ⟨x', hx'⟩ := List.mem_getLast?_eq_getLast hx
    have := h2 a.dropLast x (by rw [hx']; exact (List.dropLast_append_getLast _).symm)
    omega

theorem ins_perm (a : Nat) (l : List Nat) : (ins ccc a l).Perm (a :: l) := by
  induction l with
  | nil => exact List.Perm.refl _
  | cons b l ih =>
    simp only [ins]
    split
    · exact (ih.cons b).trans (List.Perm.swap a b l)
    · exact List.Perm.refl _

theorem ord_perm (l : List Nat) : (ord ccc l).Perm l := by
  induction l with
  | nil => exact List.Perm.refl _
  | cons a l ih => exact (ins_perm a _).trans (ih.cons a)

/-! ### Decomposition -/

variable {dm : Nat → Option (List Nat)}

theorem syllable_inj {l v t l' v' t' : Nat} (hv : v < 21) (ht : t < 28) (hv' : v' < 21) (ht' : t' < 28)
    (h : syllable l v t = syllable l' v' t') : l = l' ∧ v = v' ∧ t = t' := by
  simp only [syllable] at h; omega

mutual
theorem full_unique {cp : Nat} {a : List Nat} : (h : Full dm cp a) → ∀ {b}, Full dm cp b → b = a
  | .mapped h1 h2, b, h => by
    cases h with
    | mapped h3 h4 => rw [h1] at h3; cases h3; exact fullAll_unique h2 h4
    | hangul h3 => rw [h1] at h3; cases h3
    | self h3 => rw [h1] at h3; cases h3
  | .hangul h1 hl hv ht, b, h => by
    generalize hs : syllable _ _ _ = s at h
    cases h with
    | mapped h3 => rw [hs] at h1; rw [h1] at h3; cases h3
    | hangul _ _ hv' ht' => obtain ⟨rfl, rfl, rfl⟩ := syllable_inj hv ht hv' ht' hs; rfl
    | self _ h3 => exact absurd ⟨_, _, _, hl, hv, ht, hs.symm⟩ h3
  | .self h1 h2, b, h => by
    cases h with
    | mapped h3 => rw [h1] at h3; cases h3
    | hangul _ hl hv ht => exact absurd ⟨_, _, _, hl, hv, ht, rfl⟩ h2
    | self => rfl
theorem fullAll_unique {cps : List Nat} {a : List Nat} : (h : FullAll dm cps a) → ∀ {b}, FullAll dm cps b → b = a
  | .nil, b, h => by cases h; rfl
  | .cons h1 h2, b, h => by
    cases h with
    | cons h3 h4 => rw [full_unique h1 h3, fullAll_unique h2 h4]
end

theorem FullAll.append {x y a b : List Nat} (h : FullAll dm x a) (h' : FullAll dm y b) : FullAll dm (x ++ y) (a ++ b) := by
  induction x generalizing a with
  | nil => cases h; exact h'
  | cons c x ih =>
    cases h with
    | cons h1 h2 => rw [List.cons_append, List.append_assoc]; exact .cons h1 (ih h2)

theorem fullAll_append {x y d : List Nat} (h : FullAll dm (x ++ y) d) : ∃ a b, FullAll dm x a ∧ FullAll dm y b ∧ d = a ++ b := by
  induction x generalizing d with
  | nil => exact ⟨[], d, .nil, h, rfl⟩
  | cons c x ih =>
    cases h with
    | cons h1 h2 =>
      obtain ⟨a, b, h3, h4, rfl⟩ := ih h2
      exact ⟨_, b, .cons h1 h3, h4, by rw [List.append_assoc]⟩

theorem fullAll_one {cp : Nat} {d : List Nat} : FullAll dm [cp] d ↔ Full dm cp d := by
  constructor
  · intro h
    cases h with
    | cons h1 h2 => cases h2; simpa using h1
  · intro h
    simpa using FullAll.cons h .nil

/-- The decomposition of a string is determined. -/
theorem nfd_iff {x y : List Nat} : NFD dm ccc x y ↔ ∃ d, FullAll dm x d ∧ y = ord ccc d := by
  constructor
  · rintro ⟨d, h1, h2⟩; exact ⟨d, h1, exchanges_ordered_iff.1 h2⟩
  · rintro ⟨d, h1, h2⟩; exact ⟨d, h1, exchanges_ordered_iff.2 h2⟩

theorem nfd_unique {x y z : List Nat} (h : NFD dm ccc x y) (h' : NFD dm ccc x z) : y = z := by
  obtain ⟨d, h1, rfl⟩ := nfd_iff.1 h
  obtain ⟨e, h2, rfl⟩ := nfd_iff.1 h'
  rw [fullAll_unique h1 h2]

end Verif.Spec.Unicode
