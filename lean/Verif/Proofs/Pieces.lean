import Verif.Proofs.Normal

/-! Normalization of concatenated texts. -/

set_option autoImplicit false

namespace Verif.Unicode
open Verif.Utf8 Verif.Spec.Unicode Verif.Spec.Utf8

variable {u : Ucd}

/-- Composing does not look beyond the last starter. -/
theorem compose_frame (t : Table u) {e : List Nat} {l : List Nat} : ∀ {s : Nat} {b y : List Nat}, u.ccc s = 0 →
    Compose u.ccc (pairs u) (s :: b) l y → Compose u.ccc (pairs u) (e ++ s :: b) l (e ++ y) := by
  induction l with
  | nil =>
    intro s b y _ h
    cases h
    exact .nil
  | cons c l ih =>
    intro s b y hs h
    cases h with
    | @cons _ _ x' _ _ h1 h2 =>
      generalize hx : s :: b = x at h1
      cases h1 with
      | @compose a s' b' _ p h3 h4 h5 h6 =>
        rw [← List.append_assoc]
        refine .cons (.compose h3 h4 h5 h6) ?_
        cases a with
        | nil =>
          rw [List.append_assoc]
          exact ih (composite_starter t h6 h3) h2
        | cons s'' a =>
          simp only [List.cons_append, List.cons.injEq] at hx
          rw [← hx.1] at h2
          rw [← hx.1, List.append_assoc, List.cons_append]
          exact ih hs h2
      | keep h3 =>
        subst hx
        refine .cons (.keep ?_) ?_ (x' := e ++ s :: b ++ [c])
        · intro a s' b' p he h4 h5
          rcases List.append_eq_append_iff.1 he with ⟨a', rfl, h6⟩ | ⟨c', rfl, h6⟩
          · exact h3 a' s' b' p h6 h4 h5
          · cases c' with
            | nil => exact h3 [] s' b' p h6.symm h4 h5
            | cons z c' =>
              simp only [List.cons_append, List.cons.injEq] at h6
              exact absurd hs (h5 s (by rw [h6.2]; simp))
        · rw [List.append_assoc, List.cons_append]
          exact ih hs h2

theorem compose_nil_step {ccc : Nat → Nat} {pc : Nat → Nat → Nat → Prop} {c : Nat} {y : List Nat} (h : ComposeStep ccc pc [] c y) : y = [c] := by
  generalize hx : ([] : List Nat) = x at h
  cases h with
  | compose => simp at hx
  | keep => subst hx; rfl

/-- A starter that is never composed with one before it separates what is before from what is after it. -/
theorem compose_pieces (t : Table u) {d s y z : List Nat} {c : Nat} (h : Compose u.ccc (pairs u) [] d y) (hc : u.ccc c = 0) (hi : Inert u c)
    (h' : Compose u.ccc (pairs u) [] (c :: s) z) : Compose u.ccc (pairs u) [] (d ++ c :: s) (y ++ z) := by
  refine Compose.append h ?_
  cases h' with
  | cons h1 h2 =>
    rw [compose_nil_step h1] at h2
    exact .cons (.keep fun _ s' _ p' _ hs' _ _ => hi s' p' hs') (compose_frame t hc h2)

/-- The beginning of the decomposition of a stable starter. -/
theorem stable_begin {c : Nat} {b d : List Nat} (h : Stable u c) (hc : u.ccc c = 0) (hd : NFD u.decomp u.ccc (c :: b) d) :
    ∃ s r, d = s :: r ∧ u.ccc s = 0 ∧ Inert u s := by
  cases h with
  | mark h => exact absurd hc h
  | @starter s r _ h1 h2 h3 _ =>
    obtain ⟨d, h4, rfl⟩ := nfd_iff.1 hd
    cases h4 with
    | @cons _ _ _ g h5 h6 =>
      obtain rfl := full_unique h1 h5
      have := ord_starter h2 [] (r ++ g)
      simp only [List.nil_append] at this
      exact ⟨s, _, by rw [List.cons_append, this]; rfl, h2, h3⟩

theorem nfd_pieces {a b x r : List Nat} {s : Nat} (h : NFD u.decomp u.ccc a x) (h' : NFD u.decomp u.ccc b (s :: r)) (hs : u.ccc s = 0) :
    NFD u.decomp u.ccc (a ++ b) (x ++ s :: r) := by
  obtain ⟨d, h1, rfl⟩ := nfd_iff.1 h
  obtain ⟨f, h2, h3⟩ := nfd_iff.1 h'
  refine nfd_iff.2 ⟨d ++ f, h1.append h2, ?_⟩
  have h4 := ord_append_ord (ccc := u.ccc) d f
  rw [← h3, ord_starter hs] at h4
  rw [← h4]
  congr 1
  have h5 := ord_starter (ccc := u.ccc) hs [] r
  have h6 : Ordered u.ccc (s :: r) := by rw [h3]; exact ord_ordered f
  rw [ord_self h6.tail]

/-- A run of marks in the whole is in one of the pieces. -/
theorem runs_pieces {ccc : Nat → Nat} {d r : List Nat} {s n : Nat} (hs : ccc s = 0)
    (h1 : ∀ x b y, d = x ++ b ++ y → (∀ c ∈ b, ccc c ≠ 0) → b.length ≤ n)
    (h2 : ∀ x b y, s :: r = x ++ b ++ y → (∀ c ∈ b, ccc c ≠ 0) → b.length ≤ n) :
    ∀ x b y, d ++ s :: r = x ++ b ++ y → (∀ c ∈ b, ccc c ≠ 0) → b.length ≤ n := by
  intro x b y he hb
  rw [List.append_assoc] at he
  rcases List.append_eq_append_iff.1 he with ⟨a', rfl, h6⟩ | ⟨c', rfl, h6⟩
  · exact h2 a' b y (by rw [h6, List.append_assoc]) hb
  · rcases List.append_eq_append_iff.1 h6 with ⟨a'', rfl, h7⟩ | ⟨c'', rfl, h7⟩
    · exact h1 x b a'' (by rw [List.append_assoc]) hb
    · cases c'' with
      | nil =>
        have := h1 x c' [] (by simp) (fun c hc => hb c (by simp [hc]))
        simpa using this
      | cons z w =>
        simp only [List.cons_append, List.cons.injEq] at h7
        exact absurd hs (hb s (by rw [h7.1]; simp))

theorem ordered_pieces {ccc : Nat → Nat} {a b : List Nat} {c : Nat} (hc : ccc c = 0) (h1 : Ordered ccc a) (h2 : Ordered ccc (c :: b)) :
    Ordered ccc (a ++ c :: b) := by
  rw [ordered_iff_chain] at *
  exact List.isChain_append.2 ⟨h1, h2, by
    intro x _ y hy
    simp only [List.head?_cons, Option.mem_def, Option.some.injEq] at hy
    rw [← hy, hc]
    omega⟩

end Verif.Unicode
