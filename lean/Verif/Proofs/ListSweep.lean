import Verif.Spec.Sweep
import Verif.Proofs.ListPtr

/-! Loops of the user over a list that remove elements as they go. -/

set_option autoImplicit false

namespace Verif.CList
open Spec
open Spec.Lists (State)

/-- `list_next`, or `list_previous`. -/
def onward (back : Bool) (e : Nat) : M Nat := if back then previous e else next e

/-- `list_get_first`, or `list_get_last`. -/
def outer (back : Bool) (l : Nat) : M Nat := if back then getLast l else getFirst l

/-- `list_pop_first`, or `list_pop_last`. -/
def popOuter (back : Bool) (l : Nat) : M Nat := if back then popLast l else popFirst l

/-- `if (b) list_remove(l, e);` -/
def removeIf (b : Bool) (l e : Nat) : M Unit := if b then remove l e else pure ()

/-- `while (e) { n = list_next(e); if (drop(e)) list_remove(l, e); e = n; }`, or the same with `list_previous`. The result is the elements visited, with
their values. -/
def sweepLoop (back : Bool) (drop : List (Nat × Nat) → Nat × Nat → Bool) (l : Nat) (seen : List (Nat × Nat)) (e : Nat) : M (List (Nat × Nat)) := do
  if e = 0 then pure seen
  else
    let n ← onward back e
    let v ← getValue e
    removeIf (drop seen (e, v)) l e
    sweepLoop back drop l (seen ++ [(e, v)]) n
partial_fixpoint

/-- The loop from `list_get_first` on, or from `list_get_last` backwards. -/
def sweep (back : Bool) (drop : List (Nat × Nat) → Nat × Nat → Bool) (l : Nat) : M (List (Nat × Nat)) := do
  let e ← outer back l
  sweepLoop back drop l [] e

/-- `while (!list_empty(l)) { v = list_pop_first(l); ... }`, or the same with `list_pop_last`. The result is the values. -/
def drain (back : Bool) (l : Nat) (seen : List Nat) : M (List Nat) := do
  let b ← empty l
  if b then pure seen
  else
    let v ← popOuter back l
    drain back l (seen ++ [v])
partial_fixpoint

/-- `while ((v = list_pop_first(l))) ...`, or the same with `list_pop_last`. -/
def drainValues (back : Bool) (l : Nat) (seen : List Nat) : M (List Nat) := do
  let v ← popOuter back l
  if v = 0 then pure seen else drainValues back l (seen ++ [v])
partial_fixpoint

variable {m0 m : Mem} {l : Nat} {ws : List (Nat × List (Nat × Nat))}

theorem PInv.front {s ss : State} {xs : List (Nat × Nat)} (h : PInv m0 s m) (hs : s = (l, xs) ::ₘ ss) :
    ∃ ws, PMem m0 ((l, xs) :: ws) m ∧ ss = ↑ws := by
  obtain ⟨ws, h, rfl⟩ := h
  have hx : (l, xs) ∈ ws := by rw [← Multiset.mem_coe, hs]; simp
  obtain ⟨as, bs, rfl⟩ := List.append_of_mem hx
  have hp := List.perm_middle (a := (l, xs)) (l₁ := as) (l₂ := bs)
  refine ⟨as ++ bs, h.perm hp, ?_⟩
  have : ((l, xs) ::ₘ ss) = (l, xs) ::ₘ ↑(as ++ bs) := hs.symm.trans (Multiset.coe_eq_coe.2 hp)
  exact (Multiset.cons_inj_right _).1 this

theorem remove_front {e u : Nat} {ys zs : List (Nat × Nat)} (h : PMem m0 ((l, ys ++ (e, u) :: zs) :: ws) m) :
    Does (remove l e) m (fun _ m' => PMem m0 ((l, ys ++ zs) :: ws) m') := by
  refine (remove_spec h.first).mono fun _ m' ⟨h1, h2, h3⟩ => h.change h1 (fun a ha => ?_) (fun a ha _ => h3 a ha) (fun a ha hn => ?_)
  · left; simp only [addrs, List.map_append, List.map_cons, List.mem_append, List.mem_cons] at ha ⊢; tauto
  · have : a = e := by
      simp only [addrs, List.map_append, List.map_cons, List.mem_append, List.mem_cons] at ha hn; tauto
    rw [this, h2]

theorem sweepLoop_forwards {drop : List (Nat × Nat) → Nat × Nat → Bool} (ys : List (Nat × Nat)) : ∀ {xs seen : List (Nat × Nat)} {m : Mem},
    PMem m0 ((l, xs ++ ys) :: ws) m → Does (sweepLoop false drop l seen (hd ys 0)) m (fun r m' => r = seen ++ ys ∧
      PMem m0 ((l, xs ++ kept drop seen ys) :: ws) m') := by
  induction ys with
  | nil =>
    intro xs seen m h
    rw [sweepLoop]
    exact does_pos rfl (Does.pure ⟨by simp, h⟩)
  | cons i ys ih =>
    obtain ⟨e, v⟩ := i
    intro xs seen m h
    have hr := h.first
    rw [show hd ((e, v) :: ys) 0 = e from rfl, sweepLoop]
    refine does_neg hr.cell.1 (Does.bind ((next_spec hr).does (Does.bind ((getValue_spec hr).does (Does.bind ?_)))))
    by_cases hd : drop seen (e, v)
    · refine does_pos hd ((remove_front h).mono fun _ m1 h1 => (ih h1).mono ?_)
      rintro _ m2 ⟨rfl, h2⟩
      exact ⟨by simp, by rw [kept, if_pos hd]; exact h2⟩
    · refine does_neg hd (Does.pure ((ih (xs := xs ++ [(e, v)]) (by simpa using h)).mono ?_))
      rintro _ m2 ⟨rfl, h2⟩
      exact ⟨by simp, by rw [kept, if_neg hd]; simpa using h2⟩

theorem lst_snoc (xs : List (Nat × Nat)) (e v : Nat) : lst (xs ++ [(e, v)]) 0 = e := by rw [lst_append]; rfl

theorem sweepLoop_backwards {drop : List (Nat × Nat) → Nat × Nat → Bool} (ys : List (Nat × Nat)) : ∀ {xs seen : List (Nat × Nat)} {m : Mem},
    PMem m0 ((l, ys.reverse ++ xs) :: ws) m → Does (sweepLoop true drop l seen (lst ys.reverse 0)) m (fun r m' => r = seen ++ ys ∧
      PMem m0 ((l, (kept drop seen ys).reverse ++ xs) :: ws) m') := by
  induction ys with
  | nil =>
    intro xs seen m h
    rw [sweepLoop]
    exact does_pos rfl (Does.pure ⟨by simp, h⟩)
  | cons i ys ih =>
    obtain ⟨e, v⟩ := i
    intro xs seen m h
    rw [List.reverse_cons, List.append_assoc, List.singleton_append] at h
    have hr := h.first
    rw [sweepLoop, List.reverse_cons, lst_snoc]
    refine does_neg hr.cell.1 (Does.bind ((previous_spec hr).does (Does.bind ((getValue_spec hr).does (Does.bind ?_)))))
    by_cases hd : drop seen (e, v)
    · refine does_pos hd ((remove_front h).mono fun _ m1 h1 => (ih h1).mono ?_)
      rintro _ m2 ⟨rfl, h2⟩
      exact ⟨by simp, by rw [kept, if_pos hd]; exact h2⟩
    · refine does_neg hd (Does.pure ((ih h).mono ?_))
      rintro _ m2 ⟨rfl, h2⟩
      exact ⟨by simp, by rw [kept, if_neg hd]; simpa using h2⟩

/-- Visited in this order. -/
def visits {α : Type} (back : Bool) (xs : List α) : List α := if back then xs.reverse else xs

theorem sweep_does (back : Bool) (drop : List (Nat × Nat) → Nat × Nat → Bool) {xs : List (Nat × Nat)} (h : PMem m0 ((l, xs) :: ws) m) :
    Does (sweep back drop l) m (fun r m' => r = visits back xs ∧ PMem m0 ((l, visits back (kept drop [] (visits back xs))) :: ws) m') := by
  cases back with
  | false => exact Does.bind ((getFirst_spec h.first).does (sweepLoop_forwards (xs := []) xs h))
  | true =>
    refine Does.bind ((getLast_spec h.first).does ?_)
    have := sweepLoop_backwards (drop := drop) (xs := []) (seen := []) xs.reverse (by simpa using h)
    rw [List.reverse_reverse] at this
    simpa [visits] using this

/-- Popping from a list that is not empty. -/
theorem popOuter_does (back : Bool) {i : Nat × Nat} {xs : List (Nat × Nat)} (h : PMem m0 ((l, visits back (i :: xs)) :: ws) m) :
    Does (popOuter back l) m (fun v m' => v = i.2 ∧ PMem m0 ((l, visits back xs) :: ws) m') := by
  obtain ⟨e, v⟩ := i
  have hr := h.first
  cases back with
  | false =>
    refine Does.bind ((getFirst_spec hr).does (does_neg hr.seg.1 (Does.bind ((getValue_spec (ys := []) hr).does (Does.bind ?_)))))
    exact (remove_front (ys := []) h).mono fun _ m1 h1 => Does.pure ⟨rfl, h1⟩
  | true =>
    have e' : visits true ((e, v) :: xs) = xs.reverse ++ [(e, v)] := by simp [visits]
    rw [e'] at h hr
    refine Does.bind ((getLast_spec hr).does ?_)
    rw [lst_snoc]
    refine does_neg hr.cell.1 (Does.bind ((getValue_spec hr).does (Does.bind ((remove_front h).mono fun _ m1 h1 => Does.pure ⟨rfl, ?_⟩))))
    simpa [visits] using h1

theorem popOuter_empty (back : Bool) (h : PMem m0 ((l, []) :: ws) m) : Run (popOuter back l) m 0 m := by
  have hr := h.first
  cases back with
  | false => exact (getFirst_spec hr).bind (Run.pure _ _)
  | true => exact (getLast_spec hr).bind (Run.pure _ _)

theorem visits_eq_nil {α : Type} {back : Bool} {xs : List α} : visits back xs = [] ↔ xs = [] := by cases back <;> simp [visits]

theorem drain_does (back : Bool) (xs : List (Nat × Nat)) : ∀ {seen : List Nat} {m : Mem}, PMem m0 ((l, visits back xs) :: ws) m →
    Does (drain back l seen) m (fun r m' => r = seen ++ xs.map (·.2) ∧ PMem m0 ((l, []) :: ws) m') := by
  induction xs with
  | nil =>
    intro seen m h
    rw [visits_eq_nil.2 rfl] at h
    rw [drain]
    exact Does.bind ((empty_spec h.first).does (does_pos (by simp) (Does.pure ⟨by simp, h⟩)))
  | cons i xs ih =>
    intro seen m h
    rw [drain]
    refine Does.bind ((empty_spec h.first).does (does_neg (by simp [visits_eq_nil]) (Does.bind ((popOuter_does back h).mono ?_))))
    rintro _ m1 ⟨rfl, h1⟩
    refine (ih h1).mono ?_
    rintro _ m2 ⟨rfl, h2⟩
    exact ⟨by simp, h2⟩

theorem drainValues_does (back : Bool) (xs : List (Nat × Nat)) : ∀ {seen : List Nat} {m : Mem}, PMem m0 ((l, visits back xs) :: ws) m →
    Does (drainValues back l seen) m (fun r m' => r = seen ++ (xs.map (·.2)).takeWhile (· ≠ 0) ∧
      PMem m0 ((l, visits back (xs.dropWhile (·.2 ≠ 0)).tail) :: ws) m') := by
  induction xs with
  | nil =>
    intro seen m h
    have h' := h
    rw [visits_eq_nil.2 rfl] at h'
    rw [drainValues]
    exact Does.bind ((popOuter_empty back h').does (does_pos rfl (Does.pure ⟨by simp, h⟩)))
  | cons i xs ih =>
    intro seen m h
    rw [drainValues]
    refine Does.bind ((popOuter_does back h).mono ?_)
    rintro _ m1 ⟨rfl, h1⟩
    by_cases h0 : i.2 = 0
    · exact does_pos h0 (Does.pure ⟨by simp [h0], by simpa [h0] using h1⟩)
    · refine does_neg h0 ((ih h1).mono ?_)
      rintro _ m2 ⟨rfl, h2⟩
      exact ⟨by simp [h0], by simpa [h0] using h2⟩

end Verif.CList
