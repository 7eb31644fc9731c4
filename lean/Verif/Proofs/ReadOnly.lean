import Verif.Model.Avl
import Verif.Model.HashTable
import Verif.Model.Objects

/-!
Programs that only read memory: the closure properties of the notion, and the queries of the containers.
-/

set_option autoImplicit false

namespace Verif

/-- Every execution that returns leaves the memory it found. `Mem.set` and `Mem.del` build another list of blocks, so equality of the memories
also rules out most writes that are undone later. -/
def ReadOnly {α : Type} (x : M α) : Prop := ∀ m a m', Run x m a m' → m' = m

namespace ReadOnly
variable {α β : Type}

theorem pure (a : α) : ReadOnly (Pure.pure a : M α) := by
  intro m b m' h
  have h' : some (Except.ok (a, m)) = some (Except.ok (ε := Err) (b, m')) := h
  injection h' with h'
  injection h' with h'
  injection h' with _ h'
  exact h'.symm

theorem ub : ReadOnly (Verif.ub : M α) := by
  intro m b m' h
  simp [Run, Verif.ub, Returns, liftC] at h

theorem bind {x : M α} {f : α → M β} (hx : ReadOnly x) (hf : ∀ a, ReadOnly (f a)) : ReadOnly (x >>= f) := by
  intro m b m' h
  have e : (x >>= f) m = (x m >>= fun p => f p.1 p.2) := rfl
  unfold Run at h
  rw [e] at h
  rcases hm : x m with _ | ⟨_ | ⟨a, m1⟩⟩
  · rw [hm] at h; exact absurd h (by intro h'; cases h')
  · rw [hm] at h; exact absurd h (by intro h'; cases h')
  · rw [hm] at h
    obtain rfl := hx m a m1 hm
    exact hf a m1 b m' h

unseal M.read in
theorem read (a : Nat) : ReadOnly (M.read a) := by
  intro m c m' h
  simp only [Run, M.read] at h
  split at h
  · simp [Returns, liftC] at h
  · split at h
    · simp [Returns, liftC] at h; exact h.2.symm
    · simp [Returns, liftC] at h

/-- Close or reduce a goal `ReadOnly x`. -/
syntax "readonly" ("[" term,* "]")? : tactic
macro_rules
  | `(tactic| readonly) => `(tactic| readonly [])
  | `(tactic| readonly [$ts,*]) => do
    let alts ← ts.getElems.mapM fun t => `(Lean.Parser.Tactic.tacticSeq| exact $t)
    `(tactic| repeat' first
      | exact ReadOnly.pure _
      | exact ReadOnly.ub
      | first $[| $alts]* | fail
      | refine ReadOnly.bind ?_ (fun _ => ?_)
      | split
      | dsimp only)

unseal readL in
theorem readL (a : Nat) : ReadOnly (Verif.readL a) := by unfold Verif.readL; readonly [read _]
unseal readLE in
theorem readLE (a : Nat) : ReadOnly (Verif.readLE a) := by unfold Verif.readLE; readonly [read _]
unseal readH in
theorem readH (a : Nat) : ReadOnly (Verif.readH a) := by unfold Verif.readH; readonly [read _]
unseal readHE in
theorem readHE (a : Nat) : ReadOnly (Verif.readHE a) := by unfold Verif.readHE; readonly [read _]
unseal readB in
theorem readB (a : Nat) : ReadOnly (Verif.readB a) := by unfold Verif.readB; readonly [read _]
unseal readA in
theorem readA (a : Nat) : ReadOnly (Verif.readA a) := by unfold Verif.readA; readonly [read _]
unseal readAE in
theorem readAE (a : Nat) : ReadOnly (Verif.readAE a) := by unfold Verif.readAE; readonly [read _]
unseal readBA in
theorem readBA (a : Nat) : ReadOnly (Verif.readBA a) := by unfold Verif.readBA; readonly [read _]

/-- For fixed points. -/
theorem admissible0 : Lean.Order.admissible (fun x : M α => ReadOnly x) := by
  apply Lean.Order.admissible_pi_apply (P := fun m (y : D (α × Mem)) => ∀ a m', Returns y (a, m') → m' = m)
  intro m
  exact Lean.Order.admissible_flatOrder (b := (none : Option (Except Err (α × Mem)))) _ (by intro a m' h; cases h)

theorem admissible1 {ι : Type} : Lean.Order.admissible (fun h : ι → M α => ∀ i, ReadOnly (h i)) :=
  Lean.Order.admissible_pi_apply (P := fun _ (y : M α) => ReadOnly y) (fun _ => admissible0)

theorem admissible2 {ι κ : Type} : Lean.Order.admissible (fun h : ι → κ → M α => ∀ i j, ReadOnly (h i j)) :=
  Lean.Order.admissible_pi_apply (P := fun _ (y : κ → M α) => ∀ j, ReadOnly (y j)) (fun _ => admissible1)

end ReadOnly

/-! ### Lists -/

namespace CList

theorem ro_getValue (e : Nat) : ReadOnly (getValue e) := by unfold getValue; readonly [.readLE _]
theorem ro_getFirst (l : Nat) : ReadOnly (getFirst l) := by unfold getFirst; readonly [.readL _]
theorem ro_getLast (l : Nat) : ReadOnly (getLast l) := by unfold getLast; readonly [.readL _]
theorem ro_next (e : Nat) : ReadOnly (next e) := by unfold next; readonly [.readLE _]
theorem ro_previous (e : Nat) : ReadOnly (previous e) := by unfold previous; readonly [.readLE _]
theorem ro_empty (l : Nat) : ReadOnly (empty l) := by unfold empty; readonly [.readL _]
theorem ro_size (l : Nat) : ReadOnly (size l) := by unfold size; readonly [.readL _]

theorem ro_getLoop (v : Nat) : ∀ e, ReadOnly (getLoop v e) := by
  apply getLoop.fixpoint_induct v (fun h => ∀ e, ReadOnly (h e)) ReadOnly.admissible1
  intro h ih e
  beta_reduce
  readonly [.readLE _, ih _]
theorem ro_get (l v : Nat) : ReadOnly (get l v) := by unfold get; readonly [.readL _, ro_getLoop _ _]

theorem ro_getByIndexLoop (idx : Int) : ∀ e i, ReadOnly (getByIndexLoop idx e i) := by
  apply getByIndexLoop.fixpoint_induct idx (fun h => ∀ e i, ReadOnly (h e i)) ReadOnly.admissible2
  intro h ih e i
  beta_reduce
  readonly [.readLE _, ih _ _]
theorem ro_getByIndex (l : Nat) (idx : Int) : ReadOnly (getByIndex l idx) := by unfold getByIndex; readonly [.readL _, ro_getByIndexLoop _ _ _]

theorem ro_foreachLoop (f : Nat → M Unit) (hf : ∀ v, ReadOnly (f v)) : ∀ e, ReadOnly (foreachLoop f e) := by
  apply foreachLoop.fixpoint_induct f (fun h => ∀ e, ReadOnly (h e)) ReadOnly.admissible1
  intro h ih e
  beta_reduce
  readonly [ro_getValue _, hf _, ro_next _, ih _]
theorem ro_foreach (l : Nat) (f : Nat → M Unit) (hf : ∀ v, ReadOnly (f v)) : ReadOnly (foreach l f) := by
  unfold foreach; readonly [ro_getFirst _, ro_foreachLoop f hf _]

end CList

/-! ### Trees -/

namespace Avl

theorem ro_key (a : Nat) : ReadOnly (key a) := by unfold key; readonly [.readAE _]
theorem ro_value (a : Nat) : ReadOnly (value a) := by unfold value; readonly [.readAE _]
theorem ro_parent (a : Nat) : ReadOnly (parent a) := by unfold parent; readonly [.readAE _]
theorem ro_left (a : Nat) : ReadOnly (left a) := by unfold left; readonly [.readAE _]
theorem ro_right (a : Nat) : ReadOnly (right a) := by unfold right; readonly [.readAE _]
theorem ro_root (t : Nat) : ReadOnly (root t) := by unfold root; readonly [.readA _]
theorem ro_getKey (a : Nat) : ReadOnly (getKey a) := ro_key a
theorem ro_getValue (a : Nat) : ReadOnly (getValue a) := ro_value a
theorem ro_size (t : Nat) : ReadOnly (size t) := by unfold size; readonly [.readA _]
theorem ro_stored (F : Funs) (t : Nat) : ReadOnly (stored F t) := by unfold stored; readonly [.readA _]
theorem ro_empty (t : Nat) : ReadOnly (empty t) := by unfold empty; readonly [ro_root _, .readA _]

theorem ro_getLoop (cmp : Nat → Nat → Int) (k : Nat) : ∀ e, ReadOnly (getLoop cmp k e) := by
  apply getLoop.fixpoint_induct cmp k (fun h => ∀ e, ReadOnly (h e)) ReadOnly.admissible1
  intro h ih e
  beta_reduce
  readonly [ro_key _, ro_left _, ro_right _, ih _]
theorem ro_get (cmp : Nat → Nat → Int) (t k : Nat) : ReadOnly (get cmp t k) := by unfold get; readonly [ro_root _, ro_getLoop _ _ _]

theorem ro_rightmostLoop : ∀ e, ReadOnly (rightmostLoop e) := by
  apply rightmostLoop.fixpoint_induct (fun h => ∀ e, ReadOnly (h e)) ReadOnly.admissible1
  intro h ih e
  beta_reduce
  readonly [ro_right _, ih _]
theorem ro_leftmostLoop : ∀ e, ReadOnly (leftmostLoop e) := by
  apply leftmostLoop.fixpoint_induct (fun h => ∀ e, ReadOnly (h e)) ReadOnly.admissible1
  intro h ih e
  beta_reduce
  readonly [ro_left _, ih _]
theorem ro_previousDescendant (e : Nat) : ReadOnly (previousDescendant e) := by unfold previousDescendant; readonly [ro_left _, ro_rightmostLoop _]
theorem ro_nextDescendant (e : Nat) : ReadOnly (nextDescendant e) := by unfold nextDescendant; readonly [ro_right _, ro_leftmostLoop _]
theorem ro_previousLoop : ∀ e, ReadOnly (previousLoop e) := by
  apply previousLoop.fixpoint_induct (fun h => ∀ e, ReadOnly (h e)) ReadOnly.admissible1
  intro h ih e
  beta_reduce
  readonly [ro_parent _, ro_left _, ro_right _, ih _]
theorem ro_nextLoop : ∀ e, ReadOnly (nextLoop e) := by
  apply nextLoop.fixpoint_induct (fun h => ∀ e, ReadOnly (h e)) ReadOnly.admissible1
  intro h ih e
  beta_reduce
  readonly [ro_parent _, ro_left _, ro_right _, ih _]
theorem ro_previous (e : Nat) : ReadOnly (previous e) := by unfold previous; readonly [ro_previousDescendant _, ro_previousLoop _]
theorem ro_next (e : Nat) : ReadOnly (next e) := by unfold next; readonly [ro_nextDescendant _, ro_nextLoop _]

theorem ro_beforeLoop (cmp : Nat → Nat → Int) (k : Nat) : ∀ e c, ReadOnly (beforeLoop cmp k e c) := by
  apply beforeLoop.fixpoint_induct cmp k (fun h => ∀ e c, ReadOnly (h e c)) ReadOnly.admissible2
  intro h ih e c
  beta_reduce
  readonly [ro_key _, ro_left _, ro_right _, ih _ _]
theorem ro_onOrBeforeLoop (cmp : Nat → Nat → Int) (k : Nat) : ∀ e c, ReadOnly (onOrBeforeLoop cmp k e c) := by
  apply onOrBeforeLoop.fixpoint_induct cmp k (fun h => ∀ e c, ReadOnly (h e c)) ReadOnly.admissible2
  intro h ih e c
  beta_reduce
  readonly [ro_key _, ro_left _, ro_right _, ih _ _]
theorem ro_afterLoop (cmp : Nat → Nat → Int) (k : Nat) : ∀ e c, ReadOnly (afterLoop cmp k e c) := by
  apply afterLoop.fixpoint_induct cmp k (fun h => ∀ e c, ReadOnly (h e c)) ReadOnly.admissible2
  intro h ih e c
  beta_reduce
  readonly [ro_key _, ro_left _, ro_right _, ih _ _]
theorem ro_onOrAfterLoop (cmp : Nat → Nat → Int) (k : Nat) : ∀ e c, ReadOnly (onOrAfterLoop cmp k e c) := by
  apply onOrAfterLoop.fixpoint_induct cmp k (fun h => ∀ e c, ReadOnly (h e c)) ReadOnly.admissible2
  intro h ih e c
  beta_reduce
  readonly [ro_key _, ro_left _, ro_right _, ih _ _]
theorem ro_getBefore (cmp : Nat → Nat → Int) (t k : Nat) : ReadOnly (getBefore cmp t k) := by
  unfold getBefore; readonly [ro_root _, ro_beforeLoop _ _ _ _]
theorem ro_getOnOrBefore (cmp : Nat → Nat → Int) (t k : Nat) : ReadOnly (getOnOrBefore cmp t k) := by
  unfold getOnOrBefore; readonly [ro_root _, ro_onOrBeforeLoop _ _ _ _]
theorem ro_getAfter (cmp : Nat → Nat → Int) (t k : Nat) : ReadOnly (getAfter cmp t k) := by
  unfold getAfter; readonly [ro_root _, ro_afterLoop _ _ _ _]
theorem ro_getOnOrAfter (cmp : Nat → Nat → Int) (t k : Nat) : ReadOnly (getOnOrAfter cmp t k) := by
  unfold getOnOrAfter; readonly [ro_root _, ro_onOrAfterLoop _ _ _ _]
theorem ro_getFirst (t : Nat) : ReadOnly (getFirst t) := by unfold getFirst; readonly [ro_root _, ro_leftmostLoop _, ro_left _]
theorem ro_getLast (t : Nat) : ReadOnly (getLast t) := by unfold getLast; readonly [ro_root _, ro_rightmostLoop _, ro_right _]

end Avl

/-! ### Hash tables -/

namespace Hash

theorem ro_size (t : Nat) : ReadOnly (size t) := by unfold size; readonly [.readH _]
theorem ro_empty (t : Nat) : ReadOnly (empty t) := by unfold empty; readonly [.readH _]
theorem ro_getKey (e : Nat) : ReadOnly (getKey e) := by unfold getKey; readonly [.readHE _]
theorem ro_getValue (e : Nat) : ReadOnly (getValue e) := by unfold getValue; readonly [.readHE _]
theorem ro_storedHash (F : Funs) (t : Nat) : ReadOnly (storedHash F t) := by unfold storedHash; readonly [.readH _]
theorem ro_storedCmp (F : Funs) (t : Nat) : ReadOnly (storedCmp F t) := by unfold storedCmp; readonly [.readH _]
theorem ro_bucket (t i : Nat) : ReadOnly (bucket t i) := by unfold bucket; readonly [.readH _, .readB _]

theorem ro_getLoop (cmp : Nat → Nat → Int) (k : Nat) : ∀ e, ReadOnly (getLoop cmp k e) := by
  apply getLoop.fixpoint_induct cmp k (fun h => ∀ e, ReadOnly (h e)) ReadOnly.admissible1
  intro h ih e
  beta_reduce
  readonly [CList.ro_getValue _, .readHE _, CList.ro_next _, ih _]
theorem ro_get (hash : Nat → Nat) (cmp : Nat → Nat → Int) (t k : Nat) : ReadOnly (get hash cmp t k) := by
  unfold get; readonly [.readH _, ro_bucket _ _, CList.ro_getFirst _, ro_getLoop _ _ _]
theorem ro_getNext (t : Nat) : ∀ i, ReadOnly (getNext t i) := by
  apply getNext.fixpoint_induct t (fun h => ∀ i, ReadOnly (h i)) ReadOnly.admissible1
  intro h ih i
  beta_reduce
  readonly [.readH _, ro_bucket _ _, CList.ro_empty _, CList.ro_getFirst _, CList.ro_getValue _, ih _]
theorem ro_getAny (t : Nat) : ReadOnly (getAny t) := ro_getNext t 0
theorem ro_getOther (e : Nat) : ReadOnly (getOther e) := by
  unfold getOther; readonly [.readHE _, CList.ro_next _, CList.ro_getValue _, ro_getNext _ _]

end Hash

end Verif
