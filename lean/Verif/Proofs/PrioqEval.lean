import Verif.Base.Approx
import Verif.Model.Prioq

/-! The loops of the priority queue with fuel, to compute concrete runs. -/

namespace Verif.Prioq
variable {α : Type} (cmp : α → α → Int)

def raiseF : Nat → PQ α → Nat → α → D (PQ α × Nat)
  | 0, _, _, _ => ExceptT.mk none
  | k + 1, q, slot, value =>
    if slot = 0 then pure (q, slot)
    else liftC (get q ((slot - 1) / 2)) >>= fun p =>
      if cmp value p ≥ 0 then pure (q, slot)
      else liftC (assign q slot p) >>= fun q => raiseF k q ((slot - 1) / 2) value

def growLoopF (limit : Nat) : Nat → Nat → D Nat
  | 0, _ => ExceptT.mk none
  | k + 1, n =>
    if n < limit then
      if n > (2 ^ 64 - 1) / 2 then pure (2 ^ 64 - 1) else growLoopF limit k (wrap (2 * n))
    else pure n

def lowerF : Nat → PQ α → Nat → α → D (PQ α)
  | 0, _, _, _ => ExceptT.mk none
  | k + 1, q, slot, value =>
    if wrap (slot * 2 + 1) ≥ q.capacity then liftC (assign q slot value)
    else liftC (branchOf cmp q (wrap (slot * 2 + 1)) (wrap (wrap (slot * 2 + 1) + 1))) >>= fun branch =>
      liftC (get q branch) >>= fun b =>
      if cmp value b ≤ 0 then liftC (assign q slot value)
      else liftC (assign q slot b) >>= fun q => lowerF k q branch value

def growF (k : Nat) (q : PQ α) : D (PQ α) :=
  if q.capacity = q.maxCapacity then growLoopF (wrap (q.capacity + 1)) k 1 >>= fun n =>
    pure { q with storage := realloc q.storage n, maxCapacity := n }
  else pure q

def enqueueF (k : Nat) (q : PQ α) (value : α) : D (PQ α) :=
  growF k q >>= fun q => raiseF cmp k { q with capacity := wrap (q.capacity + 1) } q.capacity value >>= fun r => liftC (assign r.1 r.2 value)

def dequeueF (k : Nat) (q : PQ α) : D (Option α × PQ α) :=
  if q.capacity = 0 then pure (none, q)
  else if q.capacity = 1 then liftC (get q 0) >>= fun v => pure (some v, { q with capacity := 0 })
  else liftC (get q 0) >>= fun value => liftC (get q (q.capacity - 1)) >>= fun other =>
    lowerF cmp k { q with capacity := q.capacity - 1 } 0 other >>= fun q => pure (some value, q)

def removeF (k : Nat) (q : PQ α) (slot : Nat) : D (α × PQ α) :=
  liftC (get q slot) >>= fun value => liftC (get q (wrap (q.capacity + (2 ^ 64 - 1)))) >>= fun other =>
    raiseF cmp k { q with capacity := wrap (q.capacity + (2 ^ 64 - 1)) } slot other >>= fun r =>
    lowerF cmp k r.1 r.2 other >>= fun q => pure (value, q)

theorem raise_approx : ∀ (k : Nat) (q : PQ α) (slot : Nat) (v : α), Approx (raiseF cmp k q slot v) (raise cmp q slot v)
  | 0, _, _, _ => Approx.none _
  | k + 1, q, slot, v => by
    rw [raise, raiseF]
    refine Approx.ite (Approx.refl _) (Approx.bind (Approx.refl _) fun p => Approx.ite (Approx.refl _) (Approx.bind (Approx.refl _) fun q => ?_))
    exact raise_approx k q _ v

theorem growLoop_approx (limit : Nat) : ∀ (k n : Nat), Approx (growLoopF limit k n) (growLoop limit n)
  | 0, _ => Approx.none _
  | k + 1, n => by
    rw [growLoop, growLoopF]
    exact Approx.ite (Approx.ite (Approx.refl _) (growLoop_approx limit k _)) (Approx.refl _)

theorem lower_approx : ∀ (k : Nat) (q : PQ α) (slot : Nat) (v : α), Approx (lowerF cmp k q slot v) (lower cmp q slot v)
  | 0, _, _, _ => Approx.none _
  | k + 1, q, slot, v => by
    rw [lower, lowerF]
    refine Approx.ite (Approx.refl _) (Approx.bind (Approx.refl _) fun br => Approx.bind (Approx.refl _) fun b =>
      Approx.ite (Approx.refl _) (Approx.bind (Approx.refl _) fun q => ?_))
    exact lower_approx k q br v

theorem enqueue_approx (k : Nat) (q : PQ α) (v : α) : Approx (enqueueF cmp k q v) (enqueue cmp q v) := by
  refine Approx.bind ?_ fun q => Approx.bind (raise_approx cmp k _ _ _) fun r => Approx.refl _
  exact Approx.ite (Approx.bind (growLoop_approx _ k 1) fun n => Approx.refl _) (Approx.refl _)

theorem dequeue_approx (k : Nat) (q : PQ α) : Approx (dequeueF cmp k q) (dequeue cmp q) :=
  Approx.ite (Approx.refl _) (Approx.ite (Approx.refl _) (Approx.bind (Approx.refl _) fun _ => Approx.bind (Approx.refl _) fun _ =>
    Approx.bind (lower_approx cmp k _ _ _) fun _ => Approx.refl _))

theorem remove_approx (k : Nat) (q : PQ α) (slot : Nat) : Approx (removeF cmp k q slot) (remove cmp q slot) :=
  Approx.bind (Approx.refl _) fun _ => Approx.bind (Approx.refl _) fun _ => Approx.bind (raise_approx cmp k _ _ _) fun _ =>
    Approx.bind (lower_approx cmp k _ _ _) fun _ => Approx.refl _

end Verif.Prioq
