import Verif.Props.ByteArray
import Verif.Props.Prioq
import Verif.Spec.Growth

/-! Helper lemmas on how the blocks of byte arrays and priority queues grow. -/

set_option autoImplicit false

namespace Verif.Growth
open Verif.Spec.Growth

theorem last_le (l : List Nat) (b : Nat) (h : l ≠ []) (hl : ∀ x ∈ l, x ≤ b) : l.getLast h ≤ b := hl _ (List.getLast_mem h)

theorem chain_moved (l : List Nat) : ∀ x, (x :: l).IsChain (fun x y => y = x ∨ 2 * x ≤ y) →
    moved (x :: l) + x ≤ (x :: l).getLast (by simp) := by
  induction l with
  | nil => intro x _; simp [moved]
  | cons y l ih =>
    intro x h
    rw [List.isChain_cons_cons] at h
    have := ih y h.2
    rw [List.getLast_cons (by simp)]
    rw [moved]
    simp only [List.head?_cons]
    split <;> omega

theorem chain_changes (l : List Nat) : ∀ x, (x :: l).IsChain (fun x y => y = x ∨ 2 * x ≤ y) →
    2 ^ changes (x :: l) * x ≤ (x :: l).getLast (by simp) := by
  induction l with
  | nil => intro x _; simp [changes]
  | cons y l ih =>
    intro x h
    rw [List.isChain_cons_cons] at h
    have h1 := ih y h.2
    rw [List.getLast_cons (by simp)]
    rw [changes]
    simp only [List.head?_cons]
    split
    · rename_i e; subst e; rw [Nat.zero_add]; exact h1
    · rename_i e
      have h2 : 2 * x ≤ y := by omega
      calc 2 ^ (1 + changes (y :: l)) * x = 2 ^ changes (y :: l) * (2 * x) := by rw [Nat.pow_add]; ring
        _ ≤ 2 ^ changes (y :: l) * y := Nat.mul_le_mul_left _ h2
        _ ≤ _ := h1

/-- The same for blocks that may start empty. -/
theorem chain_changes0 (l : List Nat) : ∀ x, (x :: l).IsChain (fun x y => y = x ∨ 2 * x ≤ y ∧ 0 < y) →
    2 ^ changes (x :: l) ≤ max 1 (2 * (x :: l).getLast (by simp)) := by
  induction l with
  | nil => intro x _; simp [changes]
  | cons y l ih =>
    intro x h
    rw [List.isChain_cons_cons] at h
    by_cases e : y = x
    · have h1 := ih y h.2
      rw [List.getLast_cons (by simp), changes]
      simp only [List.head?_cons, if_pos e, Nat.zero_add]
      exact h1
    · have h2 := chain_changes l y (h.2.imp fun _ _ h => h.imp_right And.left)
      rw [List.getLast_cons (by simp), changes]
      simp only [List.head?_cons, if_neg e]
      rw [Nat.pow_add]
      have h3 : 0 < y := by omega
      have : 2 ^ changes (y :: l) * 1 ≤ 2 ^ changes (y :: l) * y := Nat.mul_le_mul_left _ h3
      omega

end Verif.Growth

namespace Verif.BA

theorem roundUp_least (k t : Nat) (ht : t ≤ 2 ^ 63) (hk : k ≤ 63) (h : 2 ^ k < t) :
    ∃ j, roundUp k t = 2 ^ (j + 1) ∧ 2 ^ j < t ∧ t ≤ 2 ^ (j + 1) := by
  induction hn : 63 - k generalizing k with
  | zero =>
    have : k = 63 := by omega
    subst this; omega
  | succ n ih =>
    rw [roundUp, if_pos h]
    have hk63 : k < 63 := by omega
    have : 2 ^ k < 2 ^ 63 := Nat.lt_of_lt_of_le h ht
    rw [if_neg (by omega)]
    by_cases h3 : 2 ^ (k + 1) < t
    · exact ih (k + 1) (by omega) h3 (by omega)
    · rw [roundUp, if_neg h3]
      exact ⟨k, rfl, h, by omega⟩

/-- The block has the size of the limit, or that of a power of two. -/
def Pow (a : BA) : Prop := a.size = a.maxSize ∨ ∃ k, a.size = 2 ^ k

/-- What a call that needs `need` bytes does to the size of the block. -/
def Grown (a a' : BA) (need : Nat) : Prop :=
  a'.size = a.size ∨ 2 * a.size ≤ a'.size ∧ a'.size ≤ 2 * need ∧ ∃ k, a'.size = 2 ^ k

theorem ensureSpace_grown (j : Junk) {a a' : BA} (h : Inv a) (hp : Pow a) (hm : a.maxSize ≤ 2 ^ 63) (len : Nat)
    (e : ensureSpace j a len = some a') :
    Grown a a' (a.cursor + len) ∧ a.cursor + len < a.maxSize ∧ a'.maxSize = a.maxSize ∧ a'.cursor = a.cursor := by
  have h2 := h.size64; have h3 := h.max64; have h4 := h.curSize; have h5 := h.curMax
  unfold ensureSpace at e
  rw [sub64_eq (by omega) h3] at e
  split at e
  · cases e
  · rename_i h6
    rw [sub64_eq (by omega) h2] at e
    split at e
    · rename_i h7
      rw [add64_eq (show a.cursor + len < 2 ^ 64 by omega), add64_eq (show a.cursor + len + 1 < 2 ^ 64 by omega)] at e
      simp only [Option.some.injEq] at e
      subst e
      refine ⟨.inr ?_, by omega, rfl, rfl⟩
      obtain ⟨i, e1, e2, e3⟩ := roundUp_least 0 (a.cursor + len + 1) (by omega) (by omega) (by omega)
      simp only [e1]
      refine ⟨?_, ?_, _, rfl⟩
      · rcases hp with hp | ⟨k, hk⟩
        · omega
        · rw [hk, Nat.mul_comm, ← Nat.pow_succ]
          apply Nat.pow_le_pow_right (by omega)
          have : 2 ^ k < 2 ^ (i + 1) := by omega
          have := (Nat.pow_lt_pow_iff_right (by omega : 1 < 2)).mp this
          omega
      · rw [Nat.pow_succ, Nat.mul_comm]; omega
    · simp only [Option.some.injEq] at e
      subst e
      exact ⟨.inl rfl, by omega, rfl, rfl⟩

theorem terminate_size {a a' : BA} (e : terminate a = .ok a') : a'.size = a.size := by
  unfold terminate at e
  split at e
  · cases e
  · injection e with e; subst e; rfl

theorem copyTail_size {a a' : BA} {pos : Nat} {bs : List UInt8} {b : Bool} (e : copyTail a pos bs = .ok (b, a')) : a'.size = a.size := by
  unfold copyTail at e
  split at e
  · cases e
  · simp only at e
    split at e
    · split at e
      · cases e
      · rename_i h
        injection e with e; injection e with _ e; subst e
        exact (terminate_size h :)
    · injection e with e; injection e with _ e; subst e; rfl

theorem resizeTail_size {a a' : BA} {n : Nat} {b : Bool} (e : resizeTail a n = .ok (b, a')) : a'.size = a.size := by
  unfold resizeTail at e
  split at e
  · cases e
  · rename_i h
    injection e with e; injection e with _ e; subst e
    exact (terminate_size h :)

theorem streamTail_size (j : Junk) {a a' : BA} (h : Inv a) (hp : Pow a) (hm : a.maxSize ≤ 2 ^ 63) {cb : ReadCb} {len : Nat} {r : Int}
    (e : streamTail j a cb len = .ok (r, a')) : Grown a a' (a.cursor + len) := by
  unfold streamTail at e
  split at e
  · injection e with e; injection e with _ e; subst e; exact .inl rfl
  · rename_i a1 h1
    obtain ⟨g, -⟩ := ensureSpace_grown j h hp hm len h1
    have key : a'.size = a1.size := by
      split at e
      · cases e
      · simp only at e
        split at e
        · split at e
          · cases e
          · rename_i h2
            injection e with e; injection e with _ e; subst e
            exact (terminate_size h2 :)
        · injection e with e; injection e with _ e; subst e; rfl
    simpa only [Grown, key] using g

theorem append_size (j : Junk) {a a' : BA} (h : Inv a) (hp : Pow a) (hm : a.maxSize ≤ 2 ^ 63) {bs : List UInt8} {b : Bool}
    (e : append j a bs = .ok (b, a')) :
    Grown a a' (if a.cursor + bs.length < a.maxSize then a.cursor + bs.length else 0) := by
  unfold append at e
  split at e
  · injection e with e; injection e with _ e; subst e; exact .inl rfl
  · rename_i a1 h1
    obtain ⟨g, hlt, -⟩ := ensureSpace_grown j h hp hm _ h1
    rw [if_pos hlt]
    have key : a'.size = a1.size := by
      split at e
      · cases e
      · split at e
        · cases e
        · rename_i h2
          injection e with e; injection e with _ e; subst e
          exact (terminate_size h2 :)
    simpa only [Grown, key] using g

theorem copy_size (j : Junk) {a a' : BA} (h : Inv a) (hp : Pow a) (hm : a.maxSize ≤ 2 ^ 63) {pos : Nat} {bs : List UInt8} {b : Bool}
    (hbs : bs.length < 2 ^ 64) (e : copy j a pos bs = .ok (b, a')) :
    Grown a a' (if pos ≤ a.cursor ∧ pos + bs.length < a.maxSize then pos + bs.length else 0) := by
  have h5 := h.curMax
  unfold copy at e
  split at e
  · injection e with e; injection e with _ e; subst e; exact .inl rfl
  · rename_i hpos
    rw [sub64_eq (by omega) (by omega)] at e
    split at e
    · rename_i hl
      rw [subadd64_eq (by omega) (by omega) (by omega)] at e
      split at e
      · injection e with e; injection e with _ e; subst e; exact .inl rfl
      · rename_i a1 h1
        obtain ⟨g, hlt, -⟩ := ensureSpace_grown j h hp hm _ h1
        have e1 : a.cursor + (pos + bs.length - a.cursor) = pos + bs.length := by omega
        rw [e1] at g hlt
        rw [if_pos ⟨by omega, hlt⟩]
        simpa only [Grown, copyTail_size e] using g
    · exact .inl (copyTail_size e)

theorem resize_size (j : Junk) {a a' : BA} (h : Inv a) (hp : Pow a) (hm : a.maxSize ≤ 2 ^ 63) {n : Nat} {c : UInt8} {b : Bool}
    (hn : n < 2 ^ 64) (e : resize j a n c = .ok (b, a')) : Grown a a' (if n < a.maxSize then n else 0) := by
  have h5 := h.curMax
  unfold resize at e
  split at e
  · rename_i hgt
    rw [sub64_eq (by omega) hn] at e
    split at e
    · injection e with e; injection e with _ e; subst e; exact .inl rfl
    · rename_i a1 h1
      obtain ⟨g, hlt, -⟩ := ensureSpace_grown j h hp hm _ h1
      have e1 : a.cursor + (n - a.cursor) = n := by omega
      rw [e1] at g hlt
      rw [if_pos hlt]
      split at e
      · cases e
      · simpa only [Grown, resizeTail_size e] using g
  · exact .inl (resizeTail_size e)

end Verif.BA

namespace Verif

/-- Whatever the call returns satisfies `P`. -/
def Post {α : Type} (x : D α) (P : α → Prop) : Prop := ∀ a, Returns x a → P a

theorem Post.pure {α : Type} {P : α → Prop} {a : α} (h : P a) : Post (pure a : D α) P := by
  intro b hb; rw [returns_pure] at hb; exact hb ▸ h

theorem Post.liftC {α : Type} {P : α → Prop} {x : C α} (h : ∀ a, x = .ok a → P a) : Post (liftC x) P := by
  intro b hb; rw [returns_liftC] at hb; exact h b hb

theorem Post.bind {α β : Type} {x : D α} {f : α → D β} {P : β → Prop} (h : ∀ a, Returns x a → Post (f a) P) : Post (x >>= f) P := by
  intro b hb
  rcases hx : (x.run : Option (Except Err α)) with _ | (e | a)
  · have hx' : x = (none : Option (Except Err α)) := hx
    subst hx'; cases hb
  · have hx' : x = (some (.error e) : Option (Except Err α)) := hx
    subst hx'; cases hb
  · rw [returns_bind hx] at hb
    exact h a hx b hb

theorem Post.ite {α : Type} {c : Prop} [Decidable c] {x y : D α} {P : α → Prop} (h1 : c → Post x P) (h2 : ¬ c → Post y P) :
    Post (if c then x else y) P := by
  split <;> tauto

theorem post_admissible {α : Type} (P : α → Prop) : Lean.Order.admissible (fun x : D α => Post x P) :=
  Lean.Order.admissible_flatOrder (b := (none : Option (Except Err α))) _ (by intro a h; cases h)

end Verif

namespace Verif.Prioq

variable {α : Type} {cmp : α → α → Int}

theorem assign_max {q q' : PQ α} {slot : Nat} {v : α} (e : assign q slot v = .ok q') : q'.maxCapacity = q.maxCapacity := by
  unfold assign at e
  split at e
  · injection e with e; subst e; rfl
  · cases e

theorem lower_max (v : α) (q : PQ α) (slot : Nat) : Post (lower cmp q slot v) (fun q' => q'.maxCapacity = q.maxCapacity) := by
  refine lower.fixpoint_induct cmp v (fun f => ∀ (q : PQ α) (slot : Nat), Post (f q slot) (fun q' => q'.maxCapacity = q.maxCapacity)) ?_ ?_ q slot
  · refine Lean.Order.admissible_pi_apply (fun (q : PQ α) (g : Nat → D (PQ α)) => ∀ slot, Post (g slot) (fun q' => q'.maxCapacity = q.maxCapacity)) fun q => ?_
    refine Lean.Order.admissible_pi_apply (fun (_ : Nat) (x : D (PQ α)) => Post x (fun q' => q'.maxCapacity = q.maxCapacity)) fun slot => ?_
    exact post_admissible _
  · intro f ih q slot
    refine Post.ite (fun _ => Post.liftC fun _ => assign_max) fun _ => ?_
    refine Post.bind fun _ _ => Post.bind fun _ _ => ?_
    refine Post.ite (fun _ => Post.liftC fun _ => assign_max) fun _ => ?_
    refine Post.bind fun q1 h1 => ?_
    rw [returns_liftC] at h1
    have := assign_max h1
    intro q2 h2
    rw [ih q1 _ q2 h2, this]

theorem raise_max (v : α) (q : PQ α) (slot : Nat) : Post (raise cmp q slot v) (fun r => r.1.maxCapacity = q.maxCapacity) := by
  refine raise.fixpoint_induct cmp v (fun f => ∀ (q : PQ α) (slot : Nat), Post (f q slot) (fun r => r.1.maxCapacity = q.maxCapacity)) ?_ ?_ q slot
  · refine Lean.Order.admissible_pi_apply (fun (q : PQ α) (g : Nat → D (PQ α × Nat)) => ∀ slot, Post (g slot) (fun r => r.1.maxCapacity = q.maxCapacity)) fun q => ?_
    refine Lean.Order.admissible_pi_apply (fun (_ : Nat) (x : D (PQ α × Nat)) => Post x (fun r => r.1.maxCapacity = q.maxCapacity)) fun slot => ?_
    exact post_admissible _
  · intro f ih q slot
    refine Post.ite (fun _ => Post.pure rfl) fun _ => ?_
    refine Post.bind fun _ _ => ?_
    refine Post.ite (fun _ => Post.pure rfl) fun _ => ?_
    refine Post.bind fun q1 h1 => ?_
    rw [returns_liftC] at h1
    have := assign_max h1
    intro q2 h2
    rw [ih q1 _ q2 h2, this]

theorem growLoop_pow (limit : Nat) (hl : limit ≤ 2 ^ 60) : ∀ (k d : Nat), limit - 2 ^ k = d → 2 ^ k < 2 * limit →
    ∃ j, Returns (growLoop limit (2 ^ k)) (2 ^ j) ∧ limit ≤ 2 ^ j ∧ 2 ^ j < 2 * limit := by
  intro k d
  induction d using Nat.strongRecOn generalizing k with
  | _ d ih =>
    intro hk hb
    rw [growLoop]
    by_cases h : 2 ^ k < limit
    · rw [if_pos h, if_neg (by omega), wrap_of_lt (by omega)]
      have e : 2 * 2 ^ k = 2 ^ (k + 1) := by rw [Nat.pow_succ]; omega
      have : 0 < 2 ^ k := Nat.pow_pos (by omega)
      rw [e]
      exact ih _ (by omega) (k + 1) rfl (by omega)
    · rw [if_neg h]
      exact ⟨k, by simp, by omega, hb⟩

/-- The number of slots is zero or a power of two. -/
def Pow (q : PQ α) : Prop := q.maxCapacity = 0 ∨ ∃ k, q.maxCapacity = 2 ^ k

/-- What an operation does to the number of slots: it at least doubles when one more element than there are slots is stored. -/
def Grown (q q' : PQ α) : Prop :=
  q'.maxCapacity = q.maxCapacity ∨ 2 * q.maxCapacity ≤ q'.maxCapacity ∧ 0 < q'.maxCapacity ∧ q'.maxCapacity < 2 * (q.capacity + 1) ∧
    ∃ k, q'.maxCapacity = 2 ^ k

theorem grow_grown {q : PQ α} (hp : Pow q) (hl : q.capacity < 2 ^ 60) : Post (grow q) (Grown q) := by
  unfold grow
  refine Post.ite (fun e => ?_) fun _ => Post.pure (.inl rfl)
  rw [wrap_of_lt (by omega)]
  obtain ⟨j, h1, h2, h3⟩ := growLoop_pow (q.capacity + 1) (by omega) 0 _ rfl (by omega)
  rw [Nat.pow_zero] at h1
  rw [returns_bind h1]
  refine Post.pure (.inr ⟨?_, ?_, h3, j, rfl⟩)
  · simp only
    rcases hp with hp | ⟨k, hk⟩
    · omega
    · rw [hk, Nat.mul_comm, ← Nat.pow_succ]
      apply Nat.pow_le_pow_right (by omega)
      have : 2 ^ k < 2 ^ j := by omega
      have := (Nat.pow_lt_pow_iff_right (by omega : 1 < 2)).mp this
      omega
  · simp only; omega

theorem apply_grown [DecidableEq α] {q : PQ α} (hp : Pow q) (hl : q.capacity ≤ 2 ^ 60) (op : Spec.Prioq.Op α) :
    (∀ v, op = .enqueue v → q.capacity < 2 ^ 60) →
    Post (apply cmp q op) fun r => r.2.maxCapacity = q.maxCapacity ∨ (∃ v, op = .enqueue v) ∧ Grown q r.2 := by
  intro henq
  cases op with
  | enqueue v =>
    refine Post.bind fun q1 h1 => Post.pure (.inr ⟨⟨v, rfl⟩, ?_⟩)
    unfold enqueue at h1
    revert h1
    refine (Post.bind fun q2 h2 => ?_ : Post _ (Grown q)) q1
    have hg := grow_grown hp (henq v rfl) q2 h2
    refine Post.bind fun q3 h3 => Post.liftC fun q4 h4 => ?_
    have e1 := raise_max _ _ _ _ h3
    have e2 := assign_max h4
    simp only at e1
    simpa only [Grown, e2, e1] using hg
  | dequeue =>
    refine fun r h => .inl ?_
    revert h
    refine (?_ : Post (dequeue cmp q) fun r => r.2.maxCapacity = q.maxCapacity) r
    unfold dequeue
    refine Post.ite (fun _ => Post.pure rfl) fun _ => Post.ite (fun _ => Post.bind fun _ _ => Post.pure rfl) fun _ => ?_
    refine Post.bind fun _ _ => Post.bind fun _ _ => Post.bind fun q1 h1 => Post.pure ?_
    exact (lower_max _ _ _ _ h1 :)
  | peek => exact Post.bind fun _ _ => Post.pure (.inl rfl)
  | pop =>
    refine Post.liftC fun r h => .inl ?_
    unfold pop at h
    split at h
    · injection h with h; subst h; rfl
    · split at h
      · cases h
      · injection h with h; subst h; rfl
  | remove v =>
    refine Post.bind fun loc _ => Post.bind fun r h => Post.pure (.inl ?_)
    revert h
    refine (?_ : Post (remove cmp q loc) fun r => r.2.maxCapacity = q.maxCapacity) r
    unfold remove
    refine Post.bind fun _ _ => Post.bind fun _ _ => Post.bind fun q1 h1 => Post.bind fun q2 h2 => Post.pure ?_
    have e1 := raise_max _ _ _ _ h1
    have e2 := lower_max _ _ _ _ h2
    simp only at e1
    rw [e2, e1]
  | removeAt loc =>
    refine Post.bind fun r h => Post.pure (.inl ?_)
    revert h
    refine (?_ : Post (remove cmp q loc) fun r => r.2.maxCapacity = q.maxCapacity) r
    unfold remove
    refine Post.bind fun _ _ => Post.bind fun _ _ => Post.bind fun q1 h1 => Post.bind fun q2 h2 => Post.pure ?_
    have e1 := raise_max _ _ _ _ h1
    have e2 := lower_max _ _ _ _ h2
    simp only at e1
    rw [e2, e1]

end Verif.Prioq
