import Verif.Proofs.Cost
import Verif.Proofs.AvlBalance
import Verif.Props.Avl
import Verif.Props.HashTable
import Verif.Props.Prioq

/-! Property C108: how often the callbacks are needed. -/

set_option autoImplicit false

namespace Verif
open Verif.Spec.Cost

/-- Not vacuous: what depends on `n + 1` answers cannot be had with `n` questions. -/
example (cmp : Nat → Nat → Int) (n : Nat) : ¬ Asks (fun c : Nat → Nat → Int => (List.range (n + 1)).map (c 0)) cmp n := by
  rintro ⟨ps, h1, h2⟩
  obtain ⟨i, hi, hn⟩ : ∃ i < n + 1, (0, i) ∉ ps := by
    by_contra hc
    push Not at hc
    have hsub : (List.range (n + 1)).map (fun i => (0, i)) ⊆ ps := by
      intro x hx
      obtain ⟨i, hi, rfl⟩ := List.mem_map.1 hx
      exact hc i (List.mem_range.1 hi)
    have hnd : ((List.range (n + 1)).map (fun i => ((0 : Nat), i))).Nodup :=
      List.nodup_range.map (fun a b e => by simpa using e)
    have := (hnd.subperm hsub).length_le
    simp at this
    omega
  have := h2 (fun a b => if a = 0 ∧ b = i then cmp a b + 1 else cmp a b) (by
    intro p hp
    refine if_neg ?_
    rintro ⟨e1, e2⟩
    exact hn (by rw [← e1, ← e2]; exact hp))
  have h3 := List.map_inj_left.1 this i (List.mem_range.2 hi)
  simp at h3

/-- The same functions, but for the comparator `f` called with the context `d`, which answers with `c`. -/
def answering (F : Funs) (f d : Nat) (c : Nat → Nat → Int) : Funs := { F with cmp := fun x y => if x = f ∧ y = d then c else F.cmp x y }

namespace Prioq
open Verif.Spec.Prioq
variable {α : Type}

theorem enqueue_cost (cmp : α → α → Int) {q : PQ α} {ys : List α} (h : Full q ys) (hl : ys.length < 2 ^ 60) (v : α) :
    Asks (fun c => enqueue c q v) cmp (Nat.log 2 (size q + 1)) ∧
    ∀ q', Returns (enqueue cmp q v) q' → q'.trace.length ≤ q.trace.length + (Nat.log 2 (size q + 1) + 1) := by
  obtain ⟨q1, h1, h2, h3, h4⟩ := grow_spec h hl
  have hn : q1.capacity = q.capacity := by rw [h2.count, h.count]
  constructor
  · refine Asks.congr (fun c => by rw [enqueue, returns_bind h1]) ?_
    have := Asks.bind (cmp := cmp) (k := 0) (raise_asks v q1.capacity { q1 with capacity := wrap (q1.capacity + 1) })
      (g := fun _ r => liftC (assign r.1 r.2 v)) (fun x _ => Asks.const _ _)
    rw [Nat.add_zero, hn] at this
    rw [hn]
    exact this
  · intro q' hq
    rw [enqueue, returns_bind h1] at hq
    obtain ⟨⟨q2, s⟩, e1, e2⟩ := returns_bind_inv hq
    rw [returns_liftC] at e2
    have k1 := (raise_trace v _ _ _ _ e1).1
    have k2 := (assign_trace e2).1
    rw [hn] at k1
    simp only [size]
    have : q2.trace.length ≤ q.trace.length + Nat.log 2 (q.capacity + 1) := by rw [h4] at k1; omega
    simp only at k2
    omega

theorem dequeue_cost (cmp : α → α → Int) {q : PQ α} (hl : q.capacity ≤ 2 ^ 60) :
    Asks (fun c => dequeue c q) cmp (2 * Nat.log 2 (size q)) ∧
    ∀ r q', Returns (dequeue cmp q) (r, q') → q'.trace.length ≤ q.trace.length + (Nat.log 2 (size q) + 1) := by
  have hlog : Nat.log 2 (q.capacity - 1) ≤ Nat.log 2 (size q) := Nat.log_mono_right (by simp [size])
  by_cases h0 : q.capacity = 0
  · refine ⟨Asks.congr (fun c => by rw [dequeue, if_pos h0]) (Asks.const _ _), fun r q' h => ?_⟩
    rw [dequeue, if_pos h0] at h
    simp only [returns_pure, Prod.mk.injEq] at h
    rw [← h.2]; omega
  by_cases h1 : q.capacity = 1
  · refine ⟨Asks.congr (fun c => by rw [dequeue, if_neg h0, if_pos h1]) (Asks.const _ _), fun r q' h => ?_⟩
    rw [dequeue, if_neg h0, if_pos h1] at h
    obtain ⟨v, -, h⟩ := returns_bind_inv h
    simp only [returns_pure, Prod.mk.injEq] at h
    rw [← h.2]; simp only; omega
  constructor
  · refine Asks.congr (fun c => by rw [dequeue, if_neg h0, if_neg h1]) ?_
    have e : 2 * Nat.log 2 (size q) = 0 + (0 + (2 * Nat.log 2 (size q) + 0)) := by omega
    rw [e]
    refine Asks.bind (Asks.const _ 0) fun v _ => Asks.bind (Asks.const _ 0) fun other _ => Asks.bind ?_ fun _ _ => Asks.const _ _
    refine Asks.mono (lower_asks other _ 0 { q with capacity := q.capacity - 1 } rfl (by simp only; omega) (by omega)) ?_
    simp only
    omega
  · intro r q' h
    rw [dequeue, if_neg h0, if_neg h1] at h
    obtain ⟨v, -, h⟩ := returns_bind_inv h
    obtain ⟨other, -, h⟩ := returns_bind_inv h
    obtain ⟨q2, h2, h⟩ := returns_bind_inv h
    simp only [returns_pure, Prod.mk.injEq] at h
    rw [← h.2]
    have := lower_trace other _ 0 _ q2 rfl (by simp only; omega) (by omega) h2
    simp only at this
    omega

theorem remove_cost (cmp : α → α → Int) {q : PQ α} (hl : q.capacity ≤ 2 ^ 60) {slot : Nat} (hs : slot < q.capacity) :
    Asks (fun c => remove c q slot) cmp (3 * Nat.log 2 (size q)) ∧
    ∀ r q', Returns (remove cmp q slot) (r, q') → q'.trace.length ≤ q.trace.length + (2 * Nat.log 2 (size q) + 1) := by
  have hlog : Nat.log 2 (q.capacity - 1) ≤ Nat.log 2 (size q) := Nat.log_mono_right (by simp [size])
  have hslot : Nat.log 2 (slot + 1) ≤ Nat.log 2 (size q) := Nat.log_mono_right (by simp [size]; omega)
  have w : wrap (q.capacity + (2 ^ 64 - 1)) = q.capacity - 1 := by
    rw [wrap]
    have : q.capacity + (2 ^ 64 - 1) = (q.capacity - 1) + 2 ^ 64 := by omega
    rw [this, Nat.add_mod_right]
    exact Nat.mod_eq_of_lt (by omega)
  have small : ∀ {v : α} {q' : PQ α} {s' : Nat}, Returns (raise cmp { q with capacity := q.capacity - 1 } slot v) (q', s') → s' ≤ slot := by
    intro v
    suffices H : ∀ (slot : Nat) (q q' : PQ α) (s' : Nat), Returns (raise cmp q slot v) (q', s') → s' ≤ slot from fun {_ _} h => H _ _ _ _ h
    intro slot
    induction slot using Nat.strongRecOn with
    | _ slot ih =>
      intro q q' s' h
      rw [raise] at h
      by_cases h0 : slot = 0
      · rw [if_pos h0] at h
        simp only [returns_pure, Prod.mk.injEq] at h
        omega
      · rw [if_neg h0] at h
        obtain ⟨p, -, h⟩ := returns_bind_inv h
        split at h
        · simp only [returns_pure, Prod.mk.injEq] at h
          omega
        · obtain ⟨q1, -, h⟩ := returns_bind_inv h
          have := ih _ (by omega) _ _ _ h
          omega
  constructor
  · refine Asks.congr (fun c => by rw [remove]) ?_
    simp only [w]
    have e : 3 * Nat.log 2 (size q) = 0 + (0 + (Nat.log 2 (size q) + (2 * Nat.log 2 (size q) + 0))) := by omega
    rw [e]
    refine Asks.bind (Asks.const _ 0) fun v _ => Asks.bind (Asks.const _ 0) fun other _ =>
      Asks.bind (Asks.mono (raise_asks other slot _) hslot) fun x hx => Asks.bind ?_ fun _ _ => Asks.const _ _
    have hcap := (raise_trace other _ _ x.1 x.2 hx).2
    have hle := small (q' := x.1) (s' := x.2) hx
    simp only at hcap
    refine Asks.mono (lower_asks other _ x.2 x.1 rfl (by omega) (by omega)) ?_
    rw [hcap]
    omega
  · intro r q' h
    rw [remove] at h
    simp only [w] at h
    obtain ⟨v, -, h⟩ := returns_bind_inv h
    obtain ⟨other, -, h⟩ := returns_bind_inv h
    obtain ⟨⟨q1, s1⟩, h1, h⟩ := returns_bind_inv h
    obtain ⟨q2, h2, h⟩ := returns_bind_inv h
    simp only [returns_pure, Prod.mk.injEq] at h
    rw [← h.2]
    obtain ⟨k1, hcap⟩ := raise_trace other _ _ _ _ h1
    have hle := small h1
    simp only at hcap k1 h2
    have := lower_trace other _ s1 q1 q2 rfl (by omega) (by omega) h2
    rw [hcap] at this
    omega

/-- C108: whatever has been done with a queue, with any comparator, the next call on its `n` elements consults the comparator about `O(log n)` pairs and calls
`reloc` `O(log n)` times; `priorq_peek` and `priorq_pop` do neither. -/
theorem priorq_cost [DecidableEq α] (cmp : α → α → Int) (ops : List (Op α)) (h : Counted 0 ops) :
    ∃ rs q, Returns (run cmp make ops) (rs, q) ∧ size q = countAfter 0 ops ∧ ∀ op, Counted (size q) [op] →
      Asks (fun c => apply c q op) cmp (questions (size q) op) ∧
      ∀ r q', Returns (apply cmp q op) (r, q') → q'.trace.length ≤ q.trace.length + relocations (size q) op := by
  obtain ⟨rs, q, ys, h1, h2, h3, h4⟩ := run_full cmp ops h
  have hc := h2.count
  refine ⟨rs, q, h1, h4, fun op hop => ?_⟩
  cases op with
  | enqueue v =>
    obtain ⟨k1, k2⟩ := enqueue_cost cmp h2 (by have := hop.1; simp only [size] at this; omega) v
    refine ⟨Asks.map (fun x : D (PQ α) => x >>= fun q => pure (none, q)) k1, fun r q' hq => ?_⟩
    obtain ⟨q1, e1, e2⟩ := returns_bind_inv hq
    simp only [returns_pure, Prod.mk.injEq] at e2
    rw [← e2.2]
    exact k2 _ e1
  | dequeue => exact dequeue_cost cmp (by omega)
  | peek =>
    refine ⟨Asks.const _ _, fun r q' hq => ?_⟩
    obtain ⟨x, -, e2⟩ := returns_bind_inv hq
    simp only [returns_pure, Prod.mk.injEq] at e2
    rw [← e2.2]; omega
  | pop =>
    refine ⟨Asks.const _ _, fun r q' hq => ?_⟩
    simp only [apply, returns_liftC, pop] at hq
    split at hq
    · cases hq; omega
    · split at hq
      · cases hq
      · cases hq; simp
  | remove v => exact absurd hop (by simp [Counted])
  | removeAt slot =>
    obtain ⟨k1, k2⟩ := remove_cost cmp (q := q) (slot := slot) (by omega) hop.1
    refine ⟨Asks.map (fun x : D (α × PQ α) => x >>= fun r => pure (some r.1, r.2)) k1, fun r q' hq => ?_⟩
    obtain ⟨x, e1, e2⟩ := returns_bind_inv hq
    simp only [returns_pure, Prod.mk.injEq] at e2
    rw [← e2.2]
    exact k2 x.1 x.2 e1

/-- The hypotheses are met, and a queue of a thousand elements is dequeued from with at most 18 comparisons. -/
example : Counted 0 ([.enqueue 3, .enqueue 1, .removeAt 1, .dequeue, .pop] : List (Op Nat)) ∧ questions 1000 (.dequeue : Op Nat) = 18 ∧
    relocations 1000 (.dequeue : Op Nat) = 10 := by
  refine ⟨by simp [Counted], ?_, ?_⟩ <;> simp only [questions, relocations] <;> decide +kernel

end Prioq

namespace Avl
open Verif.Spec.Avl

/-- C108: after every program, with any comparator, each call that looks for a key in a tree of `n` elements consults the tree's comparator about at
most `2 log (n+1)` pairs, and every other call about none. -/
theorem avl_cost {A : Alloc} (hA : A.Good) (F : Funs) (f d : Nat) (p : Prog) (m0 : Mem) (hp : Legal (F.cmp f d) p ⟨0, 0⟩) :
    ∃ rs m s, Run (exec A F f d p) m0 rs m ∧ Runs (F.cmp f d) p ⟨0, 0⟩ rs s ∧
      (∀ op, searched op = none → Asks (fun c => call A (answering F f d c) f d op m) (F.cmp f d) 0) ∧
      ∀ t items, (t, items) ∈ s.trees → ∀ op, searched op = some t →
        Asks (fun c => call A (answering F f d c) f d op m) (F.cmp f d) (2 * Nat.log 2 (items.length + 1)) := by
  letI : Ptrs := ⟨0, f, d, 0⟩
  obtain ⟨rs, m, s, h1, h2, h3⟩ := exec_inv hA m0 hp
  refine ⟨rs, m, s, h1, h2, fun op hop => ?_, fun tree items ht op hop => ?_⟩
  · cases op <;> first | exact Asks.const _ _ | (simp [searched] at hop)
  refine Asks.congr (g := fun c => callWith A c op m) (fun c => ?_) ?_
  · have hs : Run (stored (answering F f d c) tree) m c m := by
      have := stored_spec (F := answering F f d c) h3 ⟨_, ht, rfl⟩
      rwa [show (answering F f d c).cmp Ptrs.cmp Ptrs.obj = c from if_pos ⟨rfl, rfl⟩] at this
    cases op <;> simp only [searched, Option.some.injEq, reduceCtorEq] at hop <;> subst hop <;> exact run_bind_eq hs
  obtain ⟨ws, det, h, rfl⟩ := h3
  simp only [Multiset.mem_coe, List.mem_map] at ht
  obtain ⟨w, hw, e⟩ := ht
  obtain ⟨rfl, rfl⟩ : w.1 = tree ∧ w.2.items = items := by simpa [view] using e
  have hg := h.good w hw
  have hh := hg.bal.height_le
  have hr := run_root hg.z
  cases op <;> simp only [searched, Option.some.injEq, reduceCtorEq] at hop <;> subst hop
  · exact Asks.thenM _ (Asks.mono (treePut_asks hA hg.z _ _) hh)
  · exact Asks.thenM _ (Asks.mono (Asks.congr (fun c => by rw [get, run_bind_eq hr]) (getLoop_asks _ _ _ hg.z.sub)) hh)
  · exact Asks.thenM _ (Asks.mono (Asks.congr (fun c => by rw [getBefore, run_bind_eq hr]) (beforeLoop_asks _ _ _ 0 hg.z.sub)) hh)
  · exact Asks.thenM _ (Asks.mono (Asks.congr (fun c => by rw [getOnOrBefore, run_bind_eq hr]) (onOrBeforeLoop_asks _ _ _ 0 hg.z.sub)) hh)
  · exact Asks.thenM _ (Asks.mono (Asks.congr (fun c => by rw [getAfter, run_bind_eq hr]) (afterLoop_asks _ _ _ 0 hg.z.sub)) hh)
  · exact Asks.thenM _ (Asks.mono (Asks.congr (fun c => by rw [getOnOrAfter, run_bind_eq hr]) (onOrAfterLoop_asks _ _ _ 0 hg.z.sub)) hh)
  · refine Asks.thenM _ (Asks.thenM _ (Asks.mono ?_ hh))
    exact Asks.congr (fun c => by rw [get, run_bind_eq hr]) (getLoop_asks _ _ _ hg.z.sub)

/-- The hypotheses are met: a program that stores something, after which a search of one element is at stake. -/
example : Order (fun a b => (a : Int) - b) ∧ Legal (fun a b => (a : Int) - b)
    (.call .make fun | .ptr t => .call (.put t 7 70) fun _ => .done | _ => .done) ⟨0, 0⟩ ∧ searched (.get 5 7) = some 5 := by
  refine ⟨order_int, ⟨trivial, fun r1 s1 h1 => ?_⟩, rfl⟩
  obtain ⟨t, rfl, ht⟩ := make_has h1 rfl
  exact ⟨ht, fun _ _ _ => trivial⟩

end Avl

namespace Hash
open Verif.Spec.Hash

/-- C108: a table made for `n` elements has a number of buckets, `n` or more unless `n` exceeds the largest size, and a call that looks for a key
consults the comparator about at most as many pairs as there are elements whose hash codes agree with that of the key modulo that number; every other
call about none. -/
theorem hash_cost {A : Alloc} (hA : A.Good) {F : Funs} {f g : Nat} (hc : Compatible (F.hash f) (F.cmp g 0)) (n : Nat) (p : Prog)
    (m0 : Mem) (hp : Legal (eqv (F.cmp g 0)) p ⟨0, 0⟩) :
    ∃ d t rs m s, Run (session A F f g n p) m0 (t, rs) m ∧ Runs (eqv (F.cmp g 0)) p ⟨0, 0⟩ rs s ∧ min n 1610612741 ≤ d ∧
      (∀ op, soughtKey op = none → Asks (fun c => call A (answering F g 0 c) t op m) (F.cmp g 0) 0) ∧
      ∀ op k, soughtKey op = some k → Asks (fun c => call A (answering F g 0 c) t op m) (F.cmp g 0)
        (s.items.filter (fun i => F.hash f i.key % d = F.hash f k % d)).card := by
  letI : Ptrs := ⟨f, g, 0, 0⟩
  rw [← sees_eq hc (capacity n)] at hp ⊢
  obtain ⟨⟨⟨t, rs⟩, m, h1, s, h2, h3⟩⟩ := session_sim (m0 := m0) hA hp
  refine ⟨capacity n, t, rs, m, s, h1, h2, ?_, fun op hop => ?_, fun op k hop => ?_⟩
  · have := (capacity_spec n).2.2.2; omega
  · cases op <;> first | exact Asks.const _ _ | (simp [soughtKey] at hop)
  refine Asks.congr (g := fun c => callWith A (F.hash f) c t op m) (fun c => ?_) ?_
  · have hs := storedCmp_spec (F := answering F g 0 c) h3
    rw [show (answering F g 0 c).cmp Ptrs.cmp 0 = c from if_pos ⟨rfl, rfl⟩] at hs
    have hh : Run (storedHash (answering F g 0 c) t) m (F.hash f) m := storedHash_spec h3
    cases op <;> simp only [soughtKey, Option.some.injEq, reduceCtorEq] at hop <;> subst hop <;> exact (run_bind_eq hh).trans (run_bind_eq hs)
  obtain ⟨-, tb, bs, det, h, hi, -⟩ := h3
  rw [hi, Multiset.filter_coe, Multiset.coe_card]
  cases op <;> simp only [soughtKey, Option.some.injEq, reduceCtorEq] at hop <;> subst hop
  · exact Asks.thenM _ (put_asks h _ _)
  · exact Asks.thenM _ (get_asks h _)
  · exact Asks.thenM _ (Asks.thenM _ (get_asks h _))

/-- The hypotheses are met by a hash function and a comparator that agree and a program that stores two keys. -/
example : Compatible (fun k => k) (fun a b => (a : Int) - b) ∧
    Legal (eqv (fun a b => (a : Int) - b)) (.call (.put 1 10) fun _ => .call (.put 2 20) fun _ => .done) ⟨0, 0⟩ ∧ soughtKey (.get 2) = some 2 :=
  ⟨⟨by simp, by intro a b; omega, by intro a b c; omega, by intro a b; omega⟩, ⟨trivial, fun _ _ _ => ⟨trivial, fun _ _ _ => trivial⟩⟩, rfl⟩

end Hash
end Verif
