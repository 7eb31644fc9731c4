import Verif.Model.Objects
import Verif.Proofs.Owned

/-! Sets, priority queues and byte arrays on pointer memory do what their functional models do. -/

namespace Verif.Objects
open Verif.Owned (returns_bind_inv returns_bind_of)
set_option autoImplicit false

/-- Memory `m'` is `m` but for an object that occupied `F` and now occupies `F'`. -/
structure Upd (m m' : Mem) (F F' : List Nat) : Prop where
  grow : ∀ x ∈ F', x ∈ F ∨ m.get x = none
  frame : ∀ x, x ∉ F' → m'.get x = if x ∈ F then none else m.get x

theorem Upd.refl (m : Mem) (F : List Nat) : Upd m m F F := ⟨fun _ h => .inl h, fun x h => by rw [if_neg h]⟩

theorem Upd.trans {m m1 m2 : Mem} {F F1 F2 : List Nat} (h : Upd m m1 F F1) (h' : Upd m1 m2 F1 F2) : Upd m m2 F F2 := by
  refine ⟨fun x hx => ?_, fun x hx => ?_⟩
  · rcases h'.grow x hx with h1 | h1
    · exact h.grow x h1
    · by_cases hx1 : x ∈ F1
      · exact h.grow x hx1
      · rw [h.frame x hx1] at h1
        by_cases hF : x ∈ F
        · exact .inl hF
        · rw [if_neg hF] at h1; exact .inr h1
  · rw [h'.frame x hx]
    by_cases hx1 : x ∈ F1
    · rw [if_pos hx1]
      by_cases hF : x ∈ F
      · rw [if_pos hF]
      · rw [if_neg hF]
        rcases h.grow x hx1 with h1 | h1
        · exact absurd h1 hF
        · exact h1.symm
    · rw [if_neg hx1]; exact h.frame x hx1

/-- Changes inside the footprint. -/
theorem Upd.inside {m m' : Mem} {F : List Nat} (h : ∀ x, x ∉ F → m'.get x = m.get x) : Upd m m' F F :=
  ⟨fun _ hx => .inl hx, fun x hx => by rw [if_neg hx]; exact h x hx⟩

theorem Upd.old {m m' : Mem} {F F' : List Nat} (h : Upd m m' F F') {x : Nat} {c : Cell} (hx : m.get x = some c) (hF : x ∉ F) : m'.get x = some c := by
  by_cases hx' : x ∈ F'
  · rcases h.grow x hx' with h1 | h1
    · exact absurd h1 hF
    · rw [hx] at h1; cases h1
  · rw [h.frame x hx', if_neg hF]; exact hx

/-- The blocks of an object: its struct and, unless NULL, its array. -/
def foot (a d : Nat) : List Nat := if d = 0 then [a] else [a, d]

variable {A : Alloc} {m : Mem} {a d : Nat}

/-! ### Sets -/

/-- A set in memory. -/
structure SetAt (m : Mem) (a d : Nat) (s : IntSet.IntSet) : Prop where
  nonnull : a ≠ 0
  header : m.get a = some (.iset ⟨s.size, d⟩)
  array : (d = 0 ∧ s.data = []) ∨ (d ≠ 0 ∧ d ≠ a ∧ m.get d = some (.words s.data))

theorem makeIntset_spec (hA : A.Good) (m : Mem) (null : Bool) (n : UInt64) :
    Does (makeIntset A null n) m (fun a m' => ∃ d, SetAt m' a d (IntSet.make n) ∧ Upd m m' [] (foot a d)) := by
  have hs0 := hA.nonnull m
  have hsn := hA.fresh m
  refine Does.bind (does_alloc hA ?_)
  generalize A.pick m = a at *
  steps
  refine Does.bind (does_readIS hs0 (Mem.get_set_self _ _ _) (Does.bind (does_write hs0 (Mem.get_set_self _ _ _) (Does.bind ?_))))
  unfold callocWords
  have key : ∀ x, x ≠ a → ∀ c c', ((m.set a c).set a c').get x = m.get x := fun x hx c c' => by
    rw [Mem.get_set_ne (Ne.symm hx), Mem.get_set_ne (Ne.symm hx)]
  by_cases hn : (IntSet.bitsToLongs n).toNat = 0 ∧ null = true
  · rw [if_pos hn]
    refine Does.pure (Does.bind (does_readIS hs0 (Mem.get_set_self _ _ _) (Does.bind (does_write hs0 (Mem.get_set_self _ _ _) (Does.pure
      ⟨0, ⟨hs0, Mem.get_set_self _ _ _, .inl ⟨rfl, by simp [IntSet.make, hn.1]⟩⟩, ⟨fun x hx => ?_, fun x hx => ?_⟩⟩)))))
    · simp only [foot, if_true, List.mem_singleton] at hx; subst hx; exact .inr hsn
    · simp only [foot, if_true, List.mem_singleton] at hx
      rw [if_neg (by simp), Mem.get_set_ne (Ne.symm hx), key x hx]
  · rw [if_neg hn]
    generalize hm1 : (m.set a (.iset ⟨UInt64.ofNat A.junk, A.junk⟩)).set a (.iset ⟨n, A.junk⟩) = m1
    have hm1' : ∀ x, x ≠ a → m1.get x = m.get x := fun x hx => by rw [← hm1]; exact key x hx _ _
    have hm1a : m1.get a = some (.iset ⟨n, A.junk⟩) := by rw [← hm1]; exact Mem.get_set_self _ _ _
    have hd0 := hA.nonnull m1
    have hdn := hA.fresh m1
    refine does_alloc hA ?_
    generalize A.pick m1 = d at *
    have hda : d ≠ a := by rintro rfl; rw [hm1a] at hdn; cases hdn
    refine Does.bind (does_readIS hs0 (by rw [Mem.get_set_ne hda]; exact hm1a) (Does.bind (does_write hs0 (by rw [Mem.get_set_ne hda]; exact hm1a) (Does.pure
      ⟨d, ⟨hs0, Mem.get_set_self _ _ _, .inr ⟨hd0, hda, ?_⟩⟩, ⟨fun x hx => ?_, fun x hx => ?_⟩⟩))))
    · rw [Mem.get_set_ne (Ne.symm hda), Mem.get_set_self]; rfl
    · simp only [foot, hd0, if_false, List.mem_cons, List.not_mem_nil, or_false] at hx
      rcases hx with rfl | rfl
      · exact .inr hsn
      · rw [hm1' _ hda] at hdn; exact .inr hdn
    · simp only [foot, hd0, if_false, List.mem_cons, List.not_mem_nil, or_false, not_or] at hx
      rw [if_neg (by simp), Mem.get_set_ne (Ne.symm hx.1), Mem.get_set_ne (Ne.symm hx.2), hm1' _ hx.1]

/-- Freeing both blocks of an object. -/
theorem free_both {c : Cell} (h0 : a ≠ 0) (ha : m.get a = some c) (hd : d = 0 ∨ (d ≠ 0 ∧ d ≠ a ∧ ∃ c', m.get d = some c')) :
    Does (do M.free d; M.free a) m (fun _ m' => Upd m m' (foot a d) []) := by
  rcases hd with rfl | ⟨hd0, hda, c', hd⟩
  · refine Does.bind (does_free_null (does_free h0 ha ⟨by simp, fun x _ => ?_⟩))
    rw [Mem.get_del]
    by_cases hx : a = x
    · subst hx; simp [foot]
    · rw [if_neg hx, if_neg (by simp [foot]; exact Ne.symm hx)]
  · refine Does.bind (does_free hd0 hd (does_free h0 (by rw [Mem.get_del_ne hda]; exact ha) ⟨by simp, fun x _ => ?_⟩))
    rw [Mem.get_del, Mem.get_del]
    simp only [foot, hd0, if_false, List.mem_cons, List.not_mem_nil, or_false]
    by_cases hx : a = x
    · simp [hx]
    · by_cases hx' : d = x
      · simp [hx']
      · rw [if_neg hx, if_neg hx', if_neg (by rintro (h | h) <;> simp_all)]

theorem destroyIntset_spec {s : IntSet.IntSet} (h : SetAt m a d s) : Does (destroyIntset a) m (fun _ m' => Upd m m' (foot a d) []) := by
  refine Does.bind (does_readIS h.nonnull h.header (free_both h.nonnull h.header ?_))
  rcases h.array with h1 | h1
  · exact .inl h1.1
  · exact .inr ⟨h1.1, h1.2.1, _, h1.2.2⟩

theorem intsetCall_spec {α : Type} {f : IntSet.IntSet → D (α × IntSet.IntSet)} {s s' : IntSet.IntSet} {r : α} (h : SetAt m a d s)
    (hf : Returns (f s) (r, s')) (he : d = 0 → s'.data = []) :
    Does (intsetCall f a) m (fun r' m' => r' = r ∧ SetAt m' a d s' ∧ Upd m m' (foot a d) (foot a d)) := by
  refine Does.bind (does_readIS h.nonnull h.header (Does.bind ?_))
  rcases h.array with ⟨rfl, h2⟩ | ⟨h1, h2, h3⟩
  · unfold loadWords storeWords
    rw [if_pos rfl]
    have hf' : Returns (f ⟨[], s.size⟩) (r, s') := by rw [← h2]; exact hf
    refine Does.pure (Does.bind (does_lift hf' (Does.bind ?_)))
    rw [if_pos rfl]
    refine Does.pure (Does.bind (does_write h.nonnull h.header (Does.pure ⟨rfl, ⟨h.nonnull, Mem.get_set_self _ _ _, .inl ⟨rfl, he rfl⟩⟩, Upd.inside fun x hx => ?_⟩)))
    exact Mem.get_set_ne (by rintro rfl; exact hx (by simp [foot])) _
  · unfold loadWords storeWords
    rw [if_neg h1]
    refine does_readWords h1 h3 (Does.bind (does_lift (r := (r, s')) hf (Does.bind ?_)))
    rw [if_neg h1]
    refine does_write h1 h3 (Does.bind (does_write h.nonnull (by rw [Mem.get_set_ne h2]; exact h.header) (Does.pure
      ⟨rfl, ⟨h.nonnull, Mem.get_set_self _ _ _, .inr ⟨h1, h2, by rw [Mem.get_set_ne (Ne.symm h2)]; exact Mem.get_set_self _ _ _⟩⟩, Upd.inside fun x hx => ?_⟩)))
    simp only [foot, h1, if_false, List.mem_cons, List.not_mem_nil, or_false, not_or] at hx
    rw [Mem.get_set_ne (Ne.symm hx.1), Mem.get_set_ne (Ne.symm hx.2)]

/-! ### Priority queues -/

section
variable [Ptrs]

/-- A priority queue in memory. -/
structure QueueAt (m : Mem) (a d : Nat) (q : Prioq.PQ Nat) : Prop where
  nonnull : a ≠ 0
  header : m.get a = some (.pqueue ⟨d, q.capacity, q.maxCapacity, q.trace, Ptrs.cmp, Ptrs.reloc, Ptrs.obj⟩)
  array : (d = 0 ∧ q.storage = []) ∨ (d ≠ 0 ∧ d ≠ a ∧ m.get d = some (.slots q.storage))

theorem makePrioq_spec (hA : A.Good) (m : Mem) {F : Funs} {r : Nat} (hr : Ptrs.reloc = if r ≠ 0 then r else F.dummyReloc) :
    Does (makePrioq A F Ptrs.cmp r Ptrs.obj) m (fun a m' => QueueAt m' a 0 Prioq.make ∧ Upd m m' [] (foot a 0)) := by
  have hs0 := hA.nonnull m
  have hsn := hA.fresh m
  refine Does.bind (does_alloc hA ?_)
  generalize A.pick m = a at *
  rw [← hr]
  refine Does.bind (does_readPQ hs0 (Mem.get_set_self _ _ _) (Does.bind (does_write hs0 (Mem.get_set_self _ _ _) ?_)))
  refine Does.bind (does_readPQ hs0 (Mem.get_set_self _ _ _) (Does.bind (does_write hs0 (Mem.get_set_self _ _ _) ?_)))
  refine Does.bind (does_readPQ hs0 (Mem.get_set_self _ _ _) (Does.bind (does_write hs0 (Mem.get_set_self _ _ _) ?_)))
  refine Does.bind (does_readPQ hs0 (Mem.get_set_self _ _ _) (Does.bind (does_write hs0 (Mem.get_set_self _ _ _) ?_)))
  refine Does.bind (does_readPQ hs0 (Mem.get_set_self _ _ _) (Does.bind (does_write hs0 (Mem.get_set_self _ _ _) ?_)))
  refine Does.bind (does_readPQ hs0 (Mem.get_set_self _ _ _) (Does.bind (does_write hs0 (Mem.get_set_self _ _ _) (Does.pure
    ⟨⟨hs0, Mem.get_set_self _ _ _, .inl ⟨rfl, rfl⟩⟩, ⟨fun x hx => ?_, fun x hx => ?_⟩⟩))))
  · simp only [foot, if_true, List.mem_singleton] at hx; subst hx; exact .inr hsn
  · simp only [foot, if_true, List.mem_singleton] at hx
    rw [if_neg (by simp), Mem.get_set_ne (Ne.symm hx), Mem.get_set_ne (Ne.symm hx), Mem.get_set_ne (Ne.symm hx), Mem.get_set_ne (Ne.symm hx),
      Mem.get_set_ne (Ne.symm hx), Mem.get_set_ne (Ne.symm hx), Mem.get_set_ne (Ne.symm hx)]

theorem destroyPrioq_spec {q : Prioq.PQ Nat} (h : QueueAt m a d q) : Does (destroyPrioq a) m (fun _ m' => Upd m m' (foot a d) []) := by
  refine Does.bind (does_readPQ h.nonnull h.header (free_both h.nonnull h.header ?_))
  rcases h.array with h1 | h1
  · exact .inl h1.1
  · exact .inr ⟨h1.1, h1.2.1, _, h1.2.2⟩

theorem prioqCall_spec {α : Type} {f : Prioq.PQ Nat → D (α × Prioq.PQ Nat)} {q q' : Prioq.PQ Nat} {r : α} (h : QueueAt m a d q)
    (hf : Returns (f q) (r, q')) (he : d = 0 → q'.storage = []) :
    Does (prioqCall f a) m (fun r' m' => r' = r ∧ QueueAt m' a d q' ∧ Upd m m' (foot a d) (foot a d)) := by
  refine Does.bind (does_readPQ h.nonnull h.header (Does.bind ?_))
  rcases h.array with ⟨rfl, h2⟩ | ⟨h1, h2, h3⟩
  · unfold loadSlots storeSlots
    rw [if_pos rfl]
    have hf' : Returns (f ⟨[], q.capacity, q.maxCapacity, q.trace⟩) (r, q') := by rw [← h2]; exact hf
    refine Does.pure (Does.bind (does_lift hf' (Does.bind ?_)))
    rw [if_pos rfl]
    refine Does.pure (Does.bind (does_write h.nonnull h.header (Does.pure ⟨rfl, ⟨h.nonnull, Mem.get_set_self _ _ _, .inl ⟨rfl, he rfl⟩⟩, Upd.inside fun x hx => ?_⟩)))
    exact Mem.get_set_ne (by rintro rfl; exact hx (by simp [foot])) _
  · unfold loadSlots storeSlots
    rw [if_neg h1]
    refine does_readSlots h1 h3 (Does.bind (does_lift (r := (r, q')) hf (Does.bind ?_)))
    rw [if_neg h1]
    refine does_write h1 h3 (Does.bind (does_write h.nonnull (by rw [Mem.get_set_ne h2]; exact h.header) (Does.pure
      ⟨rfl, ⟨h.nonnull, Mem.get_set_self _ _ _, .inr ⟨h1, h2, by rw [Mem.get_set_ne (Ne.symm h2)]; exact Mem.get_set_self _ _ _⟩⟩, Upd.inside fun x hx => ?_⟩)))
    simp only [foot, h1, if_false, List.mem_cons, List.not_mem_nil, or_false, not_or] at hx
    rw [Mem.get_set_ne (Ne.symm hx.1), Mem.get_set_ne (Ne.symm hx.2)]

theorem growPrioq_spec (hA : A.Good) {q q' : Prioq.PQ Nat} (h : QueueAt m a d q) (hg : Returns (Prioq.grow q) q') :
    Does (growPrioq A a) m (fun _ m' => ∃ d', QueueAt m' a d' q' ∧ Upd m m' (foot a d) (foot a d') ∧ (q.capacity = q.maxCapacity → d' ≠ 0)) := by
  unfold Prioq.grow at hg
  refine Does.bind (does_readPQ h.nonnull h.header ?_)
  by_cases hc : q.capacity = q.maxCapacity
  · rw [if_pos hc] at hg
    obtain ⟨n, hn, hg⟩ := returns_bind_inv hg
    rw [returns_pure] at hg
    subst hg
    refine does_pos hc (Does.bind (does_lift hn (Does.bind (does_write h.nonnull h.header (Does.bind (does_readPQ h.nonnull (Mem.get_set_self _ _ _) (Does.bind ?_)))))))
    generalize hm1 : m.set a (.pqueue ⟨d, q.capacity, n, q.trace, Ptrs.cmp, Ptrs.reloc, Ptrs.obj⟩) = m1
    have hm1a : m1.get a = some (.pqueue ⟨d, q.capacity, n, q.trace, Ptrs.cmp, Ptrs.reloc, Ptrs.obj⟩) := by rw [← hm1]; exact Mem.get_set_self _ _ _
    have hm1x : ∀ x, x ≠ a → m1.get x = m.get x := fun x hx => by rw [← hm1]; exact Mem.get_set_ne (Ne.symm hx) _
    have fin : ∀ m2 : Mem, (∀ x, x ≠ d → m2.get x = m1.get x) → (d ≠ 0 → d ≠ a ∧ m2.get d = none) → (d = 0 → m2.get 0 = m1.get 0) →
        Does (M.alloc A (.slots (Prioq.realloc q.storage n)) >>= fun s => M.write a (.pqueue ⟨s, q.capacity, n, q.trace, Ptrs.cmp, Ptrs.reloc, Ptrs.obj⟩)) m2
          (fun _ m' => ∃ d', QueueAt m' a d' { q with storage := Prioq.realloc q.storage n, maxCapacity := n } ∧ Upd m m' (foot a d) (foot a d') ∧
            (q.capacity = q.maxCapacity → d' ≠ 0)) := by
      intro m2 hx hd hd0
      have hp0 := hA.nonnull m2
      have hpn := hA.fresh m2
      have hm2a : m2.get a = some (.pqueue ⟨d, q.capacity, n, q.trace, Ptrs.cmp, Ptrs.reloc, Ptrs.obj⟩) := by
        by_cases e : d = a
        · by_cases e0 : d = 0
          · exact absurd (e.symm.trans e0) h.nonnull
          · exact absurd e (hd e0).1
        · rw [hx a (Ne.symm e)]; exact hm1a
      refine Does.bind (does_alloc hA ?_)
      generalize A.pick m2 = p at *
      have hpa : p ≠ a := by rintro rfl; rw [hm2a] at hpn; cases hpn
      refine does_write h.nonnull (by rw [Mem.get_set_ne hpa]; exact hm2a) ⟨p, ⟨h.nonnull, Mem.get_set_self _ _ _, .inr ⟨hp0, hpa, ?_⟩⟩, ⟨?_, ?_⟩, fun _ => hp0⟩
      · rw [Mem.get_set_ne (Ne.symm hpa)]; exact Mem.get_set_self _ _ _
      · intro x hxf
        simp only [foot, hp0, if_false, List.mem_cons, List.not_mem_nil, or_false] at hxf
        rcases hxf with rfl | rfl
        · left; unfold foot; split <;> simp
        · by_cases e : x = d
          · subst e; left; simp [foot, hp0]
          · right; rw [← hm1x _ hpa, ← hx _ e]; exact hpn
      · intro x hxf
        simp only [foot, hp0, if_false, List.mem_cons, List.not_mem_nil, or_false, not_or] at hxf
        rw [Mem.get_set_ne (Ne.symm hxf.1), Mem.get_set_ne (Ne.symm hxf.2)]
        by_cases e : x = d
        · subst e
          by_cases e0 : x = 0
          · subst e0
            rw [if_neg (by simp [foot]; exact fun e => h.nonnull e.symm), hd0 rfl, hm1x _ hxf.1]
          · rw [if_pos (by simp [foot, e0]), (hd e0).2]
        · rw [if_neg (by unfold foot; split <;> simp [e, hxf.1]), hx _ e, hm1x _ hxf.1]
    unfold reallocSlots loadSlots
    rcases h.array with ⟨rfl, h2⟩ | ⟨h1, h2, h3⟩
    · refine Does.bind ?_
      rw [if_pos rfl]
      refine Does.pure (Does.bind (does_free_null ?_))
      rw [← h2]
      obtain ⟨_, m', hr, hq⟩ := fin m1 (fun _ _ => rfl) (fun h => absurd rfl h) (fun _ => rfl)
      obtain ⟨p, m2, r1, r2⟩ := Owned.run_bind_inv hr
      exact ⟨p, m2, r1, ⟨_, m', r2, hq⟩⟩
    · refine Does.bind ?_
      rw [if_neg h1]
      refine does_readSlots h1 (by rw [hm1x _ h2]; exact h3) (Does.bind (does_free h1 (by rw [hm1x _ h2]; exact h3) ?_))
      obtain ⟨_, m', hr, hq⟩ := fin (m1.del d) (fun x hx => Mem.get_del_ne (Ne.symm hx)) (fun _ => ⟨h2, Mem.get_del_self _ _⟩) (fun e => absurd e h1)
      obtain ⟨p, m2, r1, r2⟩ := Owned.run_bind_inv hr
      exact ⟨p, m2, r1, ⟨_, m', r2, hq⟩⟩
  · rw [if_neg hc] at hg
    rw [returns_pure] at hg
    subst hg
    exact does_neg hc (Does.pure ⟨d, h, Upd.refl _ _, fun e => absurd e hc⟩)

omit [Ptrs] in
theorem raise_nil {cmp : Nat → Nat → Int} {q : Prioq.PQ Nat} {slot v : Nat} {r : Prioq.PQ Nat × Nat} (hq : q.storage = [])
    (h : Returns (Prioq.raise cmp q slot v) r) : r.1.storage = [] := by
  unfold Prioq.raise at h
  split at h
  · rw [returns_pure] at h; subst h; exact hq
  · obtain ⟨p, hp, _⟩ := returns_bind_inv h
    rw [returns_liftC] at hp
    simp [Prioq.get, hq] at hp

omit [Ptrs] in
theorem assign_nil {q q' : Prioq.PQ Nat} {slot v : Nat} (hq : q.storage = []) : ¬ Returns (liftC (Prioq.assign q slot v)) q' := by
  rw [returns_liftC]
  simp [Prioq.assign, hq]

omit [Ptrs] in
theorem get_nil {q : Prioq.PQ Nat} {slot v : Nat} (hq : q.storage = []) : ¬ Returns (liftC (Prioq.get q slot)) v := by
  rw [returns_liftC]
  simp [Prioq.get, hq]

theorem enqueueM_spec (hA : A.Good) (cmp : Nat → Nat → Int) {q q' : Prioq.PQ Nat} {v : Nat} (h : QueueAt m a d q) (hq : Returns (Prioq.enqueue cmp q v) q') :
    Does (enqueueM A cmp a v) m (fun _ m' => ∃ d', QueueAt m' a d' q' ∧ Upd m m' (foot a d) (foot a d')) := by
  unfold Prioq.enqueue at hq
  obtain ⟨q1, hg, hq⟩ := returns_bind_inv hq
  obtain ⟨r, hr, hq⟩ := returns_bind_inv hq
  refine Does.bind ((growPrioq_spec hA h hg).mono fun _ m1 ⟨d', g1, g2, g3⟩ => ?_)
  have hf : Returns (enqueueTail cmp v q1) ((), q') := returns_bind_of hr (returns_bind_of hq (by rw [returns_pure]))
  refine (prioqCall_spec g1 hf fun hd => ?_).mono fun _ _ ⟨_, k1, k2⟩ => ⟨d', k1, g2.trans k2⟩
  rcases g1.array with g | g
  · exact absurd hq (assign_nil (raise_nil (by exact g.2) hr))
  · exact absurd hd g.1

omit [Ptrs] in
theorem dequeue_nil {cmp : Nat → Nat → Int} {q q' : Prioq.PQ Nat} {r : Option Nat} (hq : q.storage = []) (h : Returns (Prioq.dequeue cmp q) (r, q')) :
    q'.storage = [] := by
  unfold Prioq.dequeue at h
  split at h
  · rw [returns_pure] at h; cases h; exact hq
  · split at h
    · obtain ⟨p, hp, _⟩ := returns_bind_inv h
      exact absurd hp (get_nil hq)
    · obtain ⟨p, hp, _⟩ := returns_bind_inv h
      exact absurd hp (get_nil hq)

omit [Ptrs] in
theorem pop_nil {q q' : Prioq.PQ Nat} {r : Option Nat} (hq : q.storage = []) (h : Prioq.pop q = .ok (r, q')) : q'.storage = [] := by
  unfold Prioq.pop at h
  split at h
  · cases h; exact hq
  · rw [show Prioq.get q (q.capacity - 1) = .error .ub by simp [Prioq.get, hq]] at h
    cases h

omit [Ptrs] in
theorem remove_nil {cmp : Nat → Nat → Int} {q q' : Prioq.PQ Nat} {slot r : Nat} (hq : q.storage = []) (h : Returns (Prioq.remove cmp q slot) (r, q')) :
    q'.storage = [] := by
  unfold Prioq.remove at h
  obtain ⟨p, hp, _⟩ := returns_bind_inv h
  exact absurd hp (get_nil hq)

end

/-! ### Byte arrays -/

/-- A byte array in memory. -/
structure BytesAt (m : Mem) (a d : Nat) (b : BA.BA) (rc : UInt32) : Prop where
  nonnull : a ≠ 0
  header : m.get a = some (.barray ⟨d, b.cursor, b.maxSize, b.size, rc⟩)
  data0 : d ≠ 0
  apart : d ≠ a
  array : m.get d = some (.bytes b.data)

variable {b : BA.BA} {rc : UInt32} {junk : BA.Junk}

theorem pair_frame {m' : Mem} (h : ∀ x, x ≠ a → x ≠ d → m'.get x = m.get x) : Upd m m' [a, d] [a, d] :=
  Upd.inside fun x hx => by
    simp only [List.mem_cons, List.not_mem_nil, or_false, not_or] at hx
    exact h x hx.1 hx.2

/-- Writing the struct. -/
theorem BytesAt.header_set (h : BytesAt m a d b rc) (b' : BA.BA) (rc' : UInt32) (hb : b'.data = b.data) :
    BytesAt (m.set a (.barray ⟨d, b'.cursor, b'.maxSize, b'.size, rc'⟩)) a d b' rc' :=
  ⟨h.nonnull, Mem.get_set_self _ _ _, h.data0, h.apart, by rw [Mem.get_set_ne (Ne.symm h.apart), hb]; exact h.array⟩

/-- Writing the array. -/
theorem BytesAt.array_set (h : BytesAt m a d b rc) (x : List UInt8) : BytesAt (m.set d (.bytes x)) a d { b with data := x } rc :=
  ⟨h.nonnull, by rw [Mem.get_set_ne h.apart]; exact h.header, h.data0, h.apart, Mem.get_set_self _ _ _⟩

theorem upd_a (c : Cell) : Upd m (m.set a c) [a, d] [a, d] := pair_frame fun _ h1 _ => Mem.get_set_ne (Ne.symm h1) _

theorem upd_d (c : Cell) : Upd m (m.set d c) [a, d] [a, d] := pair_frame fun _ _ h2 => Mem.get_set_ne (Ne.symm h2) _

theorem makeByteArray_spec (hA : A.Good) (m : Mem) {max : Nat} (hb : BA.make junk max = .ok b) :
    Does (makeByteArray A junk max) m (fun a m' => ∃ d, BytesAt m' a d b 1 ∧ Upd m m' [] [a, d]) := by
  have hs0 := hA.nonnull m
  have hsn := hA.fresh m
  refine Does.bind (does_alloc hA ?_)
  generalize A.pick m = a at *
  refine Does.bind (does_readBA hs0 (Mem.get_set_self _ _ _) (Does.bind (does_write hs0 (Mem.get_set_self _ _ _) ?_)))
  refine Does.bind (does_readBA hs0 (Mem.get_set_self _ _ _) (Does.bind (does_write hs0 (Mem.get_set_self _ _ _) ?_)))
  refine Does.bind (does_readBA hs0 (Mem.get_set_self _ _ _) (Does.bind (does_write hs0 (Mem.get_set_self _ _ _) ?_)))
  refine Does.bind (does_readBA hs0 (Mem.get_set_self _ _ _) (Does.bind ?_))
  dsimp only
  set sz := if 128 > max then max else 128 with hsz
  unfold BA.make at hb
  rw [← hsz] at hb
  cases hw : wr (BA.malloc junk sz) 0 0 with
  | error e => simp only [hw] at hb; cases hb
  | ok data =>
  simp only [hw, Except.ok.injEq] at hb
  subst hb
  generalize hm1 : (((m.set a _).set a _).set a _).set a (Cell.barray ⟨A.junk, 0, max, sz, UInt32.ofNat A.junk⟩) = m1
  have hm1a : m1.get a = some (Cell.barray ⟨A.junk, 0, max, sz, UInt32.ofNat A.junk⟩) := by rw [← hm1]; exact Mem.get_set_self _ _ _
  have hm1x : ∀ x, x ≠ a → m1.get x = m.get x := fun x hx => by
    rw [← hm1, Mem.get_set_ne (Ne.symm hx), Mem.get_set_ne (Ne.symm hx), Mem.get_set_ne (Ne.symm hx), Mem.get_set_ne (Ne.symm hx)]
  have hp0 := hA.nonnull m1
  have hpn := hA.fresh m1
  refine does_alloc hA ?_
  generalize A.pick m1 = d at *
  have hda : d ≠ a := by rintro rfl; rw [hm1a] at hpn; cases hpn
  refine Does.bind (does_write hs0 (by rw [Mem.get_set_ne hda]; exact hm1a) (Does.bind (does_readBytes hp0
    (by rw [Mem.get_set_ne (Ne.symm hda)]; exact Mem.get_set_self _ _ _) (Does.bind (does_lift ((returns_liftC _ _).2 hw)
    (Does.bind (does_write hp0 (by rw [Mem.get_set_ne (Ne.symm hda)]; exact Mem.get_set_self _ _ _) (Does.bind (does_readBA hs0
    (by rw [Mem.get_set_ne hda]; exact Mem.get_set_self _ _ _) (Does.bind (does_write hs0 (by rw [Mem.get_set_ne hda]; exact Mem.get_set_self _ _ _)
    (Does.pure ⟨d, ⟨hs0, Mem.get_set_self _ _ _, hp0, hda, by rw [Mem.get_set_ne (Ne.symm hda)]; exact Mem.get_set_self _ _ _⟩, ⟨?_, ?_⟩⟩))))))))))))
  · intro x hx
    simp only [List.mem_cons, List.not_mem_nil, or_false] at hx
    rcases hx with rfl | rfl
    · exact .inr hsn
    · rw [hm1x _ hda] at hpn; exact .inr hpn
  · intro x hx
    simp only [List.mem_cons, List.not_mem_nil, or_false, not_or] at hx
    have h1 := Ne.symm hx.1
    have h2 := Ne.symm hx.2
    rw [if_neg (by simp), Mem.get_set_ne h1, Mem.get_set_ne h2, Mem.get_set_ne h1, Mem.get_set_ne h2, hm1x _ hx.1]

theorem shareByteArray_spec (h : BytesAt m a d b rc) :
    Does (shareByteArray a) m (fun r m' => r = a ∧ BytesAt m' a d b (rc + 1) ∧ Upd m m' [a, d] [a, d]) :=
  Does.bind (does_readBA h.nonnull h.header (Does.bind (does_write h.nonnull h.header (Does.pure ⟨rfl, h.header_set b _ rfl, upd_a _⟩))))

theorem destroyByteArray_spec (h : BytesAt m a d b rc) : Does (destroyByteArray a) m (fun _ m' =>
    if rc - 1 ≠ 0 then BytesAt m' a d b (rc - 1) ∧ Upd m m' [a, d] [a, d] else Upd m m' [a, d] []) := by
  refine Does.bind (does_readBA h.nonnull h.header (Does.bind (does_write h.nonnull h.header ?_)))
  have h' := h.header_set b (rc - 1) rfl
  refine Does.bind (does_readBA h.nonnull h'.header ?_)
  by_cases hr : rc - 1 ≠ 0
  · refine does_pos hr (Does.pure ?_)
    rw [if_pos hr]
    exact ⟨h', upd_a _⟩
  · refine does_neg hr ((free_both h.nonnull h'.header (.inr ⟨h.data0, h.apart, _, h'.array⟩)).mono fun _ m' g => ?_)
    rw [if_neg hr]
    have : foot a d = [a, d] := by simp [foot, h.data0]
    rw [this] at g
    exact (upd_a (d := d) _).trans g

theorem ensureSpaceM_spec (hA : A.Good) (h : BytesAt m a d b rc) (len : Nat) : Does (ensureSpaceM A junk a len) m (fun r m' =>
    match BA.ensureSpace junk b len with
    | none => r = false ∧ m' = m
    | some b' => r = true ∧ ∃ d', BytesAt m' a d' b' rc ∧ Upd m m' [a, d] [a, d'] ∧ (len < BA.sub64 b.size b.cursor → m' = m ∧ d' = d ∧ b' = b)) := by
  unfold BA.ensureSpace
  refine Does.bind (does_readBA h.nonnull h.header ?_)
  dsimp only
  by_cases h1 : len ≥ BA.sub64 b.maxSize b.cursor
  · rw [if_pos h1, if_pos h1]; exact Does.pure ⟨rfl, rfl⟩
  · rw [if_neg h1, if_neg h1]
    by_cases h2 : len ≥ BA.sub64 b.size b.cursor
    · rw [if_pos h2, if_pos h2]
      generalize BA.roundUp 0 (BA.add64 (BA.add64 b.cursor len) 1) = n
      refine Does.bind (does_write h.nonnull h.header ?_)
      have h' := h.header_set { b with size := n } rc rfl
      refine Does.bind (does_readBA h.nonnull h'.header (Does.bind (Does.bind (does_readBytes h.data0 h'.array (Does.bind (does_free h.data0 h'.array ?_))))))
      generalize hm2 : (m.set a (.barray ⟨d, b.cursor, b.maxSize, n, rc⟩)).del d = m2
      have hm2a : m2.get a = some (.barray ⟨d, b.cursor, b.maxSize, n, rc⟩) := by rw [← hm2, Mem.get_del_ne h.apart]; exact Mem.get_set_self _ _ _
      have hm2d : m2.get d = none := by rw [← hm2]; exact Mem.get_del_self _ _
      have hm2x : ∀ x, x ≠ a → x ≠ d → m2.get x = m.get x := fun x h1 h2 => by rw [← hm2, Mem.get_del_ne (Ne.symm h2), Mem.get_set_ne (Ne.symm h1)]
      have hp0 := hA.nonnull m2
      have hpn := hA.fresh m2
      refine does_alloc hA ?_
      generalize A.pick m2 = p at *
      have hpa : p ≠ a := by rintro rfl; rw [hm2a] at hpn; cases hpn
      refine Does.bind (does_write h.nonnull (by rw [Mem.get_set_ne hpa]; exact hm2a) (Does.pure ⟨rfl, p, ⟨h.nonnull, Mem.get_set_self _ _ _, hp0, hpa, ?_⟩, ⟨?_, ?_⟩, fun hl => by omega⟩))
      · rw [Mem.get_set_ne (Ne.symm hpa)]; exact Mem.get_set_self _ _ _
      · intro x hx
        simp only [List.mem_cons, List.not_mem_nil, or_false] at hx ⊢
        rcases hx with rfl | rfl
        · exact .inl (.inl rfl)
        · by_cases e : x = d
          · exact .inl (.inr e)
          · rw [hm2x _ hpa e] at hpn; exact .inr hpn
      · intro x hx
        simp only [List.mem_cons, List.not_mem_nil, or_false, not_or] at hx ⊢
        rw [Mem.get_set_ne (Ne.symm hx.1), Mem.get_set_ne (Ne.symm hx.2)]
        by_cases e : x = d
        · rw [if_pos (.inr e), e]; exact hm2d
        · rw [if_neg (by simp [hx.1, e]), hm2x _ hx.1 e]
    · rw [if_neg h2, if_neg h2]
      exact Does.pure ⟨rfl, d, h, Upd.refl _ _, fun _ => ⟨rfl, rfl, rfl⟩⟩

/-- The bytes a source pointer shows; nothing is read if there are none. -/
def Shows (m : Mem) (src off : Nat) (bs : List UInt8) : Prop :=
  bs = [] ∨ ∃ c, src ≠ 0 ∧ m.get src = some (.bytes c) ∧ off + bs.length ≤ c.length ∧ bs = (c.drop off).take bs.length

theorem fetch_spec {src off : Nat} {bs : List UInt8} (h : Shows m src off bs) : Does (fetch src off bs.length) m (fun r m' => r = bs ∧ m' = m) := by
  unfold fetch
  rcases h with rfl | ⟨c, h1, h2, h3, h4⟩
  · exact does_pos rfl (Does.pure ⟨rfl, rfl⟩)
  · by_cases h0 : bs.length = 0
    · exact does_pos h0 (Does.pure ⟨(List.eq_nil_of_length_eq_zero h0).symm, rfl⟩)
    · exact does_neg h0 (Does.bind (does_readBytes h1 h2 (does_pos h3 (Does.pure ⟨h4.symm, rfl⟩))))

theorem memmoveM_spec (h : BytesAt m a d b rc) {pos src off : Nat} {bs x : List UInt8} (hs : Shows m src off bs) (hm : BA.memmove b.data pos bs = .ok x) :
    Does (memmoveM a pos src off bs.length) m (fun _ m' => BytesAt m' a d { b with data := x } rc ∧ Upd m m' [a, d] [a, d]) := by
  refine Does.bind ((fetch_spec hs).mono ?_)
  rintro _ _ ⟨rfl, rfl⟩
  exact Does.bind (does_readBA h.nonnull h.header (Does.bind (does_readBytes h.data0 h.array (Does.bind (does_lift ((returns_liftC _ _).2 hm)
    (does_write h.data0 h.array ⟨h.array_set x, upd_d _⟩))))))

theorem terminateM_spec (h : BytesAt m a d b rc) {b' : BA.BA} (ht : BA.terminate b = .ok b') :
    Does (terminateM a) m (fun _ m' => BytesAt m' a d b' rc ∧ Upd m m' [a, d] [a, d]) := by
  unfold BA.terminate at ht
  cases hw : wr b.data b.cursor 0 with
  | error e => rw [hw] at ht; cases ht
  | ok x =>
    rw [hw] at ht
    cases ht
    exact Does.bind (does_readBA h.nonnull h.header (Does.bind (does_readBytes h.data0 h.array (Does.bind (does_lift ((returns_liftC _ _).2 hw)
      (does_write h.data0 h.array ⟨h.array_set x, upd_d _⟩))))))

theorem setCursor_spec (h : BytesAt m a d b rc) (n : Nat) :
    Does (setCursor a n) m (fun _ m' => BytesAt m' a d { b with cursor := n } rc ∧ Upd m m' [a, d] [a, d]) :=
  Does.bind (does_readBA h.nonnull h.header (does_write h.nonnull h.header ⟨h.header_set { b with cursor := n } rc rfl, upd_a _⟩))

/-- What a call does to a byte array in memory. -/
def Done {α : Type} (a d : Nat) (rc : UInt32) (m : Mem) (r : α × BA.BA) (x : α) (m' : Mem) : Prop :=
  x = r.1 ∧ ∃ d', BytesAt m' a d' r.2 rc ∧ Upd m m' [a, d] [a, d']

/-- Setting the cursor and the NUL behind it. -/
theorem finish {α : Type} {m0 : Mem} {d0 : Nat} (h : BytesAt m a d b rc) (hu : Upd m0 m [a, d0] [a, d]) (n : Nat) {b' : BA.BA}
    (ht : BA.terminate { b with cursor := n } = .ok b') (r : α) :
    Does (do setCursor a n; terminateM a; pure r) m (Done a d0 rc m0 (r, b')) :=
  Does.bind ((setCursor_spec h n).mono fun _ _ ⟨g1, g2⟩ => Does.bind ((terminateM_spec g1 ht).mono fun _ _ ⟨k1, k2⟩ =>
    Does.pure ⟨rfl, d, k1, hu.trans (g2.trans k2)⟩))

theorem copyTailM_spec {m0 : Mem} {d0 : Nat} (h : BytesAt m a d b rc) (hu : Upd m0 m [a, d0] [a, d]) {pos src off : Nat} {bs : List UInt8}
    (hs : Shows m src off bs) {r : Bool × BA.BA} (hc : BA.copyTail b pos bs = .ok r) :
    Does (copyTailM a pos src off bs.length) m (Done a d0 rc m0 r) := by
  unfold BA.copyTail at hc
  cases hm : BA.memmove b.data pos bs with
  | error e => rw [hm] at hc; cases hc
  | ok x =>
    rw [hm] at hc
    dsimp only at hc
    refine Does.bind ((memmoveM_spec h hs hm).mono fun _ m1 ⟨g1, g2⟩ => Does.bind (does_readBA g1.nonnull g1.header ?_))
    dsimp only
    by_cases hl : bs.length > BA.sub64 b.cursor pos
    · rw [if_pos hl] at hc ⊢
      cases ht : BA.terminate { b with data := x, cursor := BA.add64 pos bs.length } with
      | error e => rw [ht] at hc; cases hc
      | ok b' =>
        rw [ht] at hc
        cases hc
        exact finish g1 (hu.trans g2) _ ht true
    · rw [if_neg hl] at hc ⊢
      cases hc
      exact Does.pure ⟨rfl, d, g1, hu.trans g2⟩

/-- The source of a call stays where it is: it is not in the array, or the array does not grow. -/
theorem Shows.past {m' : Mem} {d' src off : Nat} {bs : List UInt8} (hs : Shows m src off bs) (ha : m.get a = some (.barray ⟨d, b.cursor, b.maxSize, b.size, rc⟩))
    (hu : Upd m m' [a, d] [a, d']) (hk : src ≠ d ∨ m' = m) : Shows m' src off bs := by
  rcases hk with hk | rfl
  · rcases hs with rfl | ⟨c, h1, h2, h3, h4⟩
    · exact .inl rfl
    · have : src ≠ a := by rintro rfl; rw [ha] at h2; cases h2
      exact .inr ⟨c, h1, hu.old h2 (by simp [this, hk]), h3, h4⟩
  · exact hs

theorem copyM_spec (hA : A.Good) (h : BytesAt m a d b rc) {pos src off : Nat} {bs : List UInt8} (hs : Shows m src off bs)
    (hk : src ≠ d ∨ BA.sub64 (BA.add64 pos bs.length) b.cursor < BA.sub64 b.size b.cursor ∨ bs.length ≤ BA.sub64 b.cursor pos) {r : Bool × BA.BA} (hc : BA.copy junk b pos bs = .ok r) :
    Does (copyM A junk a pos src off bs.length) m (Done a d rc m r) := by
  unfold BA.copy at hc
  refine Does.bind (does_readBA h.nonnull h.header ?_)
  dsimp only
  by_cases h1 : pos > b.cursor
  · rw [if_pos h1] at hc ⊢
    cases hc
    exact Does.pure ⟨rfl, d, h, Upd.refl _ _⟩
  · rw [if_neg h1] at hc ⊢
    by_cases h2 : bs.length > BA.sub64 b.cursor pos
    · rw [if_pos h2] at hc ⊢
      refine Does.bind ((ensureSpaceM_spec (junk := junk) hA h _).mono fun x m1 g => ?_)
      cases he : BA.ensureSpace junk b (BA.sub64 (BA.add64 pos bs.length) b.cursor) with
      | none =>
        rw [he] at hc g
        obtain ⟨rfl, rfl⟩ := g
        cases hc
        exact Does.pure ⟨rfl, d, h, Upd.refl _ _⟩
      | some b' =>
        rw [he] at hc g
        obtain ⟨rfl, d', g1, g2, g3⟩ := g
        rw [if_pos rfl]
        refine copyTailM_spec g1 g2 (hs.past h.header g2 ?_) hc
        rcases hk with hk | hk | hk
        · exact .inl hk
        · exact .inr (g3 hk).1
        · omega
    · rw [if_neg h2] at hc ⊢
      exact copyTailM_spec h (Upd.refl _ _) hs hc

theorem appendM_spec (hA : A.Good) (h : BytesAt m a d b rc) {src off : Nat} {bs : List UInt8} (hs : Shows m src off bs)
    (hk : bs = [] ∨ src ≠ d ∨ (bs.length < BA.sub64 b.size b.cursor ∧ off + bs.length ≤ b.cursor)) {r : Bool × BA.BA} (hc : BA.append junk b bs = .ok r) :
    Does (appendM A junk a src off bs.length) m (Done a d rc m r) := by
  unfold BA.append at hc
  refine Does.bind ((ensureSpaceM_spec (junk := junk) hA h _).mono fun x m1 g => ?_)
  cases he : BA.ensureSpace junk b bs.length with
  | none =>
    rw [he] at hc g
    obtain ⟨rfl, rfl⟩ := g
    cases hc
    exact Does.pure ⟨rfl, d, h, Upd.refl _ _⟩
  | some b' =>
    rw [he] at hc g
    obtain ⟨rfl, d', g1, g2, g3⟩ := g
    rw [if_pos rfl]
    have hcur : b'.cursor = b.cursor := by
      unfold BA.ensureSpace at he
      split at he
      · cases he
      · split at he <;> cases he <;> rfl
    have hs' : Shows m1 src off bs := by
      rcases hk with rfl | hk | hk
      · exact .inl rfl
      · exact hs.past h.header g2 (.inl hk)
      · exact hs.past h.header g2 (.inr (g3 hk.1).1)
    have ho : ¬ (d' = src ∧ off < b'.cursor + bs.length ∧ b'.cursor < off + bs.length) := by
      rintro ⟨e1, e2, e3⟩
      rcases hk with rfl | hk | hk
      · simp only [List.length_nil, Nat.add_zero] at e2 e3; omega
      · rcases hs with rfl | ⟨c, h1, h2, _⟩
        · simp only [List.length_nil, Nat.add_zero] at e2 e3; omega
        · subst e1
          rcases g2.grow d' (by simp) with h3 | h3
          · simp only [List.mem_cons, List.not_mem_nil, or_false] at h3
            rcases h3 with rfl | rfl
            · rw [h.header] at h2; cases h2
            · exact hk rfl
          · rw [h2] at h3; cases h3
      · omega
    dsimp only at hc
    cases hm : BA.memmove b'.data b'.cursor bs with
    | error e => rw [hm] at hc; cases hc
    | ok x =>
      rw [hm] at hc
      dsimp only at hc
      refine Does.bind (Does.bind (does_readBA g1.nonnull g1.header (does_neg ho ((memmoveM_spec g1 hs' hm).mono fun _ m2 ⟨k1, k2⟩ =>
        Does.bind (does_readBA k1.nonnull k1.header ?_)))))
      cases ht : BA.terminate { b' with data := x, cursor := BA.add64 b'.cursor bs.length } with
      | error e => rw [ht] at hc; cases hc
      | ok b'' =>
        rw [ht] at hc
        cases hc
        exact finish k1 (g2.trans k2) _ ht true

theorem streamTailM_spec (hA : A.Good) (h : BytesAt m a d b rc) {cb : BA.ReadCb} {len : Nat} {r : Int × BA.BA} (hc : BA.streamTail junk b cb len = .ok r) :
    Does (streamTailM A junk a cb len) m (Done a d rc m r) := by
  unfold BA.streamTail at hc
  refine Does.bind ((ensureSpaceM_spec (junk := junk) hA h _).mono fun x m1 g => ?_)
  cases he : BA.ensureSpace junk b len with
  | none =>
    rw [he] at hc g
    obtain ⟨rfl, rfl⟩ := g
    cases hc
    exact Does.pure ⟨rfl, d, h, Upd.refl _ _⟩
  | some b' =>
    rw [he] at hc g
    obtain ⟨rfl, d', g1, g2, -⟩ := g
    rw [if_pos rfl]
    dsimp only at hc
    cases hm : BA.memmove b'.data b'.cursor (cb len).1 with
    | error e => rw [hm] at hc; cases hc
    | ok x =>
      rw [hm] at hc
      dsimp only at hc
      have k1 := g1.array_set x
      have k2 : Upd m1 (m1.set d' (.bytes x)) [a, d'] [a, d'] := upd_d _
      refine Does.bind (does_readBA g1.nonnull g1.header (Does.bind (does_readBytes g1.data0 g1.array (Does.bind (does_lift ((returns_liftC _ _).2 hm)
        (Does.bind (does_write g1.data0 g1.array ?_)))))))
      by_cases hp : (cb len).2 > 0
      · rw [if_pos hp] at hc ⊢
        refine Does.bind (does_readBA k1.nonnull k1.header ?_)
        cases ht : BA.terminate { b' with data := x, cursor := BA.add64 b'.cursor (cb len).2.toNat } with
        | error e => rw [ht] at hc; cases hc
        | ok b'' =>
          rw [ht] at hc
          cases hc
          exact finish k1 (g2.trans k2) _ ht (cb len).2
      · rw [if_neg hp] at hc ⊢
        cases hc
        exact Does.pure ⟨rfl, d', k1, g2.trans k2⟩

theorem appendStreamM_spec (hA : A.Good) (h : BytesAt m a d b rc) {cb : BA.ReadCb} {len : Nat} {r : Int × BA.BA} (hc : BA.appendStream junk b cb len = .ok r) :
    Does (appendStreamM A junk a cb len) m (Done a d rc m r) := by
  unfold BA.appendStream at hc
  refine Does.bind (does_readBA h.nonnull h.header ?_)
  dsimp only at hc ⊢
  split at hc
  · rename_i h1
    rw [if_pos h1]
    split at hc
    · rename_i h2
      rw [if_pos h2]
      cases hc
      exact Does.pure ⟨rfl, d, h, Upd.refl _ _⟩
    · rename_i h2
      rw [if_neg h2]
      exact streamTailM_spec hA h hc
  · rename_i h1
    rw [if_neg h1]
    exact streamTailM_spec hA h hc

theorem clearM_spec (h : BytesAt m a d b rc) {b' : BA.BA} (hc : BA.clear b = .ok b') : Does (clearM a) m (Done a d rc m ((), b')) :=
  Does.bind ((setCursor_spec h 0).mono fun _ _ ⟨g1, g2⟩ => (terminateM_spec g1 hc).mono fun _ _ ⟨k1, k2⟩ => ⟨rfl, d, k1, g2.trans k2⟩)

theorem resizeTailM_spec {m0 : Mem} {d0 : Nat} (h : BytesAt m a d b rc) (hu : Upd m0 m [a, d0] [a, d]) {n : Nat} {r : Bool × BA.BA}
    (hc : BA.resizeTail b n = .ok r) : Does (resizeTailM a n) m (Done a d0 rc m0 r) := by
  unfold BA.resizeTail at hc
  cases ht : BA.terminate { b with cursor := n } with
  | error e => rw [ht] at hc; cases hc
  | ok b' =>
    rw [ht] at hc
    cases hc
    exact finish h hu n ht true

theorem resizeM_spec (hA : A.Good) (h : BytesAt m a d b rc) {n : Nat} {c : UInt8} {r : Bool × BA.BA} (hc : BA.resize junk b n c = .ok r) :
    Does (resizeM A junk a n c) m (Done a d rc m r) := by
  unfold BA.resize at hc
  refine Does.bind (does_readBA h.nonnull h.header ?_)
  dsimp only
  by_cases h1 : n > b.cursor
  · rw [if_pos h1] at hc ⊢
    refine Does.bind ((ensureSpaceM_spec (junk := junk) hA h _).mono fun x m1 g => ?_)
    cases he : BA.ensureSpace junk b (BA.sub64 n b.cursor) with
    | none =>
      rw [he] at hc g
      obtain ⟨rfl, rfl⟩ := g
      cases hc
      exact Does.pure ⟨rfl, d, h, Upd.refl _ _⟩
    | some b' =>
      rw [he] at hc g
      obtain ⟨rfl, d', g1, g2, -⟩ := g
      rw [if_pos rfl]
      dsimp only at hc
      cases hm : BA.memmove b'.data b'.cursor (List.replicate (BA.sub64 n b'.cursor) c) with
      | error e => rw [hm] at hc; cases hc
      | ok x =>
        rw [hm] at hc
        exact Does.bind (does_readBA g1.nonnull g1.header (Does.bind (does_readBytes g1.data0 g1.array (Does.bind (does_lift ((returns_liftC _ _).2 hm)
          (Does.bind (does_write g1.data0 g1.array (resizeTailM_spec (g1.array_set x) (g2.trans (upd_d _)) hc))))))))
  · rw [if_neg h1] at hc ⊢
    exact resizeTailM_spec h (Upd.refl _ _) hc

end Verif.Objects
