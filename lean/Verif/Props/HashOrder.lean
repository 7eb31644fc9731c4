import Verif.Proofs.HashOrder
import Verif.Props.HashTable

/-! Property C136: the order of a loop over a hash table. -/

set_option autoImplicit false

namespace Verif.Hash
open Spec.Hash (Item Op Res Prog Fresh ok)
open Spec.HashOrder

/-- The order of loops, in other words: buckets in ascending order, and within a bucket the older item first. -/
theorem tour_order (hash : Nat → Nat) (cap : Nat) (items : List Item) : (tour hash cap items).Pairwise fun a b =>
    hash a.key % cap < hash b.key % cap ∨ hash a.key % cap = hash b.key % cap ∧ [a, b].Sublist items := by
  unfold tour
  rw [List.pairwise_flatMap]
  refine ⟨fun b _ => ?_, ?_⟩
  · refine List.pairwise_iff_forall_sublist.2 fun {x y} h => Or.inr ⟨?_, h.trans List.filter_sublist⟩
    have hx := (List.mem_filter.1 (h.subset (List.mem_cons_self (a := x)))).2
    have hy := (List.mem_filter.1 (h.subset (List.mem_cons_of_mem x (List.mem_cons_self (a := y))))).2
    simp only [decide_eq_true_eq] at hx hy
    rw [hx, hy]
  · refine List.pairwise_lt_range.imp fun {b c} hbc x hx y hy => Or.inl ?_
    have hx := (List.mem_filter.1 hx).2
    have hy := (List.mem_filter.1 hy).2
    simp only [decide_eq_true_eq] at hx hy
    rw [hx, hy]; exact hbc

theorem coe_split {α : Type} (xs ys : List α) (i : α) : ((xs ++ i :: ys : List α) : Multiset α) = i ::ₘ ↑(xs ++ ys) :=
  Multiset.coe_eq_coe.2 List.perm_middle

theorem coe_snoc {α : Type} (xs : List α) (i : α) : ((xs ++ [i] : List α) : Multiset α) = i ::ₘ ↑xs := by
  simpa using coe_split xs [] i

/-- The specification with an order refines the one without. -/
theorem step_forget {hash : Nat → Nat} {cmp : Nat → Nat → Int} {cap : Nat} (hc : 0 < cap) {s s' : State} {op : Op} {r : Res} (h : Step hash cmp cap s op r s')
    (hd : (s.items.map (·.elem)).Nodup) : Spec.Hash.Step (sees hash cmp cap) s.forget op r s'.forget := by
  have hm : ∀ {xs ys : List Item} {i : Item}, i ∈ (↑(xs ++ i :: ys) : Multiset Item) := by simp
  cases h with
  | put_new h hf => simp only [State.forget]; rw [coe_snoc]; exact .put_new h hf
  | put_same h => exact .put_same hm h.1
  | @put_replace xs i ys loose k v a h hv hf =>
    simp only [State.forget]
    rw [coe_snoc, coe_split]
    rw [coe_split] at hf
    exact .put_replace h.1 hv hf
  | get_hit h => exact .get_hit hm h.1
  | get_miss h => exact .get_miss h
  | pop_hit h => simp only [State.forget]; rw [coe_split]; exact .pop_hit h.1
  | pop_miss h => exact .pop_miss h
  | detach => simp only [State.forget]; rw [coe_split]; exact .detach
  | remove => simp only [State.forget]; rw [coe_split]; exact .remove
  | discard => exact .discard
  | popAny h => simp only [State.forget]; rw [coe_split]; exact .popAny
  | popAny_empty => exact .popAny_empty
  | getAny =>
    have hp := tour_perm hash hc s.items
    cases ht : tour hash cap s.items with
    | nil =>
      rw [ht] at hp
      obtain ⟨items, loose⟩ := s
      obtain rfl : items = [] := List.perm_nil.1 hp.symm
      exact .getAny_empty
    | cons i xs => rw [ht] at hp; exact .getAny (i := i) (hp.mem_iff.1 (by simp))
  | @getOther _ xs i ys h =>
    have hp := tour_perm hash hc s.items
    rw [h] at hp
    have hi : i ∈ s.items := hp.mem_iff.1 (by simp)
    cases ys with
    | nil => exact .getOther_last hi
    | cons j ys =>
      refine .getOther hi (hp.mem_iff.1 (by simp)) ?_
      have := (hp.map (·.elem)).nodup_iff.2 hd
      simp only [List.map_append, List.map_cons, List.nodup_append, List.nodup_cons, List.mem_cons] at this
      exact fun e => this.2.1.1 (Or.inl e)
  | traverse => exact .traverse (Multiset.coe_eq_coe.2 (tour_perm hash hc s.items))
  | size => exact .size
  | empty =>
    have := @Spec.Hash.Step.empty (sees hash cmp cap) s.forget
    have he : decide (s.forget.items.card = 0) = s.items.isEmpty := by
      rw [Bool.eq_iff_iff, decide_eq_true_eq, List.isEmpty_iff, ← List.length_eq_zero_iff]
      rfl
    rwa [he] at this
  | key hi => exact .key hi
  | value hi => exact .value hi

/-- C136. For every hash function, comparator and requested capacity, and every program: the results of all calls are those of the specification in which
the items are kept from the oldest to the newest and `hash_table_get_any`, `hash_table_get_other` and `hash_table_pop_any` go through the buckets in
ascending order and through each bucket from the oldest item to the newest. `hash_table_get` finds the oldest item that matches. -/
theorem hash_order {A : Alloc} (hA : A.Good) {F : Funs} {f g : Nat} (n : Nat) (p : Prog) (m0 : Mem)
    (hp : Legal (F.hash f) (F.cmp g 0) (capacity n) p ⟨[], 0⟩) :
    ∃ t rs m s, Run (session A F f g n p) m0 (t, rs) m ∧ Runs (F.hash f) (F.cmp g 0) (capacity n) p ⟨[], 0⟩ rs s ∧
      Run (traverse t) m ((tour (F.hash f) (capacity n) s.items).map (·.elem)) m ∧
      (∀ i ∈ s.items, Run (getKey i.elem) m i.key m ∧ Run (getValue i.elem) m i.value m) ∧ ∀ a, m0.get a ≠ none → m.get a = m0.get a := by
  let _ : Ptrs := ⟨f, g, 0, 0⟩
  obtain ⟨⟨⟨t, rs⟩, m, h1, s, h2, h3⟩⟩ : Does (session A F f g n p) m0 fun x m => ∃ s, Runs (F.hash f) (F.cmp g 0) (capacity n) p ⟨[], 0⟩ x.2 s ∧
      OInv (F.hash f) m0 x.1 (capacity n) s m := by
    refine Does.bind ((make_order (hash := F.hash f) hA n m0).mono fun t m h => ?_)
    refine Does.bind ((exec_order hA p h hp).mono ?_)
    rintro rs m' ⟨s, h1, h2⟩
    exact Does.pure ⟨s, h1, h2⟩
  obtain ⟨hcap, tb, bs, det, h, ho, hl⟩ := h3
  refine ⟨t, rs, m, s, h1, h2, ?_, fun i hi => ?_, fun a ha => h.frame a fun hw => ha (h.fresh a hw)⟩
  · have := traverse_spec h hcap
    rw [← ho.tour h.len]
    simpa [Ent.item, Function.comp_def] using this
  · obtain ⟨e, he, rfl⟩ := List.mem_map.1 ((ho.perm h.len h.pos).mem_iff.2 hi)
    obtain ⟨q1, x, y, z, q2⟩ := h.elem' he
    exact ⟨(run_readHE q1 q2).bind (Run.pure _ _), (run_readHE q1 q2).bind (Run.pure _ _)⟩

/-- Puts with these keys and values. -/
def puts : List (Nat × Nat) → Prog
  | [] => .done
  | (k, v) :: xs => .call (.put k v) fun _ => puts xs

theorem puts_legal (hash : Nat → Nat) (cmp : Nat → Nat → Int) (cap : Nat) (xs : List (Nat × Nat)) : ∀ s, Legal hash cmp cap (puts xs) s := by
  induction xs with
  | nil => exact fun s => trivial
  | cons x xs ih => exact fun s => ⟨trivial, fun r s' _ => ih s'⟩

/-- Putting different keys one after the other adds them in this order. -/
theorem puts_runs {hash : Nat → Nat} {cmp : Nat → Nat → Int} {cap : Nat} (xs : List (Nat × Nat)) : ∀ {s s' : State} {rs : List Res},
    Runs hash cmp cap (puts xs) s rs s' → (∀ i ∈ s.items, ∀ x ∈ xs, ¬ Sees hash cmp cap x.1 i.key) → (xs.Pairwise fun x y => ¬ Sees hash cmp cap y.1 x.1) →
    s'.items.map (fun i => (i.key, i.value)) = s.items.map (fun i => (i.key, i.value)) ++ xs := by
  induction xs with
  | nil => intro s s' rs h _ _; cases h; simp
  | cons x xs ih =>
    intro s s' rs h hs hx
    cases h with
    | call h h' =>
      have hno : ∀ i ∈ s.items, ¬ Sees hash cmp cap x.1 i.key := fun i hi => hs i hi x (by simp)
      generalize hop : Op.put x.1 x.2 = op at h
      cases h with
      | @put_new items loose k v a hn hf =>
        obtain ⟨rfl, rfl⟩ : x.1 = k ∧ x.2 = v := by injection hop with a b; exact ⟨a, b⟩
        rw [List.pairwise_cons] at hx
        rw [ih h' ?_ hx.2]
        · simp
        · intro i hi y hy
          rcases List.mem_append.1 hi with hi | hi
          · exact hs i hi y (by simp [hy])
          · obtain rfl := List.mem_singleton.1 hi
            exact hx.1 y hy
      | @put_same us i ys loose k hh =>
        obtain rfl : x.1 = k := by injection hop
        exact absurd hh.1 (hno i (by simp))
      | @put_replace us i ys loose k v a hh hv hf =>
        obtain rfl : x.1 = k := by injection hop
        exact absurd hh.1 (hno i (by simp))
      | _ => cases hop

/-- C136, for tables filled with different keys: the loop delivers the keys and values sorted by bucket, those of one bucket in the order in which they
were put. -/
theorem hash_puts_order {A : Alloc} (hA : A.Good) {F : Funs} {f g : Nat} (n : Nat) (xs : List (Nat × Nat)) (m0 : Mem)
    (hx : xs.Pairwise fun x y => F.cmp g 0 y.1 x.1 ≠ 0) :
    ∃ t rs m ps, Run (session A F f g n (puts xs)) m0 (t, rs) m ∧ Run (traverse t) m ps m ∧
      List.Forall₂ (fun e (x : Nat × Nat) => Run (getKey e) m x.1 m ∧ Run (getValue e) m x.2 m) ps
        ((List.range (capacity n)).flatMap fun b => xs.filter fun x => F.hash f x.1 % capacity n = b) := by
  obtain ⟨t, rs, m, s, h1, h2, h3, h4, -⟩ := hash_order hA n (puts xs) m0 (puts_legal _ _ _ _ _) (f := f) (g := g) (F := F)
  have h5 := puts_runs xs h2 (by simp) (hx.imp fun h hs => h hs.1)
  simp only [List.map_nil, List.nil_append] at h5
  refine ⟨t, rs, m, _, h1, h3, ?_⟩
  have h6 : ((List.range (capacity n)).flatMap fun b => xs.filter fun x => F.hash f x.1 % capacity n = b) =
      (tour (F.hash f) (capacity n) s.items).map fun i => (i.key, i.value) := by
    unfold tour
    rw [List.map_flatMap]
    refine congrArg (List.flatMap · _) (funext fun b => ?_)
    rw [← h5, List.filter_map]
    rfl
  rw [h6, List.forall₂_map_left_iff, List.forall₂_map_right_iff]
  have hsub : ∀ i ∈ tour (F.hash f) (capacity n) s.items, i ∈ s.items := fun i hi => (tour_perm _ (hash_capacity n).1 _).mem_iff.1 hi
  generalize tour (F.hash f) (capacity n) s.items = l at hsub
  induction l with
  | nil => exact .nil
  | cons i l ih => exact .cons (h4 i (hsub i (by simp))) (ih fun j hj => hsub j (by simp [hj]))

/-- Not vacuous: for 53 buckets and keys that are their own hash values, keys put in the order 60, 1, 7, 54 come in the order 1, 54, 60, 7. -/
example : ((List.range (capacity 10)).flatMap fun b => [(60, 0), (1, 1), (7, 2), (54, 3)].filter fun x : Nat × Nat => x.1 % capacity 10 = b) =
    [(1, 1), (54, 3), (60, 0), (7, 2)] := by decide +kernel

end Verif.Hash
