import Verif.Spec.Avl
import Mathlib.Data.Multiset.Bind

/-! The specification of AVL trees: addresses stay distinct, trees stay sorted, and each tree is a map. -/

namespace Verif.Spec.Avl

variable {cmp : Nat → Nat → Int} {s s' : State}

/-- All addresses in use. -/
def addrs (s : State) : Multiset Nat := s.trees.bind (fun x => x.1 ::ₘ ↑(x.2.map (·.elem))) + s.loose.map (·.elem)

/-- Strictly ascending keys. -/
def Sorted (cmp : Nat → Nat → Int) (items : List Item) : Prop := items.Pairwise fun i j => cmp i.key j.key < 0

structure WF (cmp : Nat → Nat → Int) (s : State) : Prop where
  nodup : (addrs s).Nodup
  nonnull : 0 ∉ addrs s
  sorted : Order cmp → ∀ x ∈ s.trees, Sorted cmp x.2

theorem addrs_cons (t : Nat) (items : List Item) (ts : Multiset (Nat × List Item)) (loose : Multiset Item) :
    addrs ⟨(t, items) ::ₘ ts, loose⟩ = t ::ₘ (↑(items.map (·.elem)) + addrs ⟨ts, loose⟩) := by
  simp only [addrs, Multiset.cons_bind]
  rw [Multiset.cons_add, Multiset.cons_add, add_assoc]

theorem addrs_loose (i : Item) (ts : Multiset (Nat × List Item)) (loose : Multiset Item) :
    addrs ⟨ts, i ::ₘ loose⟩ = i.elem ::ₘ addrs ⟨ts, loose⟩ := by
  simp [addrs]

theorem mid (xs ys : List Item) (i : Item) : (↑((xs ++ i :: ys).map (·.elem)) : Multiset Nat) = i.elem ::ₘ ↑((xs ++ ys).map (·.elem)) := by
  rw [Multiset.cons_coe, Multiset.coe_eq_coe, List.map_append, List.map_cons, List.map_append]
  exact List.perm_middle

theorem mem_addrs {a : Nat} : a ∈ addrs s ↔ (∃ x ∈ s.trees, x.1 = a ∨ ∃ i ∈ x.2, i.elem = a) ∨ ∃ i ∈ s.loose, i.elem = a := by
  simp only [addrs, Multiset.mem_add, Multiset.mem_bind, Multiset.mem_cons, Multiset.mem_coe, List.mem_map, Multiset.mem_map]
  constructor
  · rintro (⟨x, hx, h | h⟩ | h)
    · exact Or.inl ⟨x, hx, Or.inl h.symm⟩
    · exact Or.inl ⟨x, hx, Or.inr h⟩
    · exact Or.inr h
  · rintro (⟨x, hx, h | h⟩ | h)
    · exact Or.inl ⟨x, hx, Or.inl h.symm⟩
    · exact Or.inl ⟨x, hx, Or.inr h⟩
    · exact Or.inr h

theorem fresh_iff {a : Nat} : Fresh s a ↔ a ≠ 0 ∧ a ∉ addrs s := by
  rw [mem_addrs]
  constructor
  · rintro ⟨h0, h1, h2⟩
    refine ⟨h0, ?_⟩
    rintro (⟨x, hx, h | ⟨i, hi, h⟩⟩ | ⟨i, hi, h⟩)
    · exact (h1 x hx).1 h
    · exact (h1 x hx).2 i hi h
    · exact h2 i hi h
  · rintro ⟨h0, h1⟩
    exact ⟨h0, fun x hx => ⟨fun h => h1 (Or.inl ⟨x, hx, Or.inl h⟩), fun i hi h => h1 (Or.inl ⟨x, hx, Or.inr ⟨i, hi, h⟩⟩)⟩,
      fun i hi h => h1 (Or.inr ⟨i, hi, h⟩)⟩

theorem Order.lt_le {a b c : Nat} (o : Order cmp) (h1 : cmp a b < 0) (h2 : cmp b c ≤ 0) : cmp a c < 0 := by
  have := o.anti a c; have := o.anti c a; have := o.anti a b; have := o.trans b c a h2
  have := o.anti b a
  omega

theorem Order.le_lt {a b c : Nat} (o : Order cmp) (h1 : cmp a b ≤ 0) (h2 : cmp b c < 0) : cmp a c < 0 := by
  have := o.anti a c; have := o.anti c a; have := o.anti b c; have := o.trans c a b
  have := o.anti c b
  omega

theorem Order.symm {a b : Nat} (o : Order cmp) (h : cmp a b = 0) : cmp b a = 0 := by
  have := o.anti a b; have := o.anti b a; omega

theorem Order.eq_trans {a b c : Nat} (o : Order cmp) (h1 : cmp a b = 0) (h2 : cmp b c = 0) : cmp a c = 0 := by
  have h3 := o.symm h1; have h4 := o.symm h2
  have := o.trans a b c (by omega) (by omega); have := o.trans c b a (by omega) (by omega)
  have := o.anti a c; have := o.anti c a
  omega

theorem sorted_parts {xs ys : List Item} {i : Item} (h : Sorted cmp (xs ++ i :: ys)) :
    Sorted cmp (xs ++ ys) ∧ (∀ j ∈ xs, cmp j.key i.key < 0) ∧ ∀ j ∈ ys, cmp i.key j.key < 0 := by
  refine ⟨List.Pairwise.sublist (List.Sublist.append_left (List.sublist_cons_self _ _) _) h, ?_, ?_⟩
  · rw [Sorted, List.pairwise_append] at h
    exact fun j hj => h.2.2 j hj i (by simp)
  · rw [Sorted, List.pairwise_append, List.pairwise_cons] at h
    exact h.2.1.1

theorem sorted_insert {x : Item} {xs ys : List Item} (o : Order cmp) (h : Sorted cmp (xs ++ ys)) (h1 : ∀ i ∈ xs, cmp i.key x.key < 0)
    (h2 : ∀ i ∈ ys, 0 < cmp i.key x.key) : Sorted cmp (xs ++ x :: ys) := by
  rw [Sorted, List.pairwise_append] at h
  rw [Sorted, List.pairwise_append, List.pairwise_cons]
  refine ⟨h.1, ⟨fun j hj => (o.anti _ _).2 (h2 j hj), h.2.1⟩, fun i hi j hj => ?_⟩
  rcases List.mem_cons.1 hj with rfl | hj
  · exact h1 i hi
  · exact h.2.2 i hi j hj

theorem sorted_replace {i x : Item} {xs ys : List Item} (o : Order cmp) (h : Sorted cmp (xs ++ i :: ys)) (he : cmp x.key i.key = 0) :
    Sorted cmp (xs ++ x :: ys) := by
  obtain ⟨h1, h3, h4⟩ := sorted_parts h
  have he' := o.symm he
  exact sorted_insert o h1 (fun j hj => o.lt_le (h3 j hj) (by omega)) fun j hj => (o.anti _ _).1 (o.le_lt (by omega) (h4 j hj))

/-- Equal keys are the same item. -/
theorem sorted_unique {items : List Item} (o : Order cmp) (h : Sorted cmp items) {i j : Item} (hi : i ∈ items) (hj : j ∈ items)
    (e : cmp i.key j.key = 0) : i = j := by
  obtain ⟨xs, ys, rfl⟩ := List.append_of_mem hi
  obtain ⟨-, h1, h2⟩ := sorted_parts h
  simp only [List.mem_append, List.mem_cons] at hj
  rcases hj with hj | rfl | hj
  · have := h1 j hj; have := o.symm e; omega
  · rfl
  · have := h2 j hj; omega

theorem wf_init (cmp : Nat → Nat → Int) : WF cmp ⟨0, 0⟩ := ⟨by simp [addrs], by simp [addrs], by simp⟩

theorem sorted_congr {xs ys : List Item} (h : ys.map (fun i => (i.key, i.value)) = xs.map (fun i => (i.key, i.value))) (ha : Sorted cmp xs) :
    Sorted cmp ys := by
  have e : ys.map (·.key) = xs.map (·.key) := by
    have := congrArg (List.map Prod.fst) h
    simpa [List.map_map, Function.comp_def] using this
  have h1 : ((xs.map (·.key)).Pairwise fun a b => cmp a b < 0) := List.pairwise_map.2 ha
  rw [← e] at h1
  exact List.pairwise_map.1 h1

/-- The same addresses, or some of them. -/
theorem WF.sub (h : WF cmp s) (hle : addrs s' ≤ addrs s) (hs : Order cmp → ∀ x ∈ s'.trees, Sorted cmp x.2) : WF cmp s' :=
  ⟨Multiset.nodup_of_le hle h.nodup, fun h0 => h.nonnull (Multiset.mem_of_le hle h0), hs⟩

theorem WF.new (h : WF cmp s) {a : Nat} (hf : Fresh s a) (he : addrs s' = a ::ₘ addrs s) (hs : Order cmp → ∀ x ∈ s'.trees, Sorted cmp x.2) :
    WF cmp s' := by
  obtain ⟨h0, h1⟩ := fresh_iff.1 hf
  refine ⟨?_, ?_, hs⟩
  · rw [he, Multiset.nodup_cons]; exact ⟨h1, h.nodup⟩
  · rw [he, Multiset.mem_cons]
    rintro (e | e)
    · exact h0 e.symm
    · exact h.nonnull e

theorem sorted_head {t t' : Nat} {items items' : List Item} {ts : Multiset (Nat × List Item)} {loose loose' : Multiset Item}
    (h : Order cmp → ∀ x ∈ (⟨(t, items) ::ₘ ts, loose⟩ : State).trees, Sorted cmp x.2) (hn : Order cmp → Sorted cmp items → Sorted cmp items') :
    Order cmp → ∀ x ∈ (⟨(t', items') ::ₘ ts, loose'⟩ : State).trees, Sorted cmp x.2 := by
  intro o x hx
  have h1 := h o (t, items) (Multiset.mem_cons_self _ _)
  rcases Multiset.mem_cons.1 (show x ∈ (t', items') ::ₘ ts from hx) with rfl | hx
  · exact hn o h1
  · exact h o x (Multiset.mem_cons_of_mem hx)

theorem addrs_move (t : Nat) (xs ys : List Item) (i : Item) (ts : Multiset (Nat × List Item)) (loose : Multiset Item) :
    addrs ⟨(t, xs ++ ys) ::ₘ ts, i ::ₘ loose⟩ = addrs ⟨(t, xs ++ i :: ys) ::ₘ ts, loose⟩ := by
  rw [addrs_cons, addrs_cons, addrs_loose, mid, Multiset.add_cons, Multiset.cons_add]

theorem addrs_add (t : Nat) (xs ys : List Item) (i : Item) (ts : Multiset (Nat × List Item)) (loose : Multiset Item) :
    addrs ⟨(t, xs ++ i :: ys) ::ₘ ts, loose⟩ = i.elem ::ₘ addrs ⟨(t, xs ++ ys) ::ₘ ts, loose⟩ := by
  rw [addrs_cons, addrs_cons, mid, Multiset.cons_add, Multiset.cons_swap]

theorem WF.move {t : Nat} {xs ys : List Item} {i : Item} {ts : Multiset (Nat × List Item)} {loose : Multiset Item}
    (h : WF cmp ⟨(t, xs ++ i :: ys) ::ₘ ts, loose⟩) : WF cmp ⟨(t, xs ++ ys) ::ₘ ts, i ::ₘ loose⟩ :=
  h.sub (addrs_move t xs ys i ts loose).le (sorted_head h.sorted fun _ hs => (sorted_parts hs).1)

/-- Every call keeps the addresses distinct and the trees sorted. -/
theorem step_wf {op : Op} {r : Res} (h : Step cmp s op r s') (w : WF cmp s) : WF cmp s' := by
  cases h with
  | make hf =>
    refine w.new hf (by rw [addrs_cons]; simp) fun o x hx => ?_
    rcases Multiset.mem_cons.1 hx with rfl | hx
    · exact List.Pairwise.nil
    · exact w.sorted o x hx
  | @destroy t items ts loose =>
    refine w.sub ?_ fun o x hx => w.sorted o x (Multiset.mem_cons_of_mem hx)
    rw [addrs_cons]
    exact (Multiset.le_add_left _ _).trans (Multiset.le_cons_self _ _)
  | @copy t items items' ts loose q h =>
    refine ⟨?_, ?_, fun o x hx => ?_⟩
    · rw [addrs_cons, ← Multiset.cons_add, Multiset.nodup_add]
      refine ⟨by rw [Multiset.cons_coe, Multiset.coe_nodup]; exact h.nodup, w.nodup, ?_⟩
      rw [Multiset.disjoint_left]
      intro a ha
      exact (fresh_iff.1 (h.fresh a (by simpa using ha))).2
    · rw [addrs_cons, ← Multiset.cons_add, Multiset.mem_add]
      rintro (h0 | h0)
      · exact (h.fresh 0 (by simpa using h0)).1 rfl
      · exact w.nonnull h0
    · rcases Multiset.mem_cons.1 hx with rfl | hx
      · exact sorted_congr h.same (w.sorted o _ (Multiset.mem_cons_self _ _))
      · exact w.sorted o x hx
  | put_new h hf =>
    exact w.new hf (addrs_add _ _ _ _ _ _) (sorted_head w.sorted fun o hs => sorted_insert o hs (h o).1 (h o).2)
  | @put_replace t xs i ys ts loose k v a h hf =>
    refine w.new hf ?_ (sorted_head w.sorted fun o hs => sorted_replace o hs h)
    rw [addrs_add, addrs_move]
  | pop_hit h => exact w.move
  | pop_miss h => exact w
  | popFirst => exact WF.move (xs := []) w
  | popFirst_empty => exact w
  | @popLast t xs i ts loose =>
    have := WF.move (ys := []) w
    rwa [List.append_nil] at this
  | popLast_empty => exact w
  | detach => exact w.move
  | remove =>
    refine w.sub ?_ (sorted_head w.sorted fun _ hs => (sorted_parts hs).1)
    rw [addrs_add]; exact Multiset.le_cons_self _ _
  | discard =>
    refine w.sub ?_ w.sorted
    rw [addrs_loose]; exact Multiset.le_cons_self _ _
  | looks h => exact w
  | key_loose => exact w
  | value_loose => exact w

theorem runs_wf {p : Prog} {rs : List Res} (h : Runs cmp p s rs s') (w : WF cmp s) : WF cmp s' := by
  induction h with
  | done => exact w
  | call h _ ih => exact ih (step_wf h w)

/-- The tree `t` stores the value `v` under a key equal to `k`. -/
def Holds (cmp : Nat → Nat → Int) (s : State) (t k v : Nat) : Prop := ∃ x ∈ s.trees, x.1 = t ∧ ∃ i ∈ x.2, cmp k i.key = 0 ∧ i.value = v

theorem holds_cons {t0 t k v : Nat} {items : List Item} {ts : Multiset (Nat × List Item)} {loose : Multiset Item} :
    Holds cmp ⟨(t0, items) ::ₘ ts, loose⟩ t k v ↔ (t0 = t ∧ ∃ i ∈ items, cmp k i.key = 0 ∧ i.value = v) ∨ Holds cmp ⟨ts, loose⟩ t k v := by
  simp [Holds]

/-- A tree pointer occurs once. -/
theorem WF.only {t0 : Nat} {items : List Item} {ts : Multiset (Nat × List Item)} {loose : Multiset Item}
    (w : WF cmp ⟨(t0, items) ::ₘ ts, loose⟩) : ∀ x ∈ ts, x.1 ≠ t0 := by
  intro x hx e
  have := w.nodup
  rw [addrs_cons, Multiset.nodup_cons, Multiset.mem_add] at this
  exact this.1 (Or.inr (mem_addrs.2 (Or.inl ⟨x, hx, Or.inl e⟩)))

theorem WF.only_holds {t0 k v : Nat} {items : List Item} {ts : Multiset (Nat × List Item)} {loose : Multiset Item}
    (w : WF cmp ⟨(t0, items) ::ₘ ts, loose⟩) : ¬ Holds cmp ⟨ts, loose⟩ t0 k v := by
  rintro ⟨x, hx, e, -⟩
  exact w.only x hx e

/-- The items of a tree. -/
theorem WF.items {t0 : Nat} {items items' : List Item} {ts : Multiset (Nat × List Item)} {loose : Multiset Item}
    (w : WF cmp ⟨(t0, items) ::ₘ ts, loose⟩) (h : (t0, items') ∈ (⟨(t0, items) ::ₘ ts, loose⟩ : State).trees) : items' = items := by
  rcases Multiset.mem_cons.1 (show (t0, items') ∈ (t0, items) ::ₘ ts from h) with e | h
  · simpa using e
  · exact absurd rfl (w.only _ h)

theorem WF.elem_unique {t : Nat} {xs ys : List Item} {i : Item} {ts : Multiset (Nat × List Item)} {loose : Multiset Item}
    (w : WF cmp ⟨(t, xs ++ i :: ys) ::ₘ ts, loose⟩) : ∀ j ∈ xs ++ ys, j.elem ≠ i.elem := by
  intro j hj e
  have := w.nodup
  rw [addrs_add, Multiset.nodup_cons, addrs_cons] at this
  exact this.1 (Multiset.mem_cons_of_mem (Multiset.mem_add.2 (Or.inl (by
    rw [Multiset.mem_coe, List.mem_map]; exact ⟨j, hj, e⟩))))

/-- One tree changes its items. -/
theorem holds_swap {t0 t k v : Nat} {items items' : List Item} {ts : Multiset (Nat × List Item)} {loose loose' : Multiset Item}
    (w : WF cmp ⟨(t0, items) ::ₘ ts, loose⟩) : Holds cmp ⟨(t0, items') ::ₘ ts, loose'⟩ t k v ↔
      (t0 = t ∧ ∃ i ∈ items', cmp k i.key = 0 ∧ i.value = v) ∨ (t0 ≠ t ∧ Holds cmp ⟨(t0, items) ::ₘ ts, loose⟩ t k v) := by
  rw [holds_cons, holds_cons]
  by_cases e : t0 = t
  · subst e
    simp only [true_and, ne_eq, not_true_eq_false, false_and, or_false]
    constructor
    · rintro (h | h)
      · exact h
      · exact absurd h (w.only_holds (k := k) (v := v))
    · exact Or.inl
  · simp only [e, false_and, false_or, ne_eq, not_false_eq_true, true_and]
    exact Iff.rfl

theorem holds_here {t0 k v : Nat} {items : List Item} {ts : Multiset (Nat × List Item)} {loose : Multiset Item}
    (w : WF cmp ⟨(t0, items) ::ₘ ts, loose⟩) :
    Holds cmp ⟨(t0, items) ::ₘ ts, loose⟩ t0 k v ↔ ∃ i ∈ items, cmp k i.key = 0 ∧ i.value = v := by
  rw [holds_swap w]; simp

/-- Taking an item out of a sorted tree. -/
theorem exists_drop {xs ys : List Item} {i : Item} {k v : Nat} (o : Order cmp) (h : Sorted cmp (xs ++ i :: ys)) :
    (∃ j ∈ xs ++ ys, cmp k j.key = 0 ∧ j.value = v) ↔ cmp k i.key ≠ 0 ∧ ∃ j ∈ xs ++ i :: ys, cmp k j.key = 0 ∧ j.value = v := by
  obtain ⟨-, h1, h2⟩ := sorted_parts h
  constructor
  · rintro ⟨j, hj, e1, e2⟩
    refine ⟨fun e => ?_, j, ?_, e1, e2⟩
    · have e3 := o.eq_trans (o.symm e) e1
      have e4 := o.symm e3
      rcases List.mem_append.1 hj with hj | hj
      · have := h1 j hj; omega
      · have := h2 j hj; omega
    · simp only [List.mem_append, List.mem_cons] at hj ⊢; tauto
  · rintro ⟨hn, j, hj, e1, e2⟩
    refine ⟨j, ?_, e1, e2⟩
    simp only [List.mem_append, List.mem_cons] at hj ⊢
    rcases hj with hj | rfl | hj
    · exact Or.inl hj
    · exact absurd e1 hn
    · exact Or.inr hj

/-- The key `k` is that of the element `e` of tree `t`. -/
def IsKey (cmp : Nat → Nat → Int) (s : State) (t e k : Nat) : Prop := ∃ x ∈ s.trees, x.1 = t ∧ ∃ i ∈ x.2, i.elem = e ∧ cmp k i.key = 0

theorem isKey_here {t k : Nat} {xs ys : List Item} {i : Item} {ts : Multiset (Nat × List Item)} {loose : Multiset Item}
    (w : WF cmp ⟨(t, xs ++ i :: ys) ::ₘ ts, loose⟩) : IsKey cmp ⟨(t, xs ++ i :: ys) ::ₘ ts, loose⟩ t i.elem k ↔ cmp k i.key = 0 := by
  constructor
  · rintro ⟨x, hx, e, j, hj, e1, e2⟩
    rcases Multiset.mem_cons.1 (show x ∈ (t, xs ++ i :: ys) ::ₘ ts from hx) with rfl | hx
    · by_cases hji : j = i
      · rw [← hji]; exact e2
      · refine absurd e1 (w.elem_unique j ?_)
        simp only [List.mem_append, List.mem_cons] at hj ⊢; tauto
    · exact absurd e (w.only x hx)
  · exact fun e => ⟨_, Multiset.mem_cons_self _ _, rfl, i, by simp, rfl, e⟩

/-- What the calls do to the maps that the trees stand for. -/
def After (cmp : Nat → Nat → Int) (s : State) (t k v : Nat) : Op → Res → Prop
  | .put t0 k0 v0, _ => (t0 = t ∧ cmp k0 k = 0 ∧ v = v0) ∨ (¬ (t0 = t ∧ cmp k0 k = 0) ∧ Holds cmp s t k v)
  | .pop t0 k0, _ => ¬ (t0 = t ∧ cmp k0 k = 0) ∧ Holds cmp s t k v
  | .detach t0 e, _ | .remove t0 e, _ | .popFirst t0, .ptr e | .popLast t0, .ptr e =>
    ¬ (t0 = t ∧ IsKey cmp s t0 e k) ∧ Holds cmp s t k v
  | .destroy t0, _ => t0 ≠ t ∧ Holds cmp s t k v
  | .copy t0, .ptr q => if q = t then Holds cmp s t0 k v else Holds cmp s t k v
  | _, _ => Holds cmp s t k v

theorem holds_out {t t0 k v : Nat} {xs ys : List Item} {i : Item} {ts : Multiset (Nat × List Item)} {loose loose' : Multiset Item} (o : Order cmp)
    (w : WF cmp ⟨(t0, xs ++ i :: ys) ::ₘ ts, loose⟩) : Holds cmp ⟨(t0, xs ++ ys) ::ₘ ts, loose'⟩ t k v ↔
      ¬ (t0 = t ∧ cmp k i.key = 0) ∧ Holds cmp ⟨(t0, xs ++ i :: ys) ::ₘ ts, loose⟩ t k v := by
  rw [holds_swap w, exists_drop o (w.sorted o _ (Multiset.mem_cons_self _ _)), ← holds_here w]
  by_cases e : t0 = t
  · subst e; simp
  · simp [e]

theorem step_map (o : Order cmp) {op : Op} {r : Res} (h : Step cmp s op r s') (w : WF cmp s) (t k v : Nat) :
    Holds cmp s' t k v ↔ After cmp s t k v op r := by
  cases h with
  | @make ts loose a hf =>
    simp only [After]
    rw [holds_cons]; simp
  | @destroy t0 items ts loose =>
    simp only [After]
    by_cases e : t0 = t
    · subst e; simp [w.only_holds]
    · rw [holds_cons]; simp [e]
  | @copy t0 items items' ts loose q h =>
    simp only [After]
    rw [holds_here w]
    have w' : ¬ Holds cmp ⟨(t0, items) ::ₘ ts, loose⟩ q k v := by
      rintro ⟨x, hx, e, -⟩
      exact ((h.fresh q (by simp)).2.1 x hx).1 e
    have hs : (∃ i ∈ items', cmp k i.key = 0 ∧ i.value = v) ↔ ∃ i ∈ items, cmp k i.key = 0 ∧ i.value = v := by
      have : ∀ l : List Item, (∃ i ∈ l, cmp k i.key = 0 ∧ i.value = v) ↔ ∃ y ∈ l.map (fun i => (i.key, i.value)), cmp k y.1 = 0 ∧ y.2 = v := by
        intro l; simp [List.mem_map]
      rw [this, this, h.same]
    rw [holds_cons, hs]
    by_cases e : q = t
    · subst e
      simp only [true_and, if_true]
      constructor
      · rintro (h | h)
        · exact h
        · exact absurd h w'
      · exact Or.inl
    · simp [e]
  | @put_new t0 xs ys ts loose k0 v0 a h hf =>
    simp only [After]
    rw [holds_swap w]
    by_cases e : t0 = t
    · subst e
      rw [holds_here w]
      obtain ⟨h1, h2⟩ := h o
      simp only [true_and, ne_eq, not_true_eq_false, false_and, or_false]
      by_cases hk : cmp k0 k = 0
      · simp only [hk, true_and, not_true_eq_false, false_and, or_false]
        constructor
        · rintro ⟨j, hj, e1, rfl⟩
          simp only [List.mem_append, List.mem_cons] at hj
          rcases hj with hj | rfl | hj
          · have := h1 j hj; have := o.symm (o.eq_trans hk e1); omega
          · rfl
          · have := h2 j hj; have := o.symm (o.eq_trans hk e1); omega
        · rintro rfl; exact ⟨⟨a, k0, v⟩, by simp, o.symm hk, rfl⟩
      · simp only [hk, false_and, not_false_eq_true, true_and, false_or]
        constructor
        · rintro ⟨j, hj, e1, e2⟩
          simp only [List.mem_append, List.mem_cons] at hj
          rcases hj with hj | rfl | hj
          · exact ⟨j, by simp [hj], e1, e2⟩
          · exact absurd (o.symm e1) hk
          · exact ⟨j, by simp [hj], e1, e2⟩
        · rintro ⟨j, hj, e1, e2⟩
          refine ⟨j, ?_, e1, e2⟩
          simp only [List.mem_append, List.mem_cons] at hj ⊢; tauto
    · simp [e]
  | @put_replace t0 xs i ys ts loose k0 v0 a h hf =>
    simp only [After]
    rw [holds_swap w]
    by_cases e : t0 = t
    · subst e
      rw [holds_here w]
      have hs := w.sorted o _ (Multiset.mem_cons_self _ _)
      simp only [true_and, ne_eq, not_true_eq_false, false_and, or_false]
      have hd := exists_drop (k := k) (v := v) o hs
      by_cases hk : cmp k0 k = 0
      · simp only [hk, true_and, not_true_eq_false, false_and, or_false]
        constructor
        · rintro ⟨j, hj, e1, rfl⟩
          by_cases hji : j = ⟨a, k0, v0⟩
          · rw [hji]
          · refine absurd (o.eq_trans (o.symm hk) h) (hd.1 ⟨j, ?_, e1, rfl⟩).1
            simp only [List.mem_append, List.mem_cons] at hj ⊢; tauto
        · rintro rfl; exact ⟨⟨a, k0, v⟩, by simp, o.symm hk, rfl⟩
      · simp only [hk, false_and, not_false_eq_true, true_and, false_or]
        have hki : cmp k i.key ≠ 0 := fun e => hk (o.eq_trans h (o.symm e))
        constructor
        · rintro ⟨j, hj, e1, e2⟩
          refine (hd.1 ⟨j, ?_, e1, e2⟩).2
          simp only [List.mem_append, List.mem_cons] at hj ⊢
          rcases hj with hj | rfl | hj
          · exact Or.inl hj
          · exact absurd (o.symm e1) hk
          · exact Or.inr hj
        · intro h'
          obtain ⟨j, hj, e1, e2⟩ := hd.2 ⟨hki, h'⟩
          refine ⟨j, ?_, e1, e2⟩
          simp only [List.mem_append, List.mem_cons] at hj ⊢; tauto
    · simp [e]
  | @pop_hit t0 xs i ys ts loose k0 h =>
    simp only [After]
    rw [holds_out o w]
    have : cmp k i.key = 0 ↔ cmp k0 k = 0 := ⟨fun e => o.eq_trans h (o.symm e), fun e => o.eq_trans (o.symm e) h⟩
    rw [this]
  | @pop_miss t0 items ts loose k0 h =>
    simp only [After]
    constructor
    · intro hh
      refine ⟨?_, hh⟩
      rintro ⟨rfl, hk⟩
      obtain ⟨i, hi, e1, -⟩ := (holds_here w).1 hh
      exact h o i hi (o.eq_trans hk e1)
    · exact fun h => h.2
  | @popFirst t0 i ys ts loose =>
    simp only [After]
    have e : IsKey cmp ⟨(t0, i :: ys) ::ₘ ts, loose⟩ t0 i.elem k ↔ cmp k i.key = 0 := isKey_here (xs := []) w
    rw [e]
    exact holds_out (xs := []) o w
  | @popFirst_empty t0 ts loose =>
    simp only [After]
    refine ⟨fun hh => ⟨?_, hh⟩, fun h => h.2⟩
    rintro ⟨rfl, -⟩
    simp [holds_here w] at hh
  | @popLast t0 xs i ts loose =>
    simp only [After]
    rw [isKey_here (ys := []) w]
    have := holds_out (ys := []) (t := t) (k := k) (v := v) (loose' := i ::ₘ loose) o w
    rwa [List.append_nil] at this
  | @popLast_empty t0 ts loose =>
    simp only [After]
    refine ⟨fun hh => ⟨?_, hh⟩, fun h => h.2⟩
    rintro ⟨rfl, -⟩
    simp [holds_here w] at hh
  | detach => simp only [After]; rw [isKey_here w]; exact holds_out o w
  | remove => simp only [After]; rw [isKey_here w]; exact holds_out o w
  | discard => exact Iff.rfl
  | looks h => cases h <;> exact Iff.rfl
  | key_loose => exact Iff.rfl
  | value_loose => exact Iff.rfl

end Verif.Spec.Avl
