import Verif.Proofs.AvlBalance
import Verif.Proofs.AvlSpec
import Verif.Proofs.Height

/-! Properties C01-C10: the AVL tree. -/

namespace Verif.Avl
open Spec.Avl

variable {cmp : Nat → Nat → Int}

theorem winv_init [Ptrs] (cmp : Nat → Nat → Int) (m0 : Mem) : WInv cmp m0 ⟨0, 0⟩ m0 :=
  ⟨[], [], ⟨by simp, by simp, by simp [owned], by simp [owned], fun _ _ => rfl⟩, rfl⟩

/-- Every program, for every comparator: it runs to the end and memory is that of a specified state. -/
theorem exec_inv [Ptrs] {A : Alloc} (hA : A.Good) {F : Funs} {p : Prog} (m0 : Mem) (hp : Legal (F.cmp Ptrs.cmp Ptrs.obj) p ⟨0, 0⟩) :
    ∃ rs m s, Run (exec A F Ptrs.cmp Ptrs.obj p) m0 rs m ∧ Runs (F.cmp Ptrs.cmp Ptrs.obj) p ⟨0, 0⟩ rs s ∧ WInv (F.cmp Ptrs.cmp Ptrs.obj) m0 s m := by
  obtain ⟨⟨rs, m, h1, s, h2, h3⟩⟩ := exec_sim hA p ⟨0, 0⟩ m0 (winv_init (F.cmp Ptrs.cmp Ptrs.obj) m0) hp
  exact ⟨rs, m, s, h1, h2, h3⟩

/-- C01, C06: every program on AVL trees that keeps to the rules, with any comparator whatever, runs to the end without undefined behaviour, each of its
results is one that the specification allows, and memory that was in use before is untouched. -/
theorem avl_tree_refines {A : Alloc} (hA : A.Good) (F : Funs) (f d : Nat) (p : Prog) (m0 : Mem)
    (hp : Legal (F.cmp f d) p ⟨0, 0⟩) :
    ∃ rs m s, Run (exec A F f d p) m0 rs m ∧ Runs (F.cmp f d) p ⟨0, 0⟩ rs s ∧ ∀ a, m0.get a ≠ none → m.get a = m0.get a := by
  letI : Ptrs := ⟨0, f, d, 0⟩
  obtain ⟨rs, m, s, h1, h2, ⟨ws, det, h, -⟩⟩ := exec_inv hA m0 hp
  exact ⟨rs, m, s, h1, h2, fun a ha => h.frame a fun ho => ha (h.fresh a ho)⟩

/-- Integers in their usual order. -/
theorem order_int : Order (fun a b => (a : Int) - b) := ⟨by intro a b; omega, by intro a b c; omega⟩

theorem make_has {s s' : State} {op : Op} {r : Res} (h : Step cmp s op r s') : op = .make → ∃ t, r = .ptr t ∧ Has s' t := by
  cases h with
  | make => intro _; exact ⟨_, rfl, by simp [Has]⟩
  | looks h => cases h <;> simp
  | _ => simp

theorem put_has {s s' : State} {op : Op} {r : Res} (h : Step cmp s op r s') : ∀ t k v, op = .put t k v → (∀ u, Has s u → Has s' u) ∧
    ∃ p, r = .ptr p ∧ (p ≠ 0 → ∃ i ∈ s'.loose, i.elem = p) := by
  cases h with
  | put_new => rintro t k v ⟨⟩; exact ⟨fun u hu => by simpa [Has] using hu, 0, rfl, fun h => absurd rfl h⟩
  | put_replace => rintro t k v ⟨⟩; exact ⟨fun u hu => by simpa [Has] using hu, _, rfl, fun _ => ⟨_, Multiset.mem_cons_self _ _, rfl⟩⟩
  | looks h => cases h <;> simp
  | _ => simp

theorem discard_has {s s' : State} {op : Op} {r : Res} (h : Step cmp s op r s') : ∀ e, op = .discard e → ∀ u, Has s u → Has s' u := by
  cases h with
  | discard => intro e _ u hu; exact hu
  | looks h => cases h <;> simp
  | _ => simp

/-- A program: make a tree, put the same key twice, discard what was displaced, iterate and destroy the tree. -/
def demo : Prog := .call .make fun
  | .ptr t => .call (.put t 7 70) fun _ => .call (.put t 7 71) fun
    | .ptr (q + 1) => .call (.discard (q + 1)) fun _ => .call (.forwards t) fun _ => .call (.destroy t) fun _ => .done
    | _ => .done
  | _ => .done

/-- Not vacuous: the program keeps to the rules. -/
example (cmp : Nat → Nat → Int) : Legal cmp demo ⟨0, 0⟩ := by
  refine ⟨trivial, fun r1 s1 h1 => ?_⟩
  obtain ⟨t, rfl, ht⟩ := make_has h1 rfl
  refine ⟨ht, fun r2 s2 h2 => ?_⟩
  refine ⟨(put_has h2 _ _ _ rfl).1 t ht, fun r3 s3 h3 => ?_⟩
  obtain ⟨hh, p, rfl, hp⟩ := put_has h3 _ _ _ rfl
  have ht3 := hh t ((put_has h2 _ _ _ rfl).1 t ht)
  cases p with
  | zero => trivial
  | succ q =>
    refine ⟨hp (by simp), fun r4 s4 h4 => ?_⟩
    have ht4 := discard_has h4 _ rfl t ht3
    refine ⟨ht4, fun r5 s5 h5 => ?_⟩
    generalize hop : Op.forwards t = op at h5
    cases h5 with
    | looks h => exact ⟨ht4, fun _ _ _ => trivial⟩
    | _ => simp at hop

/-- C01: in every state that a program can reach all addresses are distinct and, if the comparator is an order, each tree is sorted. -/
theorem avl_reachable_wf {p : Prog} {rs : List Res} {s : State} (h : Runs cmp p ⟨0, 0⟩ rs s) : WF cmp s := runs_wf h (wf_init cmp)

/-- C01, each tree as a map from keys to values: `put` stores its value under its key, `pop` empties its key, removing, detaching or popping an element
empties that element's key, a copy is the same map, and nothing else changes. -/
theorem avl_map (o : Order cmp) {s s' : State} {op : Op} {r : Res} (h : Step cmp s op r s') (w : WF cmp s) (t k v : Nat) :
    Holds cmp s' t k v ↔ match op, r with
      | .put t0 k0 v0, _ => (t0 = t ∧ cmp k0 k = 0 ∧ v = v0) ∨ (¬ (t0 = t ∧ cmp k0 k = 0) ∧ Holds cmp s t k v)
      | .pop t0 k0, _ => ¬ (t0 = t ∧ cmp k0 k = 0) ∧ Holds cmp s t k v
      | .detach t0 e, _ | .remove t0 e, _ | .popFirst t0, .ptr e | .popLast t0, .ptr e =>
        ¬ (t0 = t ∧ IsKey cmp s t0 e k) ∧ Holds cmp s t k v
      | .destroy t0, _ => t0 ≠ t ∧ Holds cmp s t k v
      | .copy t0, .ptr q => if q = t then Holds cmp s t0 k v else Holds cmp s t k v
      | _, _ => Holds cmp s t k v := by
  have := step_map o h w t k v
  cases h with
  | looks h => cases h <;> exact this
  | _ => exact this

/-- C01, the result of `get`: NULL exactly when nothing is stored under the key, else the element holding the key's value. -/
theorem avl_get (o : Order cmp) {s s' : State} {t k : Nat} {r : Res} (h : Step cmp s (.get t k) r s') (w : WF cmp s) :
    s' = s ∧ ((r = .ptr 0 ∧ ∀ v, ¬ Holds cmp s t k v) ∨
      ∃ x ∈ s.trees, x.1 = t ∧ ∃ i ∈ x.2, r = .ptr i.elem ∧ i.elem ≠ 0 ∧ cmp k i.key = 0 ∧ Holds cmp s t k i.value) := by
  generalize hop : Op.get t k = op at h
  cases h with
  | looks h =>
    refine ⟨rfl, ?_⟩
    cases h with
    | get_hit hi hk =>
      cases hop
      exact Or.inr ⟨_, Multiset.mem_cons_self _ _, rfl, _, hi, rfl, fun h0 => w.nonnull (h0 ▸ mem_addrs.2
        (Or.inl ⟨_, Multiset.mem_cons_self _ _, Or.inr ⟨_, hi, rfl⟩⟩)), hk, _, Multiset.mem_cons_self _ _, rfl, _, hi, hk, rfl⟩
    | get_miss h =>
      cases hop
      refine Or.inl ⟨rfl, fun v hv => ?_⟩
      obtain ⟨i, hi, e, -⟩ := (holds_here w).1 hv
      exact h o i hi e
    | _ => cases hop
  | _ => cases hop

/-- C01, the result of `put`: NULL if nothing was stored under the key, else the displaced element, which keeps its key and value. -/
theorem avl_put (o : Order cmp) {s s' : State} {t k v : Nat} {r : Res} (h : Step cmp s (.put t k v) r s') (w : WF cmp s) :
    (r = .ptr 0 ∧ ∀ u, ¬ Holds cmp s t k u) ∨
      ∃ x ∈ s.trees, x.1 = t ∧ ∃ i ∈ x.2, r = .ptr i.elem ∧ i.elem ≠ 0 ∧ cmp k i.key = 0 ∧ Holds cmp s t k i.value ∧ i ∈ s'.loose := by
  generalize hop : Op.put t k v = op at h
  cases h with
  | put_new h hf =>
    cases hop
    refine Or.inl ⟨rfl, fun u hu => ?_⟩
    obtain ⟨i, hi, e, -⟩ := (holds_here w).1 hu
    have e' := o.symm e
    rcases List.mem_append.1 hi with hi | hi
    · have := (h o).1 i hi; omega
    · have := (h o).2 i hi; omega
  | @put_replace _ xs i ys _ _ _ _ _ h hf =>
    cases hop
    have hi : i ∈ xs ++ i :: ys := by simp
    exact Or.inr ⟨_, Multiset.mem_cons_self _ _, rfl, i, hi, rfl, fun h0 => w.nonnull (h0 ▸ mem_addrs.2
      (Or.inl ⟨_, Multiset.mem_cons_self _ _, Or.inr ⟨i, hi, rfl⟩⟩)), h, ⟨_, Multiset.mem_cons_self _ _, rfl, i, hi, h, rfl⟩,
      Multiset.mem_cons_self _ _⟩
  | looks h => cases h <;> cases hop
  | _ => cases hop

/-- C10 is violated: putting the value that is already stored under the key never returns NULL; it takes the old element out of the tree. -/
theorem avl_put_same_violated (o : Order cmp) {s s' : State} {t k v : Nat} {r : Res} (h : Step cmp s (.put t k v) r s') (w : WF cmp s)
    (hv : Holds cmp s t k v) : r ≠ .ptr 0 ∧ ∃ i ∈ s'.loose, r = .ptr i.elem ∧ ∀ x ∈ s'.trees, i ∉ x.2 := by
  rcases avl_put o h w with ⟨-, hn⟩ | ⟨x, hx, -, i, hi, rfl, h0, hk, -, hl⟩
  · exact absurd hv (hn v)
  · refine ⟨by simpa using h0, i, hl, rfl, fun x hx hix => ?_⟩
    have w' := (step_wf h w).nodup
    obtain ⟨l, hl'⟩ := Multiset.exists_cons_of_mem hl
    obtain ⟨ts, ht⟩ := Multiset.exists_cons_of_mem hx
    have e : s' = ⟨(x.1, x.2) ::ₘ ts, i ::ₘ l⟩ := by cases s'; simp_all
    rw [e, addrs_cons, addrs_loose, Multiset.nodup_cons, Multiset.nodup_add] at w'
    have hd := w'.2.2.2
    rw [Multiset.disjoint_left] at hd
    exact hd (Multiset.mem_coe.2 (List.mem_map.2 ⟨i, hix, rfl⟩)) (Multiset.mem_cons_self _ _)

/-- C10, what holds of it: putting the value that is already stored under the key leaves every tree the same map, and the displaced element holds that
value. Missing: that the call returns NULL and has no effect; it replaces the element instead. -/
theorem avl_put_same_partial (o : Order cmp) {s s' : State} {t k v : Nat} {r : Res} (h : Step cmp s (.put t k v) r s') (w : WF cmp s)
    (hv : Holds cmp s t k v) : (∀ t' k' v', Holds cmp s' t' k' v' ↔ Holds cmp s t' k' v') ∧ ∃ i ∈ s'.loose, r = .ptr i.elem ∧ i.value = v := by
  have huniq : ∀ u, Holds cmp s t k u → u = v := by
    generalize hop : Op.put t k v = op at h
    intro u hu
    obtain ⟨x, hx, rfl, i, hi, e1, rfl⟩ := hv
    obtain ⟨y, hy, e, j, hj, e3, rfl⟩ := hu
    obtain ⟨ts, ht⟩ := Multiset.exists_cons_of_mem hx
    have es : s = ⟨(x.1, x.2) ::ₘ ts, s.loose⟩ := by cases s; simp_all
    have hy' : (x.1, y.2) ∈ (⟨(x.1, x.2) ::ₘ ts, s.loose⟩ : State).trees := by rw [← es, ← e]; exact hy
    have hxy := WF.items (es ▸ w) hy'
    rw [hxy] at hj
    rw [sorted_unique o (w.sorted o x hx) hi hj (o.eq_trans (o.symm e1) e3)]
  refine ⟨fun t' k' v' => ?_, ?_⟩
  · have := avl_map o h w t' k' v'
    simp only at this
    rw [this]
    constructor
    · rintro (⟨rfl, hk, rfl⟩ | ⟨-, h⟩)
      · obtain ⟨x, hx, e, i, hi, e1, e2⟩ := hv
        exact ⟨x, hx, e, i, hi, o.eq_trans (o.symm hk) e1, e2⟩
      · exact h
    · intro h'
      by_cases hc : t = t' ∧ cmp k k' = 0
      · obtain ⟨rfl, hk⟩ := hc
        obtain ⟨x, hx, e, i, hi, e1, e2⟩ := h'
        exact Or.inl ⟨rfl, hk, huniq v' ⟨x, hx, e, i, hi, o.eq_trans hk e1, e2⟩⟩
      · exact Or.inr ⟨hc, h'⟩
  · rcases avl_put o h w with ⟨-, hn⟩ | ⟨x, hx, -, i, hi, rfl, h0, hk, hh, hl⟩
    · exact absurd hv (hn v)
    · exact ⟨i, hl, rfl, huniq _ hh⟩

/-- C10, a witness: a program that puts the same key and value twice gets an element back, whatever the allocator and the memory. -/
theorem avl_put_same_witness {A : Alloc} (hA : A.Good) (F : Funs) (f d : Nat) (o : Order (F.cmp f d)) (m0 : Mem) :
    ∃ t q m, q ≠ 0 ∧ Run (exec A F f d (.call .make fun
      | .ptr t => .call (.put t 7 70) fun _ => .call (.put t 7 70) fun _ => .done
      | _ => .done)) m0 [.ptr t, .ptr 0, .ptr q] m := by
  letI : Ptrs := ⟨0, f, d, 0⟩
  have hp : Legal (F.cmp f d) (.call .make fun
      | .ptr t => .call (.put t 7 70) fun _ => .call (.put t 7 70) fun _ => .done
      | _ => .done) ⟨0, 0⟩ := by
    refine ⟨trivial, fun r1 s1 h1 => ?_⟩
    obtain ⟨t, rfl, ht⟩ := make_has h1 rfl
    exact ⟨ht, fun r2 s2 h2 => ⟨(put_has h2 _ _ _ rfl).1 t ht, fun _ _ _ => trivial⟩⟩
  obtain ⟨rs, m, s, h1, h2, -⟩ := exec_inv hA m0 hp
  cases h2 with
  | @call _ _ _ r1 s1 rs1 _ h3 h4 =>
    obtain ⟨t, rfl, ht⟩ := make_has h3 rfl
    have w1 := step_wf h3 (wf_init (F.cmp f d))
    have n1 : ∀ u, ¬ Holds (F.cmp f d) s1 t 7 u := by
      intro u hu
      have := (avl_map o h3 (wf_init (F.cmp f d)) t 7 u).1 hu
      obtain ⟨x, hx, -⟩ := this
      simp at hx
    cases h4 with
    | @call _ _ _ r2 s2 rs2 _ h5 h6 =>
      have w2 := step_wf h5 w1
      have hv : Holds (F.cmp f d) s2 t 7 70 := by
        refine (avl_map o h5 w1 t 7 70).2 (Or.inl ⟨rfl, ?_, rfl⟩)
        have := o.anti 7 7; omega
      rcases avl_put o h5 w1 with ⟨rfl, -⟩ | ⟨x, hx, e, i, hi, -, -, hk, hh, -⟩
      · cases h6 with
        | @call _ _ _ r3 s3 rs3 _ h7 h8 =>
          obtain ⟨hne, i, -, rfl, -⟩ := avl_put_same_violated o h7 w2 hv
          cases h8 with
          | done => exact ⟨t, i.elem, m, by simpa using hne, h1⟩
      · exact absurd hh (n1 _)

/-- The item is in tree `t`. -/
def Item.inTree (s : State) (t : Nat) (i : Item) : Prop := ∃ x ∈ s.trees, x.1 = t ∧ i ∈ x.2

theorem inTree_here {t : Nat} {items : List Item} {ts : Multiset (Nat × List Item)} {loose : Multiset Item} {i : Item}
    (w : WF cmp ⟨(t, items) ::ₘ ts, loose⟩) : Item.inTree ⟨(t, items) ::ₘ ts, loose⟩ t i ↔ i ∈ items := by
  constructor
  · rintro ⟨x, hx, e, hi⟩
    rcases Multiset.mem_cons.1 (show x ∈ (t, items) ::ₘ ts from hx) with rfl | hx
    · exact hi
    · exact absurd e (w.only x hx)
  · exact fun hi => ⟨_, Multiset.mem_cons_self _ _, rfl, hi⟩

/-- `p` is the greatest item of tree `t` with `P`, or NULL if there is none. -/
def Greatest (cmp : Nat → Nat → Int) (s : State) (t : Nat) (P : Nat → Prop) (p : Nat) : Prop :=
  (p = 0 ∧ ∀ i, Item.inTree s t i → ¬ P i.key) ∨
  (p ≠ 0 ∧ ∃ i, Item.inTree s t i ∧ p = i.elem ∧ P i.key ∧ ∀ j, Item.inTree s t j → P j.key → j ≠ i → cmp j.key i.key < 0)

/-- `p` is the least item of tree `t` with `P`, or NULL if there is none. -/
def Least (cmp : Nat → Nat → Int) (s : State) (t : Nat) (P : Nat → Prop) (p : Nat) : Prop :=
  (p = 0 ∧ ∀ i, Item.inTree s t i → ¬ P i.key) ∨
  (p ≠ 0 ∧ ∃ i, Item.inTree s t i ∧ p = i.elem ∧ P i.key ∧ ∀ j, Item.inTree s t j → P j.key → j ≠ i → cmp i.key j.key < 0)

theorem elem_ne {t : Nat} {items : List Item} {ts : Multiset (Nat × List Item)} {loose : Multiset Item} {i : Item}
    (w : WF cmp ⟨(t, items) ::ₘ ts, loose⟩) (hi : i ∈ items) : i.elem ≠ 0 :=
  fun h0 => w.nonnull (h0 ▸ mem_addrs.2 (Or.inl ⟨_, Multiset.mem_cons_self _ _, Or.inr ⟨i, hi, rfl⟩⟩))

theorem greatest_of {t p : Nat} {items : List Item} {ts : Multiset (Nat × List Item)} {loose : Multiset Item} {P : Nat → Prop} (o : Order cmp)
    (w : WF cmp ⟨(t, items) ::ₘ ts, loose⟩) (h : LastWith (fun i => P i.key) items p) :
    Greatest cmp ⟨(t, items) ::ₘ ts, loose⟩ t P p := by
  rcases h with ⟨xs, i, ys, rfl, hP, hn, rfl⟩ | ⟨hn, rfl⟩
  · have hi : i ∈ xs ++ i :: ys := by simp
    refine Or.inr ⟨elem_ne w hi, i, (inTree_here w).2 hi, rfl, hP, fun j hj hPj hne => ?_⟩
    have hj := (inTree_here w).1 hj
    simp only [List.mem_append, List.mem_cons] at hj
    rcases hj with hj | rfl | hj
    · exact (sorted_parts (w.sorted o _ (Multiset.mem_cons_self _ _))).2.1 j hj
    · exact absurd rfl hne
    · exact absurd hPj (hn j hj)
  · exact Or.inl ⟨rfl, fun i hi => hn i ((inTree_here w).1 hi)⟩

theorem least_of {t p : Nat} {items : List Item} {ts : Multiset (Nat × List Item)} {loose : Multiset Item} {P : Nat → Prop} (o : Order cmp)
    (w : WF cmp ⟨(t, items) ::ₘ ts, loose⟩) (h : FirstWith (fun i => P i.key) items p) :
    Least cmp ⟨(t, items) ::ₘ ts, loose⟩ t P p := by
  rcases h with ⟨xs, i, ys, rfl, hP, hn, rfl⟩ | ⟨hn, rfl⟩
  · have hi : i ∈ xs ++ i :: ys := by simp
    refine Or.inr ⟨elem_ne w hi, i, (inTree_here w).2 hi, rfl, hP, fun j hj hPj hne => ?_⟩
    have hj := (inTree_here w).1 hj
    simp only [List.mem_append, List.mem_cons] at hj
    rcases hj with hj | rfl | hj
    · exact absurd hPj (hn j hj)
    · exact absurd rfl hne
    · exact (sorted_parts (w.sorted o _ (Multiset.mem_cons_self _ _))).2.2 j hj
  · exact Or.inl ⟨rfl, fun i hi => hn i ((inTree_here w).1 hi)⟩

/-- C02: the ordered queries return the element they document, and change nothing. -/
theorem avl_ordered_queries (o : Order cmp) {s s' : State} {op : Op} {p : Nat} (h : Step cmp s op (.ptr p) s') (w : WF cmp s) : match op with
    | .getBefore t k => s' = s ∧ Greatest cmp s t (fun k' => cmp k' k < 0) p
    | .getOnOrBefore t k => s' = s ∧ Greatest cmp s t (fun k' => cmp k' k ≤ 0) p
    | .getAfter t k => s' = s ∧ Least cmp s t (fun k' => cmp k' k > 0) p
    | .getOnOrAfter t k => s' = s ∧ Least cmp s t (fun k' => cmp k' k ≥ 0) p
    | .getFirst t => s' = s ∧ Least cmp s t (fun _ => True) p
    | .getLast t => s' = s ∧ Greatest cmp s t (fun _ => True) p
    | _ => True := by
  cases h with
  | looks h =>
    cases h with
    | getBefore hs h => exact ⟨rfl, greatest_of (P := fun k' => cmp k' _ < 0) o w (h o)⟩
    | getOnOrBefore hs h => exact ⟨rfl, greatest_of (P := fun k' => cmp k' _ ≤ 0) o w (h o)⟩
    | getAfter hs h => exact ⟨rfl, least_of (P := fun k' => cmp k' _ > 0) o w (h o)⟩
    | getOnOrAfter hs h => exact ⟨rfl, least_of (P := fun k' => cmp k' _ ≥ 0) o w (h o)⟩
    | getFirst h => exact ⟨rfl, least_of (P := fun _ => True) o w h⟩
    | getLast h => exact ⟨rfl, greatest_of (P := fun _ => True) o w h⟩
    | _ => trivial
  | _ => trivial

/-- Not vacuous: a tree of two elements and a query between its keys. -/
example : ∃ s : State, WF (fun a b => (a : Int) - b) s ∧ Holds (fun a b => (a : Int) - b) s 1 7 70 ∧
    Step (fun a b => (a : Int) - b) s (.getBefore 1 6) (.ptr 2) s ∧ Step (fun a b => (a : Int) - b) s (.forwards 1) (.ptrs [2, 3]) s := by
  refine ⟨⟨(1, [⟨2, 5, 50⟩, ⟨3, 7, 70⟩]) ::ₘ 0, 0⟩, ⟨?_, ?_, ?_⟩, ?_, .looks (.getBefore ?_ fun _ => ?_), .looks .forwards⟩
  · rw [addrs_cons]; simp [Spec.Avl.addrs]
  · rw [addrs_cons]; simp [Spec.Avl.addrs]
  · intro _ x hx
    simp only [Multiset.cons_zero, Multiset.mem_singleton] at hx
    subst hx; simp [Sorted]
  · exact ⟨(1, [⟨2, 5, 50⟩, ⟨3, 7, 70⟩]), by simp, rfl, ⟨3, 7, 70⟩, by simp, by simp, rfl⟩
  · exact Or.inl ⟨⟨2, 5, 50⟩, by simp, rfl⟩
  · exact Or.inl ⟨[], ⟨2, 5, 50⟩, [⟨3, 7, 70⟩], rfl, by simp, by simp, rfl⟩

/-- C03: the two loops visit the elements of the tree, each exactly once, in ascending and in descending order of their keys. -/
theorem avl_iteration {s s' : State} {t : Nat} {r : Res} (w : WF cmp s) :
    (Step cmp s (.forwards t) r s' → s' = s ∧ ∃ items : List Item, r = .ptrs (items.map (·.elem)) ∧ (∀ i, i ∈ items ↔ Item.inTree s t i) ∧
      (items.map (·.elem)).Nodup ∧ (Order cmp → items.Pairwise fun i j => cmp i.key j.key < 0)) ∧
    (Step cmp s (.backwards t) r s' → s' = s ∧ ∃ items : List Item, r = .ptrs (items.map (·.elem)) ∧ (∀ i, i ∈ items ↔ Item.inTree s t i) ∧
      (items.map (·.elem)).Nodup ∧ (Order cmp → items.Pairwise fun i j => cmp i.key j.key > 0)) := by
  have hnd : ∀ {t : Nat} {items : List Item} {ts : Multiset (Nat × List Item)} {loose : Multiset Item},
      WF cmp ⟨(t, items) ::ₘ ts, loose⟩ → (items.map (·.elem)).Nodup := by
    intro t items ts loose w
    have := w.nodup
    rw [addrs_cons, Multiset.nodup_cons, Multiset.nodup_add] at this
    exact Multiset.coe_nodup.1 this.2.1
  constructor
  · intro h
    generalize hop : Op.forwards t = op at h
    cases h with
    | @looks t items ts loose _ _ h =>
      cases h with
      | forwards =>
        cases hop
        exact ⟨rfl, items, rfl, fun i => (inTree_here w).symm, hnd w, fun o => w.sorted o _ (Multiset.mem_cons_self _ _)⟩
      | _ => cases hop
    | _ => cases hop
  · intro h
    generalize hop : Op.backwards t = op at h
    cases h with
    | @looks t items ts loose _ _ h =>
      cases h with
      | backwards =>
        cases hop
        refine ⟨rfl, items.reverse, by rw [List.map_reverse], fun i => by rw [List.mem_reverse]; exact (inTree_here w).symm, ?_, fun o => ?_⟩
        · rw [List.map_reverse, List.nodup_reverse]; exact hnd w
        · rw [List.pairwise_reverse]
          exact (w.sorted o _ (Multiset.mem_cons_self _ _)).imp fun h => (o.anti _ _).1 h
      | _ => cases hop
    | _ => cases hop

/-- C05: the size is the number of stored elements, no two of which have equal keys, and the tree is empty exactly when the size is zero. -/
theorem avl_size {s s' : State} {t : Nat} (w : WF cmp s) :
    (∀ n, Step cmp s (.size t) (.num n) s' → s' = s ∧ ∃ items, (t, items) ∈ s.trees ∧ n = items.length ∧
      (Order cmp → items.Pairwise fun i j => cmp i.key j.key ≠ 0)) ∧
    (∀ b, Step cmp s (.empty t) (.bool b) s' → s' = s ∧ ∃ items, (t, items) ∈ s.trees ∧ (b = true ↔ items = [])) := by
  constructor
  · intro n h
    generalize hop : Op.size t = op at h
    cases h with
    | looks h =>
      cases h with
      | size =>
        cases hop
        refine ⟨rfl, _, Multiset.mem_cons_self _ _, rfl, fun o => ?_⟩
        exact (w.sorted o _ (Multiset.mem_cons_self _ _)).imp fun h => by omega
  · intro n h
    generalize hop : Op.empty t = op at h
    cases h with
    | looks h =>
      cases h with
      | empty =>
        cases hop
        exact ⟨rfl, _, Multiset.mem_cons_self _ _, by simp⟩

/-- C04: after every program, with any comparator, every element of every tree has subtrees whose heights, following the pointers in memory, differ by
at most one; a tree of `n` elements has height `h` with `fib (h+2) ≤ n+1`, hence `h < 1.45 log2 (n+2)`; and a lookup inspects at most `h` elements. -/
theorem avl_balanced {A : Alloc} (hA : A.Good) (F : Funs) (f d : Nat) (p : Prog) (m0 : Mem)
    (hp : Legal (F.cmp f d) p ⟨0, 0⟩) :
    ∃ rs m s, Run (exec A F f d p) m0 rs m ∧ Runs (F.cmp f d) p ⟨0, 0⟩ rs s ∧ ∀ t items, (t, items) ∈ s.trees →
      ∃ root n h, m.get t = some (.atree ⟨root, n, f, d⟩) ∧ Height m root h ∧ Nat.fib (h + 2) ≤ items.length + 1 ∧
        (h : ℝ) < 1.45 * Real.logb 2 (items.length + 2) ∧
        (∀ i ∈ items, Below m root i.elem) ∧ (∀ e, Below m root e → Even m e) ∧
        ∀ k, ∃ r c, Run (getCount (F.cmp f d) t k) m (r, c) m ∧ Run (get (F.cmp f d) t k) m r m ∧ c ≤ h := by
  letI : Ptrs := ⟨0, f, d, 0⟩
  obtain ⟨rs, m, s, h1, h2, h3⟩ := exec_inv hA m0 hp
  refine ⟨rs, m, s, h1, h2, fun tree items ht => ?_⟩
  obtain ⟨ws, det, h, rfl⟩ := h3
  simp only [Multiset.mem_coe, List.mem_map] at ht
  obtain ⟨w, hw, e⟩ := ht
  obtain ⟨rfl, rfl⟩ : w.1 = tree ∧ w.2.items = items := by simpa [view] using e
  have hg := h.good w hw
  have hroot : Run (root w.1) m w.2.ptr m := Run.bind (run_readA hg.z.around.tree0 hg.z.around.root) (Run.pure _ _)
  refine ⟨_, _, w.2.height, hg.z.around.root, Rep.height (p := 0) hg.z.sub, fib_le hg.bal, height_log (fib_le hg.bal), hg.z.sub.mem_below, hg.z.sub.even hg.bal, fun k => ?_⟩
  obtain ⟨⟨⟨r, c⟩, m', r1, rfl, r2, r3⟩⟩ := getLoopCount_spec (F.cmp f d) k w.2 _ hg.z.sub
  exact ⟨r, c, Run.bind hroot r1, Run.bind hroot r3, r2⟩

/-- The heights are those of the child pointers: a tree of height two has two elements at least. -/
example (m : Mem) (h : Height m 5 2) : ∃ e, m.get 5 = some (.aelem e) ∧ (e.left ≠ 0 ∨ e.right ≠ 0) := by
  generalize hn : 2 = n at h
  cases h with
  | @node _ a b e h0 h hl hr =>
    refine ⟨e, h, ?_⟩
    by_contra hc
    push Not at hc
    rw [hc.1] at hl; rw [hc.2] at hr
    cases hl with
    | null => cases hr with
      | null => simp at hn
      | node h0 => exact h0 rfl
    | node h0 => exact h0 rfl

/-- C07: an item stays in its tree, at its address with its key and value, in every call but those that take it out. -/
theorem avl_elements_stay {s s' : State} {op : Op} {r : Res} (h : Step cmp s op r s') {t : Nat} {i : Item} (hi : Item.inTree s t i) (w : WF cmp s) :
    Item.inTree s' t i ∨ op = .destroy t ∨ op = .remove t i.elem ∨
      (i ∈ s'.loose ∧ (op = .detach t i.elem ∨ (r = .ptr i.elem ∧ (op = .popFirst t ∨ op = .popLast t ∨ ∃ k, cmp k i.key = 0 ∧
        (op = .pop t k ∨ ∃ v, op = .put t k v))))) := by
  have hother : ∀ {t0 : Nat} {items items' : List Item} {ts : Multiset (Nat × List Item)} {loose loose' : Multiset Item},
      Item.inTree ⟨(t0, items) ::ₘ ts, loose⟩ t i → Item.inTree ⟨(t0, items') ::ₘ ts, loose'⟩ t i ∨ (t = t0 ∧ i ∈ items) := by
    rintro t0 items items' ts loose loose' ⟨x, hx, e, hi⟩
    rcases Multiset.mem_cons.1 (show x ∈ (t0, items) ::ₘ ts from hx) with rfl | hx
    · exact Or.inr ⟨e.symm, hi⟩
    · exact Or.inl ⟨x, Multiset.mem_cons_of_mem hx, e, hi⟩
  have hmid : ∀ {t0 : Nat} {xs ys : List Item} {j : Item} {ts : Multiset (Nat × List Item)} {loose loose' : Multiset Item},
      Item.inTree ⟨(t0, xs ++ j :: ys) ::ₘ ts, loose⟩ t i → Item.inTree ⟨(t0, xs ++ ys) ::ₘ ts, loose'⟩ t i ∨ (t = t0 ∧ i = j) := by
    intro t0 xs ys j ts loose loose' hi
    rcases hother (items' := xs ++ ys) (loose' := loose') hi with h | ⟨rfl, h⟩
    · exact Or.inl h
    · by_cases e : i = j
      · exact Or.inr ⟨rfl, e⟩
      · refine Or.inl ⟨_, Multiset.mem_cons_self _ _, rfl, ?_⟩
        simp only [List.mem_append, List.mem_cons] at h ⊢; tauto
  cases h with
  | make hf =>
    obtain ⟨x, hx, e, hi⟩ := hi
    exact Or.inl ⟨x, Multiset.mem_cons_of_mem hx, e, hi⟩
  | @destroy t0 items ts loose =>
    obtain ⟨x, hx, e, hi⟩ := hi
    rcases Multiset.mem_cons.1 (show x ∈ (t0, items) ::ₘ ts from hx) with rfl | hx
    · exact Or.inr (Or.inl (by rw [← e]))
    · exact Or.inl ⟨x, hx, e, hi⟩
  | copy h =>
    obtain ⟨x, hx, e, hi⟩ := hi
    exact Or.inl ⟨x, Multiset.mem_cons_of_mem hx, e, hi⟩
  | @put_new t0 xs ys ts loose k v a h hf =>
    rcases hother (items' := xs ++ ⟨a, k, v⟩ :: ys) (loose' := loose) hi with h | ⟨rfl, h⟩
    · exact Or.inl h
    · refine Or.inl ⟨_, Multiset.mem_cons_self _ _, rfl, ?_⟩
      simp only [List.mem_append, List.mem_cons] at h ⊢; tauto
  | @put_replace t0 xs j ys ts loose k v a h hf =>
    rcases hmid (loose' := loose) hi with ⟨x, hx, e, hi⟩ | ⟨rfl, rfl⟩
    · rcases Multiset.mem_cons.1 (show x ∈ (t0, xs ++ ys) ::ₘ ts from hx) with rfl | hx
      · refine Or.inl ⟨_, Multiset.mem_cons_self _ _, e, ?_⟩
        simp only [List.mem_append, List.mem_cons] at hi ⊢; tauto
      · exact Or.inl ⟨x, Multiset.mem_cons_of_mem hx, e, hi⟩
    · exact Or.inr (Or.inr (Or.inr ⟨Multiset.mem_cons_self _ _, Or.inr ⟨rfl, Or.inr (Or.inr ⟨k, h, Or.inr ⟨v, rfl⟩⟩)⟩⟩))
  | @pop_hit t0 xs j ys ts loose k h =>
    rcases hmid (loose' := j ::ₘ loose) hi with h' | ⟨rfl, rfl⟩
    · exact Or.inl h'
    · exact Or.inr (Or.inr (Or.inr ⟨Multiset.mem_cons_self _ _, Or.inr ⟨rfl, Or.inr (Or.inr ⟨k, h, Or.inl rfl⟩)⟩⟩))
  | pop_miss => exact Or.inl hi
  | @popFirst t0 j ys ts loose =>
    rcases hmid (xs := []) (loose' := j ::ₘ loose) hi with h' | ⟨rfl, rfl⟩
    · exact Or.inl h'
    · exact Or.inr (Or.inr (Or.inr ⟨Multiset.mem_cons_self _ _, Or.inr ⟨rfl, Or.inl rfl⟩⟩))
  | popFirst_empty => exact Or.inl hi
  | @popLast t0 xs j ts loose =>
    have := hmid (ys := []) (loose' := j ::ₘ loose) hi
    rw [List.append_nil] at this
    rcases this with h' | ⟨rfl, rfl⟩
    · exact Or.inl h'
    · exact Or.inr (Or.inr (Or.inr ⟨Multiset.mem_cons_self _ _, Or.inr ⟨rfl, Or.inr (Or.inl rfl)⟩⟩))
  | popLast_empty => exact Or.inl hi
  | @detach t0 xs j ys ts loose =>
    rcases hmid (loose' := j ::ₘ loose) hi with h' | ⟨rfl, rfl⟩
    · exact Or.inl h'
    · exact Or.inr (Or.inr (Or.inr ⟨Multiset.mem_cons_self _ _, Or.inl rfl⟩))
  | @remove t0 xs j ys ts loose =>
    rcases hmid (loose' := loose) hi with h' | ⟨rfl, rfl⟩
    · exact Or.inl h'
    · exact Or.inr (Or.inr (Or.inl rfl))
  | discard => exact Or.inl hi
  | looks => exact Or.inl hi
  | key_loose => exact Or.inl hi
  | value_loose => exact Or.inl hi

/-- C07, in memory: after every program the block of every element, in a tree or not, holds its key and value. -/
theorem avl_elements_in_memory {A : Alloc} (hA : A.Good) (F : Funs) (f d : Nat) (p : Prog) (m0 : Mem)
    (hp : Legal (F.cmp f d) p ⟨0, 0⟩) :
    ∃ rs m s, Run (exec A F f d p) m0 rs m ∧ Runs (F.cmp f d) p ⟨0, 0⟩ rs s ∧ ∀ i, ((∃ t, Item.inTree s t i) ∨ i ∈ s.loose) →
      Run (getKey i.elem) m i.key m ∧ Run (getValue i.elem) m i.value m := by
  letI : Ptrs := ⟨0, f, d, 0⟩
  obtain ⟨rs, m, s, h1, h2, h3⟩ := exec_inv hA m0 hp
  refine ⟨rs, m, s, h1, h2, fun i hi => ?_⟩
  have hcell : i.elem ≠ 0 ∧ ∃ q l r b, m.get i.elem = some (.aelem ⟨i.key, i.value, q, l, r, b⟩) := by
    obtain ⟨ws, det, h, rfl⟩ := h3
    rcases hi with ⟨t, x, hx, -, hi⟩ | hi
    · simp only [Multiset.mem_coe, List.mem_map] at hx
      obtain ⟨w, hw, rfl⟩ := hx
      exact ⟨(h.good w hw).z.elem_ne hi, (h.good w hw).z.sub.live i hi⟩
    · exact h.loose i hi
  obtain ⟨h0, q, l, r, b, e⟩ := hcell
  exact ⟨Run.bind (run_readAE h0 e) (Run.pure _ _), Run.bind (run_readAE h0 e) (Run.pure _ _)⟩

/-- The blocks that belong to the state. -/
theorem owned_addrs {s : State} {ws : List (Nat × T)} {det : List Item} (hs : s = ⟨↑(ws.map view), ↑det⟩) (a : Nat) :
    a ∈ Spec.Avl.addrs s ↔ a ∈ owned ws det := by
  rw [mem_addrs, mem_owned, hs]
  refine or_congr ?_ Iff.rfl
  constructor
  · rintro ⟨x, hx, h⟩
    simp only [Multiset.mem_coe, List.mem_map] at hx
    obtain ⟨w, hw, rfl⟩ := hx
    refine ⟨w, hw, ?_⟩
    rcases h with rfl | ⟨i, hi, rfl⟩
    · simp [foot, view]
    · rw [mem_foot]; exact Or.inr (Or.inl (List.mem_map.2 ⟨i, hi, rfl⟩))
  · rintro ⟨w, hw, ha⟩
    refine ⟨view w, Multiset.mem_coe.2 (List.mem_map.2 ⟨w, hw, rfl⟩), ?_⟩
    simp only [mem_foot, caddrs_nil, List.not_mem_nil, or_false] at ha
    rcases ha with rfl | ha
    · exact Or.inl rfl
    · exact Or.inr (List.mem_map.1 ha)

/-- Memory outside of the state is as it was. -/
theorem WInv.outside [Ptrs] {s : State} {m0 m : Mem} {a : Nat} (h : WInv cmp m0 s m) (ha : a ∉ Spec.Avl.addrs s) : m.get a = m0.get a := by
  obtain ⟨ws, det, h, hs⟩ := h
  exact h.frame a fun h' => ha ((owned_addrs hs a).2 h')

/-- What the block of a tree holds. -/
theorem WInv.cell [Ptrs] {s : State} {m0 m : Mem} {t : Nat} {items : List Item} (h : WInv cmp m0 s m) (ht : (t, items) ∈ s.trees) :
    ∃ root, m.get t = some (.atree ⟨root, items.length % 2 ^ 64, Ptrs.cmp, Ptrs.obj⟩) := by
  obtain ⟨ws, det, h, rfl⟩ := h
  simp only [Multiset.mem_coe, List.mem_map] at ht
  obtain ⟨w, hw, e⟩ := ht
  obtain ⟨rfl, rfl⟩ : w.1 = t ∧ w.2.items = items := by simpa [view] using e
  exact ⟨_, (h.good w hw).z.around.root⟩

/-- C08: after every program, copying a tree gives a tree with the same comparator and comparator object, and the same keys and values in the same
order, in new memory only; all memory in use before, so the original too, is unchanged; and every program can go on with the original and the copy as
two trees. -/
theorem avl_copy {A : Alloc} (hA : A.Good) (F : Funs) (f d : Nat) (p : Prog) (m0 : Mem) (hp : Legal (F.cmp f d) p ⟨0, 0⟩) :
    ∃ rs m s, Run (exec A F f d p) m0 rs m ∧ Runs (F.cmp f d) p ⟨0, 0⟩ rs s ∧ ∀ t items, (t, items) ∈ s.trees →
      ∃ q m' items', Run (copy A t) m q m' ∧ Step (F.cmp f d) s (.copy t) (.ptr q) ⟨(q, items') ::ₘ s.trees, s.loose⟩ ∧
        items'.map (fun i => (i.key, i.value)) = items.map (fun i => (i.key, i.value)) ∧
        (∃ c c', m.get t = some (.atree c) ∧ m'.get q = some (.atree c') ∧ c'.cmp = c.cmp ∧ c'.obj = c.obj ∧ c'.size = c.size) ∧
        (∀ a ∈ q :: items'.map (·.elem), m.get a = none) ∧ (∀ a, m.get a ≠ none → m'.get a = m.get a) ∧
        ∀ p', Legal (F.cmp f d) p' ⟨(q, items') ::ₘ s.trees, s.loose⟩ → ∃ rs' m'' s', Run (exec A F f d p') m' rs' m'' ∧
          Runs (F.cmp f d) p' ⟨(q, items') ::ₘ s.trees, s.loose⟩ rs' s' ∧ (∀ a, a ∉ Spec.Avl.addrs s' → m''.get a = m0.get a) := by
  letI : Ptrs := ⟨0, f, d, 0⟩
  obtain ⟨rs, m, s, h1, h2, h3⟩ := exec_inv hA m0 hp
  refine ⟨rs, m, s, h1, h2, fun tree items ht => ?_⟩
  have wf := avl_reachable_wf h2
  obtain ⟨t, ws, det, hf⟩ := h3.pick ⟨_, ht, rfl⟩
  have hit : items = t.items := by
    rw [hf.state] at ht wf
    exact wf.items ht
  obtain ⟨⟨q, m', r1, items', hc, hi, hn, hk⟩⟩ := copy_front hA hf
  have hst := hf.state
  refine ⟨q, m', items', r1, ?_, hit ▸ hc.same, ?_, hn, hk, fun p' hp' => ?_⟩
  · rw [hst] at hc ⊢
    exact .copy hc
  · have h1 := h3.cell ht
    have h2 := hi.cell (Multiset.mem_cons_self (q, items') _)
    obtain ⟨r1, e1⟩ := h1
    obtain ⟨r2, e2⟩ := h2
    refine ⟨_, _, e1, e2, rfl, rfl, ?_⟩
    have : items'.length = items.length := by simpa [hit] using congrArg List.length hc.same
    simp only [this]
  · obtain ⟨⟨rs', m'', g1, s', g2, g3⟩⟩ := exec_sim hA p' _ m' hi hp'
    exact ⟨rs', m'', s', g1, g2, fun a ha => g3.outside ha⟩

/-- C09: after every program, destroying a tree frees the tree and its elements, exactly once as a second `free` would be undefined behaviour, and
touches nothing else. -/
theorem avl_destroy {A : Alloc} (hA : A.Good) (F : Funs) (f d : Nat) (p : Prog) (m0 : Mem)
    (hp : Legal (F.cmp f d) p ⟨0, 0⟩) :
    ∃ rs m s, Run (exec A F f d p) m0 rs m ∧ Runs (F.cmp f d) p ⟨0, 0⟩ rs s ∧ ∀ t items, (t, items) ∈ s.trees →
      ∃ m', Run (destroy t) m () m' ∧ (∀ a ∈ t :: items.map (·.elem), m.get a ≠ none ∧ m'.get a = none) ∧
        ∀ a, a ∉ t :: items.map (·.elem) → m'.get a = m.get a := by
  letI : Ptrs := ⟨0, f, d, 0⟩
  obtain ⟨rs, m, s, h1, h2, h3⟩ := exec_inv hA m0 hp
  refine ⟨rs, m, s, h1, h2, fun tree items ht => ?_⟩
  obtain ⟨ws, det, h, rfl⟩ := h3
  simp only [Multiset.mem_coe, List.mem_map] at ht
  obtain ⟨w, hw, e⟩ := ht
  obtain ⟨rfl, rfl⟩ : w.1 = tree ∧ w.2.items = items := by simpa [view] using e
  have hg := h.good w hw
  obtain ⟨⟨_, m', r, g, o⟩⟩ := destroy_spec hg.z
  have ef : w.1 :: w.2.items.map (·.elem) = foot w.1 [] w.2 := by simp [foot, T.addrs]
  rw [ef]
  exact ⟨m', r, fun a ha => ⟨hg.live ha, g a ha⟩, o⟩

/-- C09: nothing leaks. After every program the blocks in use are those in use before, and those of the trees and elements that the user has not destroyed;
if none are left, memory is as it was. -/
theorem avl_leak_free {A : Alloc} (hA : A.Good) (F : Funs) (f d : Nat) (p : Prog) (m0 : Mem)
    (hp : Legal (F.cmp f d) p ⟨0, 0⟩) :
    ∃ rs m s, Run (exec A F f d p) m0 rs m ∧ Runs (F.cmp f d) p ⟨0, 0⟩ rs s ∧ (∀ a, a ∉ Spec.Avl.addrs s → m.get a = m0.get a) ∧
      (∀ a ∈ Spec.Avl.addrs s, m.get a ≠ none ∧ m0.get a = none) ∧ (s = ⟨0, 0⟩ → ∀ a, m.get a = m0.get a) := by
  letI : Ptrs := ⟨0, f, d, 0⟩
  obtain ⟨rs, m, s, h1, h2, h3⟩ := exec_inv hA m0 hp
  obtain ⟨ws, det, h, hs⟩ := h3
  have hm := owned_addrs hs
  refine ⟨rs, m, s, h1, h2, fun a ha => h.frame a fun h' => ha ((hm a).2 h'), fun a ha => ?_, ?_⟩
  · exact ⟨h.live ((hm a).1 ha), h.fresh a ((hm a).1 ha)⟩
  · intro e a
    refine h.frame a fun h' => ?_
    rw [← hm, e] at h'
    simp [Spec.Avl.addrs] at h'

end Verif.Avl
