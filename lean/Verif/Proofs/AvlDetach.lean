import Verif.Proofs.AvlExchange
import Verif.Proofs.AvlHeight

/-! `avl_tree_detach` in memory: the element sinks to a leaf, which is cut off. -/

namespace Verif.Avl

variable [Ptrs]

open Spec.Avl (Item)
open T

variable {m m' : Mem} {tree n : Nat} {c d : Ctx} {t : T}

omit [Ptrs] in
theorem leftmost_spec : ∀ (t : T) (p : Nat), Rep m p t → t ≠ nil → Does (leftmostLoop t.ptr) m (fun a m' => m' = m ∧
    ∃ d y b r, (∀ f ∈ d, ∃ i b r, f = Fr.l i b r) ∧ t = plug (node y b nil r) d ∧ a = y.elem) := by
  intro t
  induction t with
  | nil => intro p _ h; exact absurd rfl h
  | node i b l r ihl _ =>
    rintro p ⟨h0, h1, h2, h3⟩ _
    rw [leftmostLoop]
    simp only [left, ptr_node]
    steps
    cases hl : l with
    | nil =>
      refine does_neg (by simp) (Does.pure ⟨rfl, [], i, b, r, by simp, by simp [plug], rfl⟩)
    | node j b' l' r' =>
      rw [hl] at h1
      refine does_pos (by rw [hl] at h2; exact h2.1) ?_
      steps
      rw [← hl]
      refine (ihl _ h2 (by simp [hl])).mono ?_
      rintro a m' ⟨rfl, d, y, b2, r2, hd, ht, ha⟩
      refine ⟨rfl, d ++ [.l i b r], y, b2, r2, ?_, ?_, ha⟩
      · intro f hf
        rcases List.mem_append.1 hf with hf | hf
        · exact hd f hf
        · exact ⟨i, b, r, by simpa using hf⟩
      · rw [plug_append, ← ht]; rfl

omit [Ptrs] in
theorem rightmost_spec : ∀ (t : T) (p : Nat), Rep m p t → t ≠ nil → Does (rightmostLoop t.ptr) m (fun a m' => m' = m ∧
    ∃ d y b l, (∀ f ∈ d, ∃ i b l, f = Fr.r i b l) ∧ t = plug (node y b l nil) d ∧ a = y.elem) := by
  intro t
  induction t with
  | nil => intro p _ h; exact absurd rfl h
  | node i b l r _ ihr =>
    rintro p ⟨h0, h1, h2, h3⟩ _
    rw [rightmostLoop]
    simp only [right, ptr_node]
    steps
    cases hr : r with
    | nil =>
      refine does_neg (by simp) (Does.pure ⟨rfl, [], i, b, l, by simp, by simp [plug], rfl⟩)
    | node j b' l' r' =>
      rw [hr] at h1
      refine does_pos (by rw [hr] at h3; exact h3.1) ?_
      steps
      rw [← hr]
      refine (ihr _ h3 (by simp [hr])).mono ?_
      rintro a m' ⟨rfl, d, y, b2, l2, hd, ht, ha⟩
      refine ⟨rfl, d ++ [.r i b l], y, b2, l2, ?_, ?_, ha⟩
      · intro f hf
        rcases List.mem_append.1 hf with hf | hf
        · exact hd f hf
        · exact ⟨i, b, l, by simpa using hf⟩
      · rw [plug_append, ← ht]; rfl

omit [Ptrs] in
/-- The items of the surroundings. -/
theorem plug_split : ∀ (c : Ctx), ∃ A B, ∀ t, (plug t c).items = A ++ t.items ++ B
  | [] => ⟨[], [], fun t => by simp [plug]⟩
  | f :: c => by
    obtain ⟨A, B, h⟩ := plug_split c
    cases f with
    | l i b r => exact ⟨A, i :: r.items ++ B, fun t => by simp [plug, h, Fr.fill, items]⟩
    | r i b l => exact ⟨A ++ l.items ++ [i], B, fun t => by simp [plug, h, Fr.fill, items]⟩

omit [Ptrs] in
theorem plug_lefts : ∀ (c : Ctx), (∀ f ∈ c, ∃ i b r, f = Fr.l i b r) → ∃ B, ∀ t, (plug t c).items = t.items ++ B
  | [], _ => ⟨[], fun t => by simp [plug]⟩
  | f :: c, hc => by
    obtain ⟨B, h⟩ := plug_lefts c fun f hf => hc f (List.mem_cons_of_mem _ hf)
    obtain ⟨i, b, r, rfl⟩ := hc f (by simp)
    exact ⟨i :: r.items ++ B, fun t => by simp [plug, h, Fr.fill, items]⟩

omit [Ptrs] in
theorem plug_rights : ∀ (c : Ctx), (∀ f ∈ c, ∃ i b l, f = Fr.r i b l) → ∃ A, ∀ t, (plug t c).items = A ++ t.items
  | [], _ => ⟨[], fun t => by simp [plug]⟩
  | f :: c, hc => by
    obtain ⟨A, h⟩ := plug_rights c fun f hf => hc f (List.mem_cons_of_mem _ hf)
    obtain ⟨i, b, l, rfl⟩ := hc f (by simp)
    exact ⟨A ++ l.items ++ [i], fun t => by simp [plug, h, Fr.fill, items]⟩

omit [Ptrs] in
theorem plug_height : ∀ (c : Ctx) {t t' : T}, t'.height = t.height → (plug t' c).height = (plug t c).height
  | [], _, _, h => h
  | f :: c, _, _, h => plug_height c (by cases f <;> simp [Fr.fill, height, h])

omit [Ptrs] in
theorem plug_height_le : ∀ (c : Ctx) (t : T), t.height ≤ (plug t c).height
  | [], _ => le_refl _
  | f :: c, t => by
    refine le_trans ?_ (plug_height_le c (f.fill t))
    cases f <;> simp only [Fr.fill, height] <;> omega

omit [Ptrs] in
theorem plug_bal (c : Ctx) {t t' : T} (h : t'.height = t.height) (hb : t.Bal → t'.Bal) (h' : (plug t c).Bal) : (plug t' c).Bal := by
  rw [bal_plug] at h' ⊢
  rw [h]
  exact ⟨hb h'.1, h'.2⟩

/-- `x` can be anywhere in these items, the others are in the same order. -/
def Same (x : Item) (xs ys : List Item) : Prop := ∃ A B C D, xs = A ++ x :: B ∧ ys = C ++ x :: D ∧ A ++ B = C ++ D

omit [Ptrs] in
theorem Same.perm {x : Item} {xs ys : List Item} (h : Same x xs ys) : xs.Perm ys := by
  obtain ⟨A, B, C, D, rfl, rfl, e⟩ := h
  exact List.perm_middle.trans ((e ▸ List.Perm.refl _ : (A ++ B).Perm (C ++ D)).cons x |>.trans List.perm_middle.symm)

omit [Ptrs] in
theorem middle_unique {x : Item} {A B A' B' : List Item} (h : A ++ x :: B = A' ++ x :: B') (hx : x ∉ A ++ B) : A = A' ∧ B = B' := by
  induction A generalizing A' with
  | nil =>
    cases A' with
    | nil => simpa using h
    | cons a A' =>
      simp only [List.nil_append, List.cons_append, List.cons.injEq] at h
      exfalso; apply hx; simp [h.2]
  | cons a A ih =>
    simp only [List.cons_append, List.mem_cons, not_or] at hx
    cases A' with
    | nil =>
      simp only [List.nil_append, List.cons_append, List.cons.injEq] at h
      exact absurd h.1.symm hx.1
    | cons a' A' =>
      simp only [List.cons_append, List.cons.injEq] at h
      obtain ⟨e1, e2⟩ := ih h.2 hx.2
      exact ⟨by rw [h.1, e1], e2⟩

omit [Ptrs] in
/-- Two neighbours change places. -/
theorem Same.swap {x y : Item} {A B : List Item} : Same x (A ++ y :: x :: B) (A ++ x :: y :: B) := ⟨A ++ [y], B, A, y :: B, by simp, by simp, by simp⟩

omit [Ptrs] in
theorem Same.swap' {x y : Item} {A B : List Item} : Same x (A ++ x :: y :: B) (A ++ y :: x :: B) := ⟨A, y :: B, A ++ [y], B, by simp, by simp, by simp⟩

omit [Ptrs] in
theorem Same.trans {x : Item} {xs ys zs : List Item} (h : Same x xs ys) (h' : Same x ys zs) (hn : ys.Nodup) : Same x xs zs := by
  obtain ⟨A, B, C, D, rfl, rfl, e⟩ := h
  obtain ⟨A', B', C', D', h1, rfl, e'⟩ := h'
  have hx : x ∉ C ++ D := by
    have := (List.perm_middle.nodup_iff).1 hn
    exact (List.nodup_cons.1 this).1
  obtain ⟨rfl, rfl⟩ := middle_unique h1 hx
  exact ⟨A, B, C', D', rfl, rfl, e.trans e'⟩

omit [Ptrs] in
theorem Same.refl {x : Item} {xs : List Item} (h : x ∈ xs) : Same x xs xs := by
  obtain ⟨A, B, rfl⟩ := List.append_of_mem h
  exact ⟨A, B, A, B, rfl, rfl, rfl⟩

theorem Z.items_nodup (h : Z m tree n c t) : (T.items (Avl.plug t c)).Nodup := by
  have := (Z.plug.1 h).disj.2.2.2
  exact List.Nodup.of_map _ this

omit [Ptrs] in
theorem leafElement_spec {p : Nat} {x : Item} {b : Int} {l r : T} (h : Rep m p (node x b l r)) :
    Does (leafElement x.elem) m (fun a m' => m' = m ∧ (a = true ↔ l = nil ∧ r = nil)) := by
  obtain ⟨h0, h1, hl, hr⟩ := h
  simp only [leafElement, right, left]
  steps
  by_cases hrn : r = nil
  · refine does_pos (by simp [hrn]) ?_
    steps
    refine ⟨rfl, ?_⟩
    simp [hrn, hl.ptr_eq_zero]
  · refine does_neg (by simpa [hr.ptr_eq_zero] using hrn) ?_
    steps
    simp [hrn]

omit [Ptrs] in
theorem previousDescendant_spec {p : Nat} {x : Item} {b : Int} {l r : T} (h : Rep m p (node x b l r)) :
    Does (previousDescendant x.elem) m (fun a m' => m' = m ∧ ((l = nil ∧ a = 0) ∨
      ∃ d y b2 l2, (∀ f ∈ d, ∃ i b l, f = Fr.r i b l) ∧ l = plug (node y b2 l2 nil) d ∧ a = y.elem)) := by
  obtain ⟨h0, h1, hl, hr⟩ := h
  simp only [previousDescendant, left]
  steps
  by_cases hln : l = nil
  · refine does_pos (by simp [hln]) ?_
    steps
    exact ⟨rfl, Or.inl ⟨hln, rfl⟩⟩
  · refine does_neg (by simpa [hl.ptr_eq_zero] using hln) ?_
    exact (rightmost_spec l _ hl hln).mono fun a m' h => ⟨h.1, Or.inr h.2⟩

omit [Ptrs] in
theorem nextDescendant_spec {p : Nat} {x : Item} {b : Int} {l r : T} (h : Rep m p (node x b l r)) :
    Does (nextDescendant x.elem) m (fun a m' => m' = m ∧ ((r = nil ∧ a = 0) ∨
      ∃ d y b2 r2, (∀ f ∈ d, ∃ i b r, f = Fr.l i b r) ∧ r = plug (node y b2 nil r2) d ∧ a = y.elem)) := by
  obtain ⟨h0, h1, hl, hr⟩ := h
  simp only [nextDescendant, right]
  steps
  by_cases hrn : r = nil
  · refine does_pos (by simp [hrn]) ?_
    steps
    exact ⟨rfl, Or.inl ⟨hrn, rfl⟩⟩
  · refine does_neg (by simpa [hr.ptr_eq_zero] using hrn) ?_
    exact (leftmost_spec r _ hr hrn).mono fun a m' h => ⟨h.1, Or.inr h.2⟩

omit [Ptrs] in
theorem plug_ptr_ne {q : Nat} {y : Item} {b : Int} {l r : T} (h : Rep m q (plug (node y b l r) d)) : y.elem ≠ 0 :=
  (rep_plug.1 h).2.1

omit [Ptrs] in
theorem adjacent_spec {p : Nat} {x : Item} {b : Int} {l r : T} (h : Rep m p (node x b l r)) (hn : ¬ (l = nil ∧ r = nil)) :
    Does (adjacentDescendant x.elem) m (fun a m' => m' = m ∧
      ((∃ d y b2 l2, (∀ f ∈ d, ∃ i b l, f = Fr.r i b l) ∧ l = plug (node y b2 l2 nil) d ∧ a = y.elem) ∨
       (∃ d y b2 r2, (∀ f ∈ d, ∃ i b r, f = Fr.l i b r) ∧ r = plug (node y b2 nil r2) d ∧ a = y.elem))) := by
  simp only [adjacentDescendant]
  refine Does.bind ((previousDescendant_spec h).mono ?_)
  rintro a _ ⟨rfl, ⟨hl, rfl⟩ | h1⟩
  · refine does_neg (by simp) ?_
    refine (nextDescendant_spec h).mono ?_
    rintro a _ ⟨rfl, ⟨hr, -⟩ | h2⟩
    · exact absurd ⟨hl, hr⟩ hn
    · exact ⟨rfl, Or.inr h2⟩
  · refine does_pos ?_ (Does.pure ⟨rfl, Or.inl h1⟩)
    obtain ⟨d, y, b2, l2, -, e, rfl⟩ := h1
    have := h.2.2.1
    rw [e] at this
    exact (rep_plug.1 this).2.1

/-- What `sinkLoop` does: the element ends as a leaf of a tree of the same shape with the other items in the same order. -/
theorem sink_spec {x : Item} : ∀ (h : Nat) (c : Ctx) (b : Int) (l r : T) (m : Mem), (node x b l r).height ≤ h → Z m tree n c (node x b l r) →
    (plug (node x b l r) c).Bal → Does (sinkLoop tree x.elem) m (fun _ m' => ∃ c', Z m' tree n c' (node x 0 nil nil) ∧
      (plug (node x 0 nil nil) c').Bal ∧ Same x (plug (node x b l r) c).items (plug (node x 0 nil nil) c').items ∧
      Off m m' (foot tree c (node x b l r))) := by
  intro h
  induction h with
  | zero => intro c b l r m h; simp [height] at h
  | succ h ih =>
    intro c b l r m hh hz hb
    obtain ⟨x0, hx, hl, hr⟩ := hz.sub
    have hmem : x ∈ (plug (node x b l r) c).items := by
      obtain ⟨A, B, e⟩ := plug_split c
      rw [e]; simp [items]
    have next : ∀ (m1 : Mem) (c1 : Ctx) (b1 : Int) (l1 r1 : T), (node x b1 l1 r1).height ≤ h → Z m1 tree n c1 (node x b1 l1 r1) →
        (plug (node x b1 l1 r1) c1).Bal → Same x (plug (node x b l r) c).items (plug (node x b1 l1 r1) c1).items →
        Off m m1 (foot tree c (node x b l r)) →
        Does (sinkLoop tree x.elem) m1 (fun _ m' => ∃ c', Z m' tree n c' (node x 0 nil nil) ∧
          (plug (node x 0 nil nil) c').Bal ∧ Same x (plug (node x b l r) c).items (plug (node x 0 nil nil) c').items ∧
          Off m m' (foot tree c (node x b l r))) := by
      intro m1 c1 b1 l1 r1 hh1 hz1 hb1 hs1 ho1
      refine (ih c1 b1 l1 r1 m1 hh1 hz1 hb1).mono ?_
      rintro _ m' ⟨c', z', b', s', o'⟩
      refine ⟨c', z', b', hs1.trans s' hz1.items_nodup, ho1.trans (o'.mono ?_)⟩
      intro a ha
      rw [foot_plug] at ha ⊢
      refine ha.imp id fun ha => ?_
      exact ((hs1.perm.map _).mem_iff).2 ha
    rw [sinkLoop]
    refine Does.bind ((leafElement_spec hz.sub).mono ?_)
    rintro leaf _ ⟨rfl, hleaf⟩
    by_cases hlf : l = nil ∧ r = nil
    · refine does_pos (by simp [hleaf, hlf]) (Does.pure ?_)
      obtain ⟨rfl, rfl⟩ := hlf
      have hb0 : b = 0 := by
        have := ((bal_plug _ _).1 hb).1.1
        simpa [height] using this
      subst hb0
      exact ⟨c, hz, hb, Same.refl hmem, Off.refl _ _⟩
    · refine does_neg (by simpa [hleaf] using hlf) ?_
      refine Does.bind ((adjacent_spec hz.sub hlf).mono ?_)
      rintro a _ ⟨rfl, ⟨d, y, b2, l2, hd, rfl, rfl⟩ | ⟨d, y, b2, r2, hd, rfl, rfl⟩⟩
      · refine Does.bind ((exchange_left hz).mono ?_)
        rintro _ m1 ⟨z1, o1⟩
        have hz1 : Z m1 tree n (d ++ .l y b r :: c) (node x b2 l2 nil) := by
          rw [Z.plug, plug_append]
          have := Z.plug.1 z1
          exact this
        have hg : (node x b2 l2 nil).height = (node y b2 l2 nil).height := rfl
        have hp : plug (node x b2 l2 nil) (d ++ .l y b r :: c) = plug (node y b (plug (node x b2 l2 nil) d) r) c := by rw [plug_append]; rfl
        refine next m1 _ b2 l2 nil ?_ hz1 ?_ ?_ o1
        · have := plug_height_le d (node y b2 l2 nil)
          rw [hg]
          simp only [height] at hh this ⊢
          omega
        · rw [hp]
          refine plug_bal c ?_ ?_ hb
          · simp only [height]; rw [plug_height d hg]
          · rintro ⟨h1, h2, h3, h4, h5⟩
            refine ⟨by rw [plug_height d hg]; exact h1, h2, h3, plug_bal d hg (fun h => h) h4, h5⟩
        · rw [hp]
          obtain ⟨A, B, e⟩ := plug_split c
          obtain ⟨A', e'⟩ := plug_rights d hd
          rw [e, e]
          simp only [items, e']
          have := @Same.swap x y (A ++ A' ++ l2.items) (r.items ++ B)
          simpa using this
      · refine Does.bind ((exchange_right hz).mono ?_)
        rintro _ m1 ⟨z1, o1⟩
        have hz1 : Z m1 tree n (d ++ .r y b l :: c) (node x b2 nil r2) := by
          rw [Z.plug, plug_append]
          have := Z.plug.1 z1
          exact this
        have hg : (node x b2 nil r2).height = (node y b2 nil r2).height := rfl
        have hp : plug (node x b2 nil r2) (d ++ .r y b l :: c) = plug (node y b l (plug (node x b2 nil r2) d)) c := by rw [plug_append]; rfl
        refine next m1 _ b2 nil r2 ?_ hz1 ?_ ?_ o1
        · have := plug_height_le d (node y b2 nil r2)
          rw [hg]
          simp only [height] at hh this ⊢
          omega
        · rw [hp]
          refine plug_bal c ?_ ?_ hb
          · simp only [height]; rw [plug_height d hg]
          · rintro ⟨h1, h2, h3, h4, h5⟩
            refine ⟨by rw [plug_height d hg]; exact h1, h2, h3, h4, plug_bal d hg (fun h => h) h5⟩
        · rw [hp]
          obtain ⟨A, B, e⟩ := plug_split c
          obtain ⟨B', e'⟩ := plug_lefts d hd
          rw [e, e]
          simp only [items, e']
          have := @Same.swap' x y (A ++ l.items) (r2.items ++ B' ++ B)
          simpa using this

/-- The state after `avl_tree_detach`: the tree without the item, and the element with its key and value. -/
structure DetachPost (m : Mem) (tree n : Nat) (t : T) (x : Item) (m' : Mem) : Prop where
  left : ∃ t', Z m' tree ((n + (2 ^ 64 - 1)) % 2 ^ 64) [] t' ∧ t'.Bal ∧ ∃ A B, t.items = A ++ x :: B ∧ t'.items = A ++ B
  elem : ∃ q l r b, m'.get x.elem = some (.aelem ⟨x.key, x.value, q, l, r, b⟩)
  off : Off m m' (foot tree [] t)

theorem Z.resize (h : Z m tree n c t) (n' : Nat) : Z (m.set tree (.atree ⟨top t.ptr c, n', Ptrs.cmp, Ptrs.obj⟩)) tree n' c t :=
  ⟨h.around.resize n', h.sub.set h.disj.2.1, h.nd⟩

theorem decSize_spec (h : Z m tree n c t) :
    Does (decSize tree) m (fun _ m' => Z m' tree ((n + (2 ^ 64 - 1)) % 2 ^ 64) c t ∧ Off m m' [tree]) := by
  have h1 := h.around.root; have h0 := h.around.tree0
  simp only [decSize]
  step
  exact ⟨h.resize _, (Off.refl _ _).set (by simp)⟩

theorem lightenCut_spec {f : Fr} {x : Item} {L : Nat → M Unit} {d : Nat} (hk : 2 * c.length + 1 ≤ d) (hL : L f.item.elem = lightenAtS tree d f)
    (hz : Z m tree n (f :: c) (node x 0 nil nil)) (hb : (plug (node x 0 nil nil) (f :: c)).Bal) :
    Does (do
      (hloc tree (f :: c)).write 0
      L (← parent x.elem)
      decSize tree) m (fun _ m' => DetachPost m tree n (plug (node x 0 nil nil) (f :: c)) x m') := by
  obtain ⟨x0, hx, -, -⟩ := hz.sub
  have hd := hz.disj
  simp only [addrs_node, addrs_nil, List.nil_append, List.mem_singleton] at hd
  have hd1 := hd.1 x.elem rfl
  refine Does.bind ((write_hole hz.around 0).mono ?_)
  rintro _ m1 ⟨a1, o1⟩
  have z1 : Z m1 tree n (f :: c) nil := ⟨a1, trivial, by simpa using a1.nd⟩
  have hx1 := (o1 x.elem (hole_not hd1.1 hd1.2)).trans hx
  simp only [parent, par_cons] at hx1 ⊢
  steps
  rw [hL]
  have hbc := (bal_plug _ _).1 hb
  refine Does.bind ((lightenS_spec c f nil m1 d hk z1 trivial ?_).mono ?_)
  · simpa [height] using hbc.2
  rintro _ m2 ⟨z2, o2⟩
  have hx2 := (o2 x.elem (by simp only [foot, addrs_nil, List.nil_append, List.mem_cons, not_or]; exact hd1)).trans hx1
  refine (decSize_spec z2).mono ?_
  rintro _ m3 ⟨z3, o3⟩
  have hx3 := (o3 x.elem (by simpa using hd1.1)).trans hx2
  refine ⟨⟨_, z3, shrink_bal _ _ trivial (by simpa [height] using hbc.2), ?_⟩, ⟨_, _, _, _, hx3⟩, ?_⟩
  · obtain ⟨A, B, e⟩ := plug_split (f :: c)
    refine ⟨A, B, by rw [e]; simp [items], ?_⟩
    rw [shrink_items, e]; simp [items]
  · have hf : ∀ a, a ∈ tree :: caddrs (f :: c) → a ∈ foot tree [] (plug (node x 0 nil nil) (f :: c)) := by
      intro a ha
      rw [foot_plug]
      simp only [plug]
      rcases List.mem_cons.1 ha with ha | ha
      · exact Or.inl ha
      · exact Or.inr ((plug_perm (f :: c) (node x 0 nil nil)).mem_iff.2 (List.mem_append.2 (Or.inr ha)))
    refine ((o1.mono ?_).trans (o2.mono ?_)).trans (o3.mono ?_)
    · intro a ha
      rw [List.mem_singleton.1 ha]
      exact hf _ (hole_mem _ _)
    · intro a ha
      exact hf a (by simpa [foot] using ha)
    · intro a ha
      exact hf a (by simp [List.mem_singleton.1 ha])

theorem cut_spec {x : Item} {d : Nat} (hk : 2 * c.length ≤ d) (hz : Z m tree n c (node x 0 nil nil)) (hb : (plug (node x 0 nil nil) c).Bal) :
    Does (do
      let r ← root tree
      if x.elem = r then setRoot tree 0
      else
        let pl ← left (← parent x.elem)
        if pl = x.elem then
          setLeft (← parent x.elem) 0
          lightenLeftS tree d (← parent x.elem)
        else
          setRight (← parent x.elem) 0
          lightenRightS tree d (← parent x.elem)
      decSize tree) m (fun _ m' => DetachPost m tree n (plug (node x 0 nil nil) c) x m') := by
  obtain ⟨x0, hx, -, -⟩ := hz.sub
  have hd := hz.disj
  simp only [addrs_node, addrs_nil, List.nil_append, List.mem_singleton] at hd
  have hd1 := hd.1 x.elem rfl
  have hr := hz.around.root; have ht := hz.around.tree0
  simp only [root]
  steps
  cases c with
  | nil =>
    refine does_pos rfl ?_
    refine Does.bind ((write_hole hz.around 0).mono ?_)
    rintro _ m1 ⟨a1, o1⟩
    have z1 : Z m1 tree n [] nil := ⟨a1, trivial, by simp⟩
    have hx1 := (o1 x.elem (hole_not hd1.1 hd1.2)).trans hx
    refine (decSize_spec z1).mono ?_
    rintro _ m3 ⟨z3, o3⟩
    have hx3 := (o3 x.elem (by simpa using hd1.1)).trans hx1
    refine ⟨⟨_, z3, trivial, [], [], by simp [plug, items], by simp [items]⟩, ⟨_, _, _, _, hx3⟩, ?_⟩
    refine (o1.mono ?_).trans (o3.mono ?_) <;> intro a ha <;> simp only [hole, List.mem_singleton] at ha <;> simp [foot, ha]
  | cons f c =>
    have hne : x.elem ≠ top x.elem (f :: c) := by
      intro e
      have := top_mem (f :: c) x.elem (by simp)
      rw [← e] at this
      exact hd1.2 this
    refine does_neg hne ?_
    obtain ⟨f0, f1, -⟩ := hz.around.ctx
    have hfx : f.item.elem ≠ x.elem := fun e => hd1.2 (by simp [e])
    cases f with
    | l i b r =>
      have key := lightenCut_spec (L := lightenLeftS tree d) (by simp only [List.length_cons] at hk; omega) rfl hz hb
      simp only [left, Fr.item, Fr.cell, par_cons] at f0 f1 hx hfx ⊢
      refine Does.bind ?_
      simp only [parent] at key ⊢
      steps
      refine does_pos rfl ?_
      refine Does.bind (Does.bind (does_readAE x0 hx (Does.pure ?_)))
      exact key
    | r i b l =>
      have key := lightenCut_spec (L := lightenRightS tree d) (by simp only [List.length_cons] at hk; omega) rfl hz hb
      simp only [left, Fr.item, Fr.cell, par_cons] at f0 f1 hx hfx ⊢
      refine Does.bind ?_
      simp only [parent] at key ⊢
      steps
      refine does_neg (sib_ptr_ne (f := .r i b l) hd1.2 x0) ?_
      refine Does.bind (Does.bind (does_readAE x0 hx (Does.pure ?_)))
      exact key

omit [Ptrs] in
theorem plug_length : ∀ (c : Ctx) (t : T), t.height + c.length ≤ (plug t c).height
  | [], t => by simp [plug]
  | f :: c, t => by
    have := plug_length c (f.fill t)
    have h : t.height + 1 ≤ (f.fill t).height := by cases f <;> simp only [Fr.fill, height] <;> omega
    simp only [plug, List.length_cons]
    omega

theorem detachS_spec {x : Item} {b : Int} {l r : T} {d : Nat} (hk : 4 * Nat.log 2 ((plug (node x b l r) c).items.length + 1) ≤ d) (hz : Z m tree n c (node x b l r)) (hb : (plug (node x b l r) c).Bal) :
    Does (detachS d tree x.elem) m (fun _ m' => DetachPost m tree n (plug (node x b l r) c) x m') := by
  simp only [detachS]
  refine Does.bind ((sink_spec _ c b l r m (le_refl _) hz hb).mono ?_)
  rintro _ m1 ⟨c', z1, b1, s1, o1⟩
  have hl : 2 * c'.length ≤ d := by
    have h1 := plug_length c' (node x 0 nil nil)
    have h2 := b1.height_le
    rw [← s1.perm.length_eq] at h2
    omega
  refine (cut_spec hl z1 b1).mono ?_
  rintro _ m2 ⟨⟨t', h1, h2, A, B, h3, h4⟩, he, ho⟩
  refine ⟨⟨t', h1, h2, ?_⟩, he, ?_⟩
  · obtain ⟨A', B', C, D, e1, e2, e3⟩ := s1
    refine ⟨A', B', e1, ?_⟩
    have hn := z1.items_nodup
    rw [e2] at h3
    rw [e2] at hn
    have hx : x ∉ C ++ D := (List.nodup_cons.1 ((List.perm_middle.nodup_iff).1 hn)).1
    obtain ⟨rfl, rfl⟩ := middle_unique h3 hx
    rw [h4, e3]
  · refine (o1.mono ?_).trans (ho.mono ?_)
    · intro a ha
      rw [foot_plug] at ha ⊢
      exact ha
    · intro a ha
      rw [foot_plug] at ha ⊢
      refine ha.imp id fun ha => ?_
      exact ((s1.perm.map _).mem_iff).2 ha

theorem detach_spec {x : Item} {b : Int} {l r : T} (hz : Z m tree n c (node x b l r)) (hb : (plug (node x b l r) c).Bal) :
    Does (detach tree x.elem) m (fun _ m' => DetachPost m tree n (plug (node x b l r) c) x m') :=
  (short_detach _ _ _).does (detachS_spec (le_refl _) hz hb)

end Verif.Avl
