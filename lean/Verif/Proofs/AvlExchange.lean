import Verif.Proofs.AvlLighten

/-! `exchange` in memory: two elements change places, one below the other. -/

namespace Verif.Avl

variable [Ptrs]

open Spec.Avl (Item)
open T

variable {m m' : Mem} {tree n : Nat} {c d : Ctx} {t : T}

omit [Ptrs] in
/-- avltree.c:425-428: the fields of two elements are swapped. -/
theorem swap_spec {β : Type} {k : M β} {Q : β → Mem → Prop} {x y xk xv px lx rx yk yv py ly ry : Nat} {bx b2 : Int} (x0 : x ≠ 0) (y0 : y ≠ 0)
    (hxy : x ≠ y) (hx : m.get x = some (.aelem ⟨xk, xv, px, lx, rx, bx⟩)) (hy : m.get y = some (.aelem ⟨yk, yv, py, ly, ry, b2⟩))
    (hk : ∀ m', m'.get x = some (.aelem ⟨xk, xv, py, ly, ry, b2⟩) → m'.get y = some (.aelem ⟨yk, yv, px, lx, rx, bx⟩) → Off m m' [x, y] →
      Does k m' Q) :
    Does (do
      let l ← left x
      setLeft x (← left y)
      setLeft y l
      let r ← right x
      setRight x (← right y)
      setRight y r
      let p ← parent x
      setParent x (← parent y)
      setParent y p
      let b ← balance x
      setBalance x (← balance y)
      setBalance y b
      k) m Q := by
  simp only [left, right, parent, balance, setLeft, setRight, setParent, setBalance]
  steps
  refine hk _ ?_ ?_ ?_
  · cell
  · cell
  · off

/-- Disjointness of the parts of the tree that `exchange` touches. -/
structure Apart (tree : Nat) (x y : Nat) (l2 r2 o : T) (d c : Ctx) : Prop where
  nd : (tree :: x :: y :: (l2.addrs ++ r2.addrs ++ o.addrs ++ caddrs d ++ caddrs c)).Nodup

namespace Apart
variable {x y : Nat} {l2 r2 o : T}

omit [Ptrs] in
theorem facts (h : Apart tree x y l2 r2 o d c) :
    (tree ≠ x ∧ tree ≠ y ∧ x ≠ y) ∧
    (tree ∉ l2.addrs ∧ tree ∉ r2.addrs ∧ tree ∉ o.addrs ∧ tree ∉ caddrs d ∧ tree ∉ caddrs c) ∧
    (x ∉ l2.addrs ∧ x ∉ r2.addrs ∧ x ∉ o.addrs ∧ x ∉ caddrs d ∧ x ∉ caddrs c) ∧
    (y ∉ l2.addrs ∧ y ∉ r2.addrs ∧ y ∉ o.addrs ∧ y ∉ caddrs d ∧ y ∉ caddrs c) ∧
    (l2.addrs.Nodup ∧ r2.addrs.Nodup ∧ o.addrs.Nodup ∧ (caddrs d).Nodup ∧ (caddrs c).Nodup) ∧
    ((∀ a ∈ l2.addrs, a ∉ r2.addrs ∧ a ∉ o.addrs ∧ a ∉ caddrs d ∧ a ∉ caddrs c) ∧
     (∀ a ∈ r2.addrs, a ∉ l2.addrs ∧ a ∉ o.addrs ∧ a ∉ caddrs d ∧ a ∉ caddrs c) ∧
     (∀ a ∈ o.addrs, a ∉ l2.addrs ∧ a ∉ r2.addrs ∧ a ∉ caddrs d ∧ a ∉ caddrs c) ∧
     (∀ a ∈ caddrs d, a ∉ l2.addrs ∧ a ∉ r2.addrs ∧ a ∉ o.addrs ∧ a ∉ caddrs c) ∧
     (∀ a ∈ caddrs c, a ∉ l2.addrs ∧ a ∉ r2.addrs ∧ a ∉ o.addrs ∧ a ∉ caddrs d)) := by
  have h := h.nd
  simp only [List.nodup_cons, List.nodup_append, List.mem_cons, List.mem_append, not_or] at h
  refine ⟨?_, ?_, ?_, ?_, ?_, ?_, ?_, ?_, ?_, ?_⟩ <;> grind

end Apart

omit [Ptrs] in
/-- The hole of `d` within `c`, as an address. -/
theorem hole_append (d c : Ctx) : hole tree (d ++ c) = hole (hole tree c) d := by cases d <;> rfl

omit [Ptrs] in
theorem plug_addrs_mem {a : Nat} : a ∈ (plug t d).addrs ↔ a ∈ t.addrs ∨ a ∈ caddrs d := by
  rw [(plug_perm d t).mem_iff, List.mem_append]

theorem exchange_left {x y : Item} {b b2 : Int} {l2 r2 r : T} (h : Z m tree n c (node x b (plug (node y b2 l2 r2) d) r)) :
    Does (exchange tree x.elem y.elem) m (fun _ m' => Z m' tree n c (node y b (plug (node x b2 l2 r2) d) r) ∧
      Off m m' (foot tree c (node x b (plug (node y b2 l2 r2) d) r))) := by
  have hperm : (tree :: ((node x b (plug (node y b2 l2 r2) d) r).addrs ++ caddrs c)).Perm
      (tree :: x.elem :: y.elem :: (l2.addrs ++ r2.addrs ++ r.addrs ++ caddrs d ++ caddrs c)) := by
    rw [List.perm_iff_count]
    intro a
    have h1 := (plug_perm d (node y b2 l2 r2)).count_eq a
    simp only [addrs_node, List.count_append, List.count_cons] at h1 ⊢
    omega
  have hperm' : (tree :: ((node y b (plug (node x b2 l2 r2) d) r).addrs ++ caddrs c)).Perm
      (tree :: x.elem :: y.elem :: (l2.addrs ++ r2.addrs ++ r.addrs ++ caddrs d ++ caddrs c)) := by
    rw [List.perm_iff_count]
    intro a
    have h1 := (plug_perm d (node x b2 l2 r2)).count_eq a
    simp only [addrs_node, List.count_append, List.count_cons] at h1 ⊢
    omega
  have hap : Apart tree x.elem y.elem l2 r2 r d c := ⟨hperm.nodup_iff.1 h.nd⟩
  have hfoot : ∀ a, a ∈ foot tree c (node x b (plug (node y b2 l2 r2) d) r) ↔
      a = tree ∨ a = x.elem ∨ a = y.elem ∨ a ∈ l2.addrs ∨ a ∈ r2.addrs ∨ a ∈ r.addrs ∨ a ∈ caddrs d ∨ a ∈ caddrs c := by
    intro a
    rw [mem_foot, ← List.mem_append, ← List.mem_cons, hperm.mem_iff]
    simp only [List.mem_cons, List.mem_append, or_assoc]
  have hz2 : Z m tree n (d ++ .l x b r :: c) (node y b2 l2 r2) := by
    rw [Z.plug, plug_append]
    have := Z.plug.1 h
    exact this
  obtain ⟨⟨f1, f2, f3⟩, ⟨t1, t2, t3, t4, t5⟩, ⟨x1, x2, x3, x4, x5⟩, ⟨y1, y2, y3, y4, y5⟩, ⟨n1, n2, n3, n4, n5⟩, g1, g2, g3, g4, g5⟩ := hap.facts
  obtain ⟨y0, hy, hl2, hr2⟩ := hz2.sub
  obtain ⟨x0, hx, -, hr⟩ := h.sub
  have hpar : par 0 (d ++ .l x b r :: c) = par x.elem d := par_append _ _ _
  have hyC : y.elem ∉ caddrs (d ++ .l x b r :: c) := by
    rw [caddrs_append]
    simp only [caddrs_cons, Fr.item, Fr.sib, List.mem_append, List.mem_cons, not_or]
    exact ⟨y4, f3.symm, y3, y5⟩
  simp only [exchange]
  -- the place of `y` gets `x`
  refine Does.bind ((substitute_spec (x := x.elem) hz2.around rfl y0 hy hyC).mono ?_)
  rintro _ m1 ⟨a1, o1⟩
  obtain ⟨cd1, x01, cx1, cr1, cc1⟩ := repC_append.1 a1.ctx
  have hh1 : ∀ a, a ≠ x.elem → a ∉ caddrs d → a ∉ [hole tree (d ++ .l x b r :: c)] := by
    intro a h1 h2
    rw [hole_append]
    simp only [hole, List.mem_singleton]
    cases d with
    | nil => exact h1
    | cons f d => rintro rfl; exact h2 (by simp [Fr.item])
  have hy1 := (o1 _ (hh1 _ f3.symm y4)).trans hy
  rw [hpar] at hy1
  have hl21 : Rep m1 y.elem l2 := hl2.off o1 fun a ha => hh1 a (fun e => x1 (e ▸ ha)) (g1 a ha).2.2.1
  have hr21 : Rep m1 y.elem r2 := hr2.off o1 fun a ha => hh1 a (fun e => x2 (e ▸ ha)) (g2 a ha).2.2.1
  have hr1 : Rep m1 x.elem r := cr1
  simp only [Fr.item, Fr.cell, par_cons] at cx1 cc1 cd1 x01
  have b1 : Around m1 tree n c x.elem := by
    refine ⟨a1.tree0, ?_, cc1, ?_⟩
    · have := a1.root
      rw [top_append] at this
      exact this
    · exact List.nodup_cons.2 ⟨t5, n5⟩
  -- the place of `x` gets `y`
  refine Does.bind ((substitute_spec (x := y.elem) b1 rfl x0 cx1 x5).mono ?_)
  rintro _ m2 ⟨a2, o2⟩
  have hh2 : ∀ a, a ≠ tree → a ∉ caddrs c → a ∉ [hole tree c] := fun a h1 h2 => hole_not h1 h2
  have hx2 := (o2 _ (hh2 _ f1.symm x5)).trans cx1
  have hy2 := (o2 _ (hh2 _ f2.symm y5)).trans hy1
  have hl22 : Rep m2 y.elem l2 := hl21.off o2 fun a ha => hh2 a (fun e => t1 (e ▸ ha)) (g1 a ha).2.2.2
  have hr22 : Rep m2 y.elem r2 := hr21.off o2 fun a ha => hh2 a (fun e => t2 (e ▸ ha)) (g2 a ha).2.2.2
  have hrr2 : Rep m2 x.elem r := hr1.off o2 fun a ha => hh2 a (fun e => t3 (e ▸ ha)) (g3 a ha).2.2.2
  have cd2 : RepC m2 x.elem d x.elem := cd1.frame fun a ha => o2 a (hh2 a (fun e => t4 (e ▸ ha)) (g4 a ha).2.2.2)
  -- the fields
  refine swap_spec x0 y0 f3 hx2 hy2 ?_
  intro m3 hx3 hy3 o3
  have hs3 : ∀ a, a ≠ x.elem → a ≠ y.elem → a ∉ [x.elem, y.elem] := fun a h1 h2 => by simp [h1, h2]
  have hl23 : Rep m3 y.elem l2 := hl22.off o3 fun a ha => hs3 a (fun e => x1 (e ▸ ha)) (fun e => y1 (e ▸ ha))
  have hr23 : Rep m3 y.elem r2 := hr22.off o3 fun a ha => hs3 a (fun e => x2 (e ▸ ha)) (fun e => y2 (e ▸ ha))
  have hrr3 : Rep m3 x.elem r := hrr2.off o3 fun a ha => hs3 a (fun e => x3 (e ▸ ha)) (fun e => y3 (e ▸ ha))
  have cd3 : RepC m3 x.elem d x.elem := cd2.frame fun a ha => o3 a (hs3 a (fun e => x4 (e ▸ ha)) (fun e => y4 (e ▸ ha)))
  have a3 : Around m3 tree n c y.elem := a2.frame o3 (by
    intro a ha
    simp only [List.mem_cons, List.not_mem_nil, or_false] at ha
    rcases ha with rfl | rfl
    · exact ⟨f1.symm, x5⟩
    · exact ⟨f2.symm, y5⟩)
  simp only [left, right]
  steps
  refine Does.bind ((adopt_spec hl23 n1).mono ?_)
  rintro _ m4 ⟨hl24, o4⟩
  have hx4 := (o4 _ x1).trans hx3
  have hy4 := (o4 _ y1).trans hy3
  have hr24 : Rep m4 y.elem r2 := hr23.off o4 fun a ha h' => (g1 a h').1 ha
  have hrr4 : Rep m4 x.elem r := hrr3.off o4 fun a ha h' => (g1 a h').2.1 ha
  have cd4 : RepC m4 x.elem d x.elem := cd3.frame fun a ha => o4 a fun h' => (g1 a h').2.2.1 ha
  have a4 : Around m4 tree n c y.elem := a3.frame o4 fun a ha => ⟨fun e => t1 (e ▸ ha), (g1 a ha).2.2.2⟩
  steps
  refine Does.bind ((adopt_spec hr24 n2).mono ?_)
  rintro _ m5 ⟨hr25, o5⟩
  have hx5 := (o5 _ x2).trans hx4
  have hy5 := (o5 _ y2).trans hy4
  have hl25 : Rep m5 x.elem l2 := hl24.off o5 fun a ha h' => (g1 a ha).1 h'
  have hrr5 : Rep m5 x.elem r := hrr4.off o5 fun a ha h' => (g2 a h').2.1 ha
  have cd5 : RepC m5 x.elem d x.elem := cd4.frame fun a ha => o5 a fun h' => (g2 a h').2.2.1 ha
  have a5 : Around m5 tree n c y.elem := a4.frame o5 fun a ha => ⟨fun e => t2 (e ▸ ha), (g2 a ha).2.2.2⟩
  -- what is now on the left of `y`
  have hsub : Rep m5 x.elem (plug (node x b2 l2 r2) d) := rep_plug.2 ⟨cd5, x0, hx5, hl25, hr25⟩
  have hmem : ∀ a, a ∈ (plug (node x b2 l2 r2) d).addrs ↔ a = x.elem ∨ a ∈ l2.addrs ∨ a ∈ r2.addrs ∨ a ∈ caddrs d := by
    intro a; rw [plug_addrs_mem]; simp only [addrs_node, List.mem_append, List.mem_cons]; tauto
  have hnd : (plug (node x b2 l2 r2) d).addrs.Nodup := by
    have := hperm'.nodup_iff.2 hap.nd
    simp only [addrs_node, List.nodup_cons, List.nodup_append] at this
    exact this.2.1.1
  have htop : (plug (node x b2 l2 r2) d).ptr = top x.elem d := by rw [ptr_plug]; rfl
  steps
  rw [← htop] at hy5 ⊢
  refine Does.bind ((adopt_spec hsub hnd).mono ?_)
  rintro _ m6 ⟨hsub6, o6⟩
  have hrr6 : Rep m6 x.elem r := hrr5.off o6 fun a ha h' => by
    rcases (hmem a).1 h' with rfl | h' | h' | h'
    · exact x3 ha
    · exact (g3 a ha).1 h'
    · exact (g3 a ha).2.1 h'
    · exact (g3 a ha).2.2.1 h'
  have hy6 := (o6 y.elem (fun h' => by
    rcases (hmem _).1 h' with e | h' | h' | h'
    · exact f3 e.symm
    · exact y1 h'
    · exact y2 h'
    · exact y4 h')).trans hy5
  have a6 : Around m6 tree n c y.elem := a5.frame o6 fun a h' => by
    rcases (hmem a).1 h' with rfl | h' | h' | h'
    · exact ⟨f1.symm, x5⟩
    · exact ⟨fun e => t1 (e ▸ h'), (g1 a h').2.2.2⟩
    · exact ⟨fun e => t2 (e ▸ h'), (g2 a h').2.2.2⟩
    · exact ⟨fun e => t4 (e ▸ h'), (g4 a h').2.2.2⟩
  steps
  refine (adopt_spec hrr6 n3).mono ?_
  rintro _ m7 ⟨hrr7, o7⟩
  have hsub7 : Rep m7 y.elem (plug (node x b2 l2 r2) d) := hsub6.off o7 fun a h' ha => by
    rcases (hmem a).1 h' with rfl | h' | h' | h'
    · exact x3 ha
    · exact (g3 a ha).1 h'
    · exact (g3 a ha).2.1 h'
    · exact (g3 a ha).2.2.1 h'
  have hy7 := (o7 y.elem y3).trans hy6
  have a7 : Around m7 tree n c y.elem := a6.frame o7 fun a ha => ⟨fun e => t3 (e ▸ ha), (g3 a ha).2.2.2⟩
  refine ⟨⟨a7, ⟨y0, ?_, hsub7, hrr7⟩, hperm'.nodup_iff.2 hap.nd⟩, ?_⟩
  · exact hy7
  · refine Off.trans (Off.trans (Off.trans (Off.trans (Off.trans (Off.trans (o1.mono ?_) (o2.mono ?_)) (o3.mono ?_)) (o4.mono ?_)) (o5.mono ?_)) (o6.mono ?_)) (o7.mono ?_)
    · intro a ha
      have := hole_mem tree (d ++ .l x b r :: c)
      rw [List.mem_singleton.1 ha, hfoot]
      rw [caddrs_append] at this
      simp only [caddrs_cons, Fr.item, Fr.sib, List.mem_append, List.mem_cons] at this
      clear * - this
      tauto
    · intro a ha
      have := hole_mem tree c
      rw [List.mem_singleton.1 ha, hfoot]
      simp only [List.mem_cons] at this
      clear * - this
      tauto
    all_goals
      intro a ha
      rw [hfoot]
      try rw [hmem] at ha
      try simp only [List.mem_cons, List.not_mem_nil, or_false] at ha
      clear * - ha
      tauto

theorem exchange_right {x y : Item} {b b2 : Int} {l2 r2 l : T} (h : Z m tree n c (node x b l (plug (node y b2 l2 r2) d))) :
    Does (exchange tree x.elem y.elem) m (fun _ m' => Z m' tree n c (node y b l (plug (node x b2 l2 r2) d)) ∧
      Off m m' (foot tree c (node x b l (plug (node y b2 l2 r2) d)))) := by
  have hperm : (tree :: ((node x b l (plug (node y b2 l2 r2) d)).addrs ++ caddrs c)).Perm
      (tree :: x.elem :: y.elem :: (l2.addrs ++ r2.addrs ++ l.addrs ++ caddrs d ++ caddrs c)) := by
    rw [List.perm_iff_count]
    intro a
    have h1 := (plug_perm d (node y b2 l2 r2)).count_eq a
    simp only [addrs_node, List.count_append, List.count_cons] at h1 ⊢
    omega
  have hperm' : (tree :: ((node y b l (plug (node x b2 l2 r2) d)).addrs ++ caddrs c)).Perm
      (tree :: x.elem :: y.elem :: (l2.addrs ++ r2.addrs ++ l.addrs ++ caddrs d ++ caddrs c)) := by
    rw [List.perm_iff_count]
    intro a
    have h1 := (plug_perm d (node x b2 l2 r2)).count_eq a
    simp only [addrs_node, List.count_append, List.count_cons] at h1 ⊢
    omega
  have hap : Apart tree x.elem y.elem l2 r2 l d c := ⟨hperm.nodup_iff.1 h.nd⟩
  have hfoot : ∀ a, a ∈ foot tree c (node x b l (plug (node y b2 l2 r2) d)) ↔
      a = tree ∨ a = x.elem ∨ a = y.elem ∨ a ∈ l2.addrs ∨ a ∈ r2.addrs ∨ a ∈ l.addrs ∨ a ∈ caddrs d ∨ a ∈ caddrs c := by
    intro a
    rw [mem_foot, ← List.mem_append, ← List.mem_cons, hperm.mem_iff]
    simp only [List.mem_cons, List.mem_append, or_assoc]
  have hz2 : Z m tree n (d ++ .r x b l :: c) (node y b2 l2 r2) := by
    rw [Z.plug, plug_append]
    have := Z.plug.1 h
    exact this
  obtain ⟨⟨f1, f2, f3⟩, ⟨t1, t2, t3, t4, t5⟩, ⟨x1, x2, x3, x4, x5⟩, ⟨y1, y2, y3, y4, y5⟩, ⟨n1, n2, n3, n4, n5⟩, g1, g2, g3, g4, g5⟩ := hap.facts
  obtain ⟨y0, hy, hl2, hr2⟩ := hz2.sub
  obtain ⟨x0, hx, hr, -⟩ := h.sub
  have hpar : par 0 (d ++ .r x b l :: c) = par x.elem d := par_append _ _ _
  have hyC : y.elem ∉ caddrs (d ++ .r x b l :: c) := by
    rw [caddrs_append]
    simp only [caddrs_cons, Fr.item, Fr.sib, List.mem_append, List.mem_cons, not_or]
    exact ⟨y4, f3.symm, y3, y5⟩
  simp only [exchange]
  -- the place of `y` gets `x`
  refine Does.bind ((substitute_spec (x := x.elem) hz2.around rfl y0 hy hyC).mono ?_)
  rintro _ m1 ⟨a1, o1⟩
  obtain ⟨cd1, x01, cx1, cr1, cc1⟩ := repC_append.1 a1.ctx
  have hh1 : ∀ a, a ≠ x.elem → a ∉ caddrs d → a ∉ [hole tree (d ++ .r x b l :: c)] := by
    intro a h1 h2
    rw [hole_append]
    simp only [hole, List.mem_singleton]
    cases d with
    | nil => exact h1
    | cons f d => rintro rfl; exact h2 (by simp [Fr.item])
  have hy1 := (o1 _ (hh1 _ f3.symm y4)).trans hy
  rw [hpar] at hy1
  have hl21 : Rep m1 y.elem l2 := hl2.off o1 fun a ha => hh1 a (fun e => x1 (e ▸ ha)) (g1 a ha).2.2.1
  have hr21 : Rep m1 y.elem r2 := hr2.off o1 fun a ha => hh1 a (fun e => x2 (e ▸ ha)) (g2 a ha).2.2.1
  have hr1 : Rep m1 x.elem l := cr1
  simp only [Fr.item, Fr.cell, par_cons] at cx1 cc1 cd1 x01
  have b1 : Around m1 tree n c x.elem := by
    refine ⟨a1.tree0, ?_, cc1, ?_⟩
    · have := a1.root
      rw [top_append] at this
      exact this
    · exact List.nodup_cons.2 ⟨t5, n5⟩
  -- the place of `x` gets `y`
  refine Does.bind ((substitute_spec (x := y.elem) b1 rfl x0 cx1 x5).mono ?_)
  rintro _ m2 ⟨a2, o2⟩
  have hh2 : ∀ a, a ≠ tree → a ∉ caddrs c → a ∉ [hole tree c] := fun a h1 h2 => hole_not h1 h2
  have hx2 := (o2 _ (hh2 _ f1.symm x5)).trans cx1
  have hy2 := (o2 _ (hh2 _ f2.symm y5)).trans hy1
  have hl22 : Rep m2 y.elem l2 := hl21.off o2 fun a ha => hh2 a (fun e => t1 (e ▸ ha)) (g1 a ha).2.2.2
  have hr22 : Rep m2 y.elem r2 := hr21.off o2 fun a ha => hh2 a (fun e => t2 (e ▸ ha)) (g2 a ha).2.2.2
  have hrr2 : Rep m2 x.elem l := hr1.off o2 fun a ha => hh2 a (fun e => t3 (e ▸ ha)) (g3 a ha).2.2.2
  have cd2 : RepC m2 x.elem d x.elem := cd1.frame fun a ha => o2 a (hh2 a (fun e => t4 (e ▸ ha)) (g4 a ha).2.2.2)
  -- the fields
  refine swap_spec x0 y0 f3 hx2 hy2 ?_
  intro m3 hx3 hy3 o3
  have hs3 : ∀ a, a ≠ x.elem → a ≠ y.elem → a ∉ [x.elem, y.elem] := fun a h1 h2 => by simp [h1, h2]
  have hl23 : Rep m3 y.elem l2 := hl22.off o3 fun a ha => hs3 a (fun e => x1 (e ▸ ha)) (fun e => y1 (e ▸ ha))
  have hr23 : Rep m3 y.elem r2 := hr22.off o3 fun a ha => hs3 a (fun e => x2 (e ▸ ha)) (fun e => y2 (e ▸ ha))
  have hrr3 : Rep m3 x.elem l := hrr2.off o3 fun a ha => hs3 a (fun e => x3 (e ▸ ha)) (fun e => y3 (e ▸ ha))
  have cd3 : RepC m3 x.elem d x.elem := cd2.frame fun a ha => o3 a (hs3 a (fun e => x4 (e ▸ ha)) (fun e => y4 (e ▸ ha)))
  have a3 : Around m3 tree n c y.elem := a2.frame o3 (by
    intro a ha
    simp only [List.mem_cons, List.not_mem_nil, or_false] at ha
    rcases ha with rfl | rfl
    · exact ⟨f1.symm, x5⟩
    · exact ⟨f2.symm, y5⟩)
  simp only [left, right]
  steps
  refine Does.bind ((adopt_spec hl23 n1).mono ?_)
  rintro _ m4 ⟨hl24, o4⟩
  have hx4 := (o4 _ x1).trans hx3
  have hy4 := (o4 _ y1).trans hy3
  have hr24 : Rep m4 y.elem r2 := hr23.off o4 fun a ha h' => (g1 a h').1 ha
  have hrr4 : Rep m4 x.elem l := hrr3.off o4 fun a ha h' => (g1 a h').2.1 ha
  have cd4 : RepC m4 x.elem d x.elem := cd3.frame fun a ha => o4 a fun h' => (g1 a h').2.2.1 ha
  have a4 : Around m4 tree n c y.elem := a3.frame o4 fun a ha => ⟨fun e => t1 (e ▸ ha), (g1 a ha).2.2.2⟩
  steps
  refine Does.bind ((adopt_spec hr24 n2).mono ?_)
  rintro _ m5 ⟨hr25, o5⟩
  have hx5 := (o5 _ x2).trans hx4
  have hy5 := (o5 _ y2).trans hy4
  have hl25 : Rep m5 x.elem l2 := hl24.off o5 fun a ha h' => (g1 a ha).1 h'
  have hrr5 : Rep m5 x.elem l := hrr4.off o5 fun a ha h' => (g2 a h').2.1 ha
  have cd5 : RepC m5 x.elem d x.elem := cd4.frame fun a ha => o5 a fun h' => (g2 a h').2.2.1 ha
  have a5 : Around m5 tree n c y.elem := a4.frame o5 fun a ha => ⟨fun e => t2 (e ▸ ha), (g2 a ha).2.2.2⟩
  -- what is now on the left of `y`
  have hsub : Rep m5 x.elem (plug (node x b2 l2 r2) d) := rep_plug.2 ⟨cd5, x0, hx5, hl25, hr25⟩
  have hmem : ∀ a, a ∈ (plug (node x b2 l2 r2) d).addrs ↔ a = x.elem ∨ a ∈ l2.addrs ∨ a ∈ r2.addrs ∨ a ∈ caddrs d := by
    intro a; rw [plug_addrs_mem]; simp only [addrs_node, List.mem_append, List.mem_cons]; tauto
  have hnd : (plug (node x b2 l2 r2) d).addrs.Nodup := by
    have := hperm'.nodup_iff.2 hap.nd
    simp only [addrs_node, List.nodup_cons, List.nodup_append] at this
    exact this.2.1.2.1.2
  have htop : (plug (node x b2 l2 r2) d).ptr = top x.elem d := by rw [ptr_plug]; rfl
  steps
  refine Does.bind ((adopt_spec hrr5 n3).mono ?_)
  rintro _ m6 ⟨hrr6, o6⟩
  have hsub6 : Rep m6 x.elem (plug (node x b2 l2 r2) d) := hsub.off o6 fun a h' ha => by
    rcases (hmem a).1 h' with rfl | h' | h' | h'
    · exact x3 ha
    · exact (g3 a ha).1 h'
    · exact (g3 a ha).2.1 h'
    · exact (g3 a ha).2.2.1 h'
  have hy6 := (o6 y.elem y3).trans hy5
  have a6 : Around m6 tree n c y.elem := a5.frame o6 fun a ha => ⟨fun e => t3 (e ▸ ha), (g3 a ha).2.2.2⟩
  steps
  rw [← htop] at hy6 ⊢
  refine (adopt_spec hsub6 hnd).mono ?_
  rintro _ m7 ⟨hsub7, o7⟩
  have hrr7 : Rep m7 y.elem l := hrr6.off o7 fun a ha h' => by
    rcases (hmem a).1 h' with rfl | h' | h' | h'
    · exact x3 ha
    · exact (g3 a ha).1 h'
    · exact (g3 a ha).2.1 h'
    · exact (g3 a ha).2.2.1 h'
  have hy7 := (o7 y.elem (fun h' => by
    rcases (hmem _).1 h' with e | h' | h' | h'
    · exact f3 e.symm
    · exact y1 h'
    · exact y2 h'
    · exact y4 h')).trans hy6
  have a7 : Around m7 tree n c y.elem := a6.frame o7 fun a h' => by
    rcases (hmem a).1 h' with rfl | h' | h' | h'
    · exact ⟨f1.symm, x5⟩
    · exact ⟨fun e => t1 (e ▸ h'), (g1 a h').2.2.2⟩
    · exact ⟨fun e => t2 (e ▸ h'), (g2 a h').2.2.2⟩
    · exact ⟨fun e => t4 (e ▸ h'), (g4 a h').2.2.2⟩
  refine ⟨⟨a7, ⟨y0, ?_, hrr7, hsub7⟩, hperm'.nodup_iff.2 hap.nd⟩, ?_⟩
  · exact hy7
  · refine Off.trans (Off.trans (Off.trans (Off.trans (Off.trans (Off.trans (o1.mono ?_) (o2.mono ?_)) (o3.mono ?_)) (o4.mono ?_)) (o5.mono ?_)) (o6.mono ?_)) (o7.mono ?_)
    · intro a ha
      have := hole_mem tree (d ++ .r x b l :: c)
      rw [List.mem_singleton.1 ha, hfoot]
      rw [caddrs_append] at this
      simp only [caddrs_cons, Fr.item, Fr.sib, List.mem_append, List.mem_cons] at this
      clear * - this
      tauto
    · intro a ha
      have := hole_mem tree c
      rw [List.mem_singleton.1 ha, hfoot]
      simp only [List.mem_cons] at this
      clear * - this
      tauto
    all_goals
      intro a ha
      rw [hfoot]
      try rw [hmem] at ha
      try simp only [List.mem_cons, List.not_mem_nil, or_false] at ha
      clear * - ha
      tauto

end Verif.Avl
