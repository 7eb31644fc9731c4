import Verif.Proofs.AvlQuery

/-! Making, destroying, copying, and `avl_tree_put`. -/

namespace Verif.Avl

variable [Ptrs]

open Spec.Avl (Item Order)
open T

variable {m m' : Mem} {tree n : Nat} {c d : Ctx} {t : T} {cmp : Nat → Nat → Int}

omit [Ptrs] in
theorem destroySubtreeS_spec : ∀ (t : T) (p : Nat) (m : Mem) (d : Nat), t.height + 1 ≤ d → Rep m p t → t.addrs.Nodup →
    Does (destroySubtreeS d t.ptr) m (fun _ m' =>
    (∀ a ∈ t.addrs, m'.get a = none) ∧ Off m m' t.addrs) := by
  intro t
  induction t with
  | nil =>
    intro p m d hd _ _
    obtain ⟨d, rfl⟩ : ∃ d', d = d' + 1 := ⟨d - 1, by omega⟩
    rw [destroySubtreeS]
    exact does_neg (by simp) (Does.pure ⟨by simp, Off.refl _ _⟩)
  | node i b l r ihl ihr =>
    rintro p m d hd ⟨h0, h1, hl, hr⟩ hn
    obtain ⟨d, rfl⟩ : ∃ d', d = d' + 1 := ⟨d - 1, by omega⟩
    simp only [height] at hd
    simp only [addrs_node, List.nodup_append, List.nodup_cons, List.mem_cons] at hn
    have il : i.elem ∉ l.addrs := by grind
    have ir : i.elem ∉ r.addrs := by grind
    have lr : ∀ a ∈ r.addrs, a ∉ l.addrs := by grind
    rw [destroySubtreeS]
    refine does_pos h0 ?_
    simp only [left, right, ptr_node]
    steps
    refine Does.bind ((ihl _ m d (by omega) hl hn.1).mono ?_)
    rintro _ m1 ⟨g1, o1⟩
    have e1 := (o1 _ il).trans h1
    have hr1 : Rep m1 i.elem r := hr.off o1 lr
    steps
    refine Does.bind ((ihr _ m1 d (by omega) hr1 hn.2.1.2).mono ?_)
    rintro _ m2 ⟨g2, o2⟩
    have e2 := (o2 _ ir).trans e1
    steps
    refine ⟨?_, ?_⟩
    · intro a ha
      by_cases hai : a = i.elem
      · subst hai; simp
      · rw [Mem.get_del_ne (Ne.symm hai)]
        simp only [addrs_node, List.mem_append, List.mem_cons, hai, false_or] at ha
        by_cases har : a ∈ r.addrs
        · exact g2 a har
        · rw [o2 a har]; exact g1 a (ha.resolve_right har)
    · intro a ha
      simp only [addrs_node, List.mem_append, List.mem_cons, not_or] at ha
      rw [Mem.get_del_ne (Ne.symm ha.2.1), o2 a ha.2.2, o1 a ha.1]

theorem destroyS_spec {d : Nat} (hk : t.height + 1 ≤ d) (h : Z m tree n [] t) : Does (destroyS d tree) m (fun _ m' =>
    (∀ a ∈ foot tree [] t, m'.get a = none) ∧ Off m m' (foot tree [] t)) := by
  have hd := h.disj
  refine Does.bind (root_spec h ?_)
  refine Does.bind ((destroySubtreeS_spec t _ m d hk h.sub hd.2.2.2).mono ?_)
  rintro _ m1 ⟨g1, o1⟩
  have e1 := (o1 _ hd.2.1).trans h.around.root
  have h0 := h.around.tree0
  steps
  refine ⟨?_, ?_⟩
  · intro a ha
    by_cases hat : a = tree
    · subst hat; simp
    · rw [Mem.get_del_ne (Ne.symm hat)]
      simp only [mem_foot, hat, false_or, caddrs_nil, List.not_mem_nil, or_false] at ha
      exact g1 a ha
  · intro a ha
    simp only [mem_foot, not_or] at ha
    rw [Mem.get_del_ne (Ne.symm ha.1), o1 a ha.2.1]

theorem destroy_spec (h : Z m tree n [] t) : Does (destroy tree) m (fun _ m' =>
    (∀ a ∈ foot tree [] t, m'.get a = none) ∧ Off m m' (foot tree [] t)) :=
  (short_destroy _ _).does (destroyS_spec (le_refl _) h)

theorem make_spec {A : Alloc} (hA : A.Good) (m : Mem) : Does (make A Ptrs.cmp Ptrs.obj) m (fun a m' => Z m' a 0 [] nil ∧ m.get a = none ∧ Off m m' [a]) := by
  have h0 := hA.nonnull m
  simp only [make, setRoot]
  refine Does.bind (does_alloc hA ?_)
  steps
  refine ⟨⟨⟨h0, by simp, trivial, by simp⟩, trivial, by simp⟩, hA.fresh m, ?_⟩
  exact (((((Off.refl _ _).set (by simp)).set (by simp)).set (by simp)).set (by simp)).set (by simp)

omit [Ptrs] in
theorem makeElement_spec {A : Alloc} (hA : A.Good) (m : Mem) (k v : Nat) : Does (makeElement A k v) m (fun a m' => a ≠ 0 ∧ m.get a = none ∧
    m'.get a = some (.aelem ⟨k, v, 0, 0, 0, 0⟩) ∧ Off m m' [a]) := by
  have h0 := hA.nonnull m
  simp only [makeElement, setKey, setValue, setRight, setLeft, setParent, setBalance]
  refine Does.bind (does_alloc hA ?_)
  steps
  refine ⟨h0, hA.fresh m, by simp, ?_⟩
  exact (((((((Off.refl _ _).set (by simp)).set (by simp)).set (by simp)).set (by simp)).set (by simp)).set (by simp)).set (by simp)

/-- What `avl_tree_put` does to memory. -/
structure TreePutPost (cmp : Nat → Nat → Int) (m : Mem) (tree n : Nat) (t : T) (k v : Nat) (r : Nat) (m' : Mem) (x : Item) : Prop where
  item : x.key = k ∧ x.value = v
  fresh : x.elem ≠ 0 ∧ m.get x.elem = none
  removed : r = match (ins cmp x t).2.2 with
    | none => 0
    | some i => i.elem
  z : ∃ n', Z m' tree n' [] (ins cmp x t).1 ∧
    (n = t.items.length % 2 ^ 64 → n' = (ins cmp x t).1.items.length % 2 ^ 64)
  off : Off m m' (x.elem :: foot tree [] t)
  old : ∀ i, (ins cmp x t).2.2 = some i → m'.get i.elem = m.get i.elem

omit [Ptrs] in
theorem inc_len (n : Nat) : (n % 2 ^ 64 + 1) % 2 ^ 64 = (n + 1) % 2 ^ 64 := by omega

omit [Ptrs] in
theorem Rep.ne_fresh {p a : Nat} (h : Rep m p t) (ha : m.get a = none) : a ∉ t.addrs := by
  intro hm
  obtain ⟨i, hi, rfl⟩ := List.mem_map.1 hm
  obtain ⟨q, l, r, b, e⟩ := h.live i hi
  rw [e] at ha; simp at ha

theorem Z.fresh_not {a : Nat} (h : Z m tree n [] t) (ha : m.get a = none) : a ∉ foot tree [] t := by
  intro hm
  simp only [mem_foot, caddrs_nil, List.not_mem_nil, or_false] at hm
  rcases hm with rfl | hm
  · rw [h.around.root] at ha; simp at ha
  · exact h.sub.ne_fresh ha hm

theorem Z.frame (h : Z m tree n [] t) {S : List Nat} (ho : Off m m' S) (hs : ∀ a ∈ S, a ∉ foot tree [] t) : Z m' tree n [] t := by
  refine ⟨h.around.frame ho ?_, h.sub.off ho ?_, h.nd⟩
  · intro a ha
    have := hs a ha
    simp only [mem_foot, not_or] at this
    exact ⟨this.1, by simp⟩
  · intro a ha hs'
    exact hs a hs' (by simp [mem_foot, ha])

theorem treePutS_spec {A : Alloc} {d : Nat} (hk : 2 * t.height ≤ d) (hA : A.Good) (h : Z m tree n [] t) (hb : t.Bal) (k v : Nat) :
    Does (treePutS d A cmp tree k v) m (fun r m' => ∃ x, TreePutPost cmp m tree n t k v r m' x) := by
  simp only [treePutS]
  refine Does.bind ((makeElement_spec hA m k v).mono ?_)
  rintro a m1 ⟨a0, af, ac, ao⟩
  have hfa := h.fresh_not af
  have z1 : Z m1 tree n [] t := h.frame ao (by simpa using hfa)
  refine Does.bind (root_spec z1 ?_)
  by_cases hn : t = nil
  · subst hn
    refine does_pos rfl ?_
    refine Does.bind ((write_hole z1.around a).mono ?_)
    rintro _ m2 ⟨a2, o2⟩
    have hat : a ≠ tree := by simp only [mem_foot, not_or] at hfa; exact hfa.1
    have ac2 := (o2 a (by simpa [hole] using hat)).trans ac
    have hr := a2.root; have ht := a2.tree0
    refine Does.bind (does_modA ht hr (Does.pure ?_))
    refine ⟨⟨a, k, v⟩, ⟨rfl, rfl⟩, ⟨a0, af⟩, rfl, ⟨1, ?_, ?_⟩, ?_, by simp [ins]⟩
    · refine ⟨⟨ht, by simp [ins], trivial, by simp⟩, ⟨a0, ?_, trivial, trivial⟩, ?_⟩
      · rw [Mem.get_set_ne (Ne.symm hat)]; exact ac2
      · simp [ins, Ne.symm hat]
    · intro _; simp [ins, items]
    · refine ((ao.mono ?_).trans (o2.mono ?_)).set ?_
      · intro b hb; simp only [List.mem_singleton] at hb; simp [hb]
      · intro b hb; simp only [hole, List.mem_singleton] at hb; simp [hb, foot]
      · simp [foot]
  · refine does_neg (by rw [h.sub.ptr_eq_zero]; exact hn) ?_
    refine Does.bind ((putS_spec cmp (x := ⟨a, k, v⟩) a0 t [] m1 d hk z1 hn hb ac hfa).mono ?_)
    rintro ⟨g, r⟩ m2 ⟨p1, p2, p3, p4, p5⟩
    refine Does.pure ⟨⟨a, k, v⟩, ⟨rfl, rfl⟩, ⟨a0, af⟩, p2, ⟨_, p3, ?_⟩, ?_, ?_⟩
    · intro hl
      obtain ⟨i1, i2⟩ := ins_items cmp ⟨a, k, v⟩ t
      split
      · rename_i hnone
        obtain ⟨xs, ys, e1, e2⟩ := i1 hnone
        rw [hl, e1, e2, inc_len]
        simp only [List.length_append, List.length_cons]
        rfl
      · rename_i hsome
        cases ho : (ins cmp ⟨a, k, v⟩ t).2.2 with
        | none => exact absurd ho hsome
        | some i =>
          obtain ⟨xs, ys, e1, e2, -⟩ := i2 i ho
          rw [hl, e1, e2]
          simp only [List.length_append, List.length_cons]
    · refine (ao.mono ?_).trans p4
      intro b hb; simp only [List.mem_singleton] at hb; simp [hb]
    · intro i hi
      rw [p5 i hi]
      refine ao _ ?_
      obtain ⟨xs, ys, e1, -⟩ := (ins_items cmp ⟨a, k, v⟩ t).2 i hi
      simp only [List.mem_singleton]
      rintro rfl
      exact h.sub.ne_fresh af (List.mem_map.2 ⟨i, by rw [e1]; simp, rfl⟩)

theorem treePut_spec {A : Alloc} (hA : A.Good) (h : Z m tree n [] t) (hb : t.Bal) (k v : Nat) :
    Does (treePut A cmp tree k v) m (fun r m' => ∃ x, TreePutPost cmp m tree n t k v r m' x) :=
  (short_treePut _ _ _ _ _ _).does (treePutS_spec (le_refl _) hA h hb k v)

/-- The same shape, keys and values at other addresses. -/
def Like : T → T → Prop
  | nil, nil => True
  | node i b l r, node i' b' l' r' => i'.key = i.key ∧ i'.value = i.value ∧ b' = b ∧ Like l l' ∧ Like r r'
  | _, _ => False

omit [Ptrs] in
theorem Like.height : ∀ {t t' : T}, Like t t' → t'.height = t.height
  | nil, nil, _ => rfl
  | node .., node .., ⟨_, _, _, h1, h2⟩ => by simp only [T.height, h1.height, h2.height]

omit [Ptrs] in
theorem Like.bal : ∀ {t t' : T}, Like t t' → t.Bal → t'.Bal
  | nil, nil, _, _ => trivial
  | node .., node .., ⟨_, _, e, h1, h2⟩, ⟨b1, b2, b3, b4, b5⟩ => by
    subst e
    exact ⟨by rw [h1.height, h2.height]; exact b1, b2, b3, h1.bal b4, h2.bal b5⟩

omit [Ptrs] in
theorem Like.items : ∀ {t t' : T}, Like t t' → t'.items.map (fun i => (i.key, i.value)) = t.items.map (fun i => (i.key, i.value))
  | nil, nil, _ => rfl
  | node .., node .., ⟨e1, e2, _, h1, h2⟩ => by
    simp only [T.items, List.map_append, List.map_cons, h1.items, h2.items, e1, e2]

/-- What `copy_tree` returns. -/
structure CopyPost (m : Mem) (t : T) (a : Nat) (m' : Mem) (t' : T) : Prop where
  ptr : a = t'.ptr
  ne : t' ≠ nil
  rep : Rep m' 0 t'
  like : Like t t'
  nd : t'.addrs.Nodup
  fresh : ∀ a ∈ t'.addrs, m.get a = none
  off : Off m m' t'.addrs

omit [Ptrs] in
/-- The top is given a parent. -/
theorem setParent_top {p q : Nat} (h : Rep m p t) (hn : t ≠ nil) (hd : t.addrs.Nodup) :
    Does (setParent t.ptr q) m (fun _ m' => Rep m' q t ∧ Off m m' t.addrs) := by
  have := adopt_spec (q := q) h hd
  rwa [adopt, if_pos (by rw [ne_eq, h.ptr_eq_zero]; exact hn)] at this

/-- avltree.c:520-525, one side: the child of the copy is the copy of the child. -/
structure SidePost (m : Mem) (a : Nat) (t : T) (m' : Mem) (t' : T) : Prop where
  rep : Rep m' a t'
  like : Like t t'
  nd : t'.addrs.Nodup
  fresh : ∀ x ∈ t'.addrs, m.get x = none
  off : Off m m' (a :: t'.addrs)

omit [Ptrs] in
theorem copyLeft_spec {A : Alloc} {d : Nat} {β : Type} {k : M β} {Q : β → Mem → Prop} {a p : Nat} {x y : AElem} (a0 : a ≠ 0) (p0 : p ≠ 0)
    (hp : m.get p = some (.aelem x)) (hx : x.left = t.ptr) (ha : m.get a = some (.aelem y)) (hy : y.left = 0) (hr : Rep m p t)
    (ih : t ≠ nil → Does (copyTreeS A d t.ptr) m (fun a m' => ∃ t', CopyPost m t a m' t'))
    (hk : ∀ m' t', m'.get a = some (.aelem { y with left := t'.ptr }) → SidePost m a t m' t' → Does k m' Q) :
    Does (if t.ptr ≠ 0 then do
      let x ← copyTreeS A d (← left p)
      setLeft a x
      setParent (← left a) a
      k
    else k) m Q := by
  by_cases hn : t = nil
  · subst hn
    refine does_neg (by simp) ?_
    refine hk m nil ?_ ⟨trivial, trivial, by simp, by simp, Off.refl _ _⟩
    rw [ha, ptr_nil, ← hy]
  · refine does_pos (by rw [ne_eq, hr.ptr_eq_zero]; exact hn) ?_
    simp only [left, setLeft]
    steps
    rw [hx]
    refine Does.bind ((ih hn).mono ?_)
    rintro b m1 ⟨t', rfl, q2, q3, q4, q5, q6, q7⟩
    have hat : a ∉ t'.addrs := by intro h; rw [q6 a h] at ha; simp at ha
    have ha1 := (q7 a hat).trans ha
    steps
    refine Does.bind ((setParent_top (q := a) (q3.set hat) q2 q5).mono ?_)
    rintro _ m2 ⟨r1, r2⟩
    refine hk m2 t' ?_ ⟨r1, q4, q5, q6, ?_⟩
    · rw [r2 a hat]; simp
    · exact ((q7.mono (by intro z hz; simp [hz])).set (by simp)).trans (r2.mono (by intro z hz; simp [hz]))

omit [Ptrs] in
theorem copyRight_spec {A : Alloc} {d : Nat} {β : Type} {k : M β} {Q : β → Mem → Prop} {a p : Nat} {x y : AElem} (a0 : a ≠ 0) (p0 : p ≠ 0)
    (hp : m.get p = some (.aelem x)) (hx : x.right = t.ptr) (ha : m.get a = some (.aelem y)) (hy : y.right = 0) (hr : Rep m p t)
    (ih : t ≠ nil → Does (copyTreeS A d t.ptr) m (fun a m' => ∃ t', CopyPost m t a m' t'))
    (hk : ∀ m' t', m'.get a = some (.aelem { y with right := t'.ptr }) → SidePost m a t m' t' → Does k m' Q) :
    Does (if t.ptr ≠ 0 then do
      let x ← copyTreeS A d (← right p)
      setRight a x
      setParent (← right a) a
      k
    else k) m Q := by
  by_cases hn : t = nil
  · subst hn
    refine does_neg (by simp) ?_
    refine hk m nil ?_ ⟨trivial, trivial, by simp, by simp, Off.refl _ _⟩
    rw [ha, ptr_nil, ← hy]
  · refine does_pos (by rw [ne_eq, hr.ptr_eq_zero]; exact hn) ?_
    simp only [right, setRight]
    steps
    rw [hx]
    refine Does.bind ((ih hn).mono ?_)
    rintro b m1 ⟨t', rfl, q2, q3, q4, q5, q6, q7⟩
    have hat : a ∉ t'.addrs := by intro h; rw [q6 a h] at ha; simp at ha
    have ha1 := (q7 a hat).trans ha
    steps
    refine Does.bind ((setParent_top (q := a) (q3.set hat) q2 q5).mono ?_)
    rintro _ m2 ⟨r1, r2⟩
    refine hk m2 t' ?_ ⟨r1, q4, q5, q6, ?_⟩
    · rw [r2 a hat]; simp
    · exact ((q7.mono (by intro z hz; simp [hz])).set (by simp)).trans (r2.mono (by intro z hz; simp [hz]))

omit [Ptrs] in
theorem copyTreeS_spec {A : Alloc} (hA : A.Good) : ∀ (t : T) (p : Nat) (m : Mem) (d : Nat), t.height ≤ d → Rep m p t → t ≠ nil →
    Does (copyTreeS A d t.ptr) m (fun a m' => ∃ t', CopyPost m t a m' t') := by
  intro t
  induction t with
  | nil => intro p m _ _ _ h; exact absurd rfl h
  | node i b l r ihl ihr =>
    rintro p m d hd ⟨h0, h1, hl, hr⟩ _
    simp only [height] at hd
    obtain ⟨d, rfl⟩ : ∃ d', d = d' + 1 := ⟨d - 1, by omega⟩
    rw [copyTreeS]
    simp only [key, value, balance, ptr_node]
    steps
    refine Does.bind ((makeElement_spec hA m i.key i.value).mono ?_)
    rintro a m1 ⟨a0, af, ac, ao⟩
    have hai : a ≠ i.elem := by rintro rfl; rw [h1] at af; simp at af
    have e1 := (ao i.elem (by simpa using hai.symm)).trans h1
    have hl1 : Rep m1 i.elem l := hl.off ao (by intro x hx h'; simp only [List.mem_singleton] at h'; subst h'; exact hl.ne_fresh af hx)
    have hr1 : Rep m1 i.elem r := hr.off ao (by intro x hx h'; simp only [List.mem_singleton] at h'; subst h'; exact hr.ne_fresh af hx)
    refine Does.bind (Does.bind (does_readAE h0 e1 (Does.pure ?_)))
    refine Does.bind (does_modAE a0 ac ?_)
    have e2 : (m1.set a (.aelem ⟨i.key, i.value, 0, 0, 0, b⟩)).get i.elem = _ := (Mem.get_set_ne hai _).trans e1
    have ac2 : (m1.set a (.aelem ⟨i.key, i.value, 0, 0, 0, b⟩)).get a = _ := Mem.get_set_self _ _ _
    have hl2 : Rep (m1.set a (.aelem ⟨i.key, i.value, 0, 0, 0, b⟩)) i.elem l := hl1.set (hl.ne_fresh af)
    have hr2 : Rep (m1.set a (.aelem ⟨i.key, i.value, 0, 0, 0, b⟩)) i.elem r := hr1.set (hr.ne_fresh af)
    have o2 : Off m (m1.set a (.aelem ⟨i.key, i.value, 0, 0, 0, b⟩)) [a] := ao.set (by simp)
    refine Does.mono (P := fun a m' => ∃ t', CopyPost m (node i b l r) a m' t') ?_ (fun _ _ h => h)
    generalize m1.set a (.aelem ⟨i.key, i.value, 0, 0, 0, b⟩) = m2 at *
    refine Does.bind (Does.bind (does_readAE h0 e2 (Does.pure ?_)))
    refine copyLeft_spec a0 h0 e2 rfl ac2 rfl hl2 (ihl _ m2 d (by omega) hl2) ?_
    rintro m3 l' ac3 ⟨s1, s2, s3, s4, s5⟩
    have hil : i.elem ∉ l'.addrs := by intro h; rw [s4 _ h] at e2; simp at e2
    have hal : a ∉ l'.addrs := by intro h; rw [s4 _ h] at ac2; simp at ac2
    have e3 := (s5 i.elem (by simp only [List.mem_cons, not_or]; exact ⟨hai.symm, hil⟩)).trans e2
    have hr3 : Rep m3 i.elem r := hr2.off s5 (by
      intro z hz h'
      rcases List.mem_cons.1 h' with rfl | h'
      · exact hr.ne_fresh af hz
      · exact hr2.ne_fresh (s4 z h') hz)
    refine Does.bind (Does.bind (does_readAE h0 e3 (Does.pure ?_)))
    refine copyRight_spec a0 h0 e3 rfl ac3 rfl hr3 (ihr _ m3 d (by omega) hr3) ?_
    rintro m4 r' ac4 ⟨u1, u2, u3, u4, u5⟩
    have har : a ∉ r'.addrs := by intro h; rw [u4 _ h] at ac3; simp at ac3
    have hlr : ∀ z ∈ l'.addrs, z ∉ r'.addrs := by
      intro z hz h'
      exact s1.ne_fresh (u4 z h') hz
    refine Does.pure ⟨node ⟨a, i.key, i.value⟩ b l' r', rfl, by simp, ⟨a0, ac4, ?_, u1⟩, ⟨rfl, rfl, rfl, s2, u2⟩, ?_, ?_, ?_⟩
    · exact s1.off u5 (by
        intro z hz h'
        rcases List.mem_cons.1 h' with rfl | h'
        · exact hal hz
        · exact hlr z hz h')
    · simp only [addrs_node, List.nodup_append, List.nodup_cons, List.mem_cons]
      refine ⟨s3, ⟨har, u3⟩, ?_⟩
      rintro z hz w (rfl | hw) rfl
      · exact hal hz
      · exact hlr z hz hw
    · intro z hz
      simp only [addrs_node, List.mem_append, List.mem_cons] at hz
      rcases hz with hz | rfl | hz
      · have := s4 z hz
        rwa [o2 z (by simp only [List.mem_singleton]; rintro rfl; exact hal hz)] at this
      · exact af
      · have := u4 z hz
        by_cases hza : z = a
        · rw [hza]; exact af
        · have hzl : z ∉ l'.addrs := fun h' => hlr z h' hz
          rwa [s5 z (by simp [hza, hzl]), o2 z (by simp [hza])] at this
    · refine ((o2.mono ?_).trans (s5.mono ?_)).trans (u5.mono ?_) <;> intro z hz <;>
        simp only [List.mem_cons, List.not_mem_nil, or_false] at hz <;> simp only [addrs_node, List.mem_append, List.mem_cons] <;> tauto

/-- The tree object of a copy. -/
theorem copyS_spec {A : Alloc} {d : Nat} (hk : t.height ≤ d) (hA : A.Good) (h : Z m tree n [] t) : Does (copyS d A tree) m (fun a m' => ∃ t' n', Z m' a n' [] t' ∧ (n = t.items.length % 2 ^ 64 → n' = t'.items.length % 2 ^ 64) ∧
    Like t t' ∧ (∀ x ∈ foot a [] t', m.get x = none) ∧ Off m m' (foot a [] t')) := by
  simp only [copyS]
  refine Does.bind (does_readA h.around.tree0 h.around.root ?_)
  refine Does.bind ((make_spec hA m).mono ?_)
  rintro a m1 ⟨z1, af, o1⟩
  have hfa := h.fresh_not af
  have hz1 : Z m1 tree n [] t := h.frame o1 (by simpa using hfa)
  refine Does.bind (root_spec hz1 ?_)
  by_cases hn : t = nil
  · subst hn
    refine does_neg (by simp) (Does.pure ⟨nil, 0, z1, fun _ => rfl, trivial, ?_, ?_⟩)
    · simpa [foot] using af
    · simpa [foot] using o1
  · refine does_pos (by rw [ne_eq, h.sub.ptr_eq_zero]; exact hn) ?_
    refine Does.bind (root_spec hz1 ?_)
    refine Does.bind ((copyTreeS_spec hA t _ m1 d hk hz1.sub hn).mono ?_)
    rintro _ m2 ⟨t', rfl, c2, c3, c4, c5, c6, c7⟩
    have hat : a ∉ t'.addrs := by
      intro h'; have := c6 a h'; rw [z1.around.root] at this; simp at this
    have ra := (c7 a hat).trans z1.around.root
    have a0 := z1.around.tree0
    simp only [setRoot]
    refine Does.bind (does_modA a0 ra ?_)
    have hta : tree ≠ a := by simp only [mem_foot, not_or] at hfa; exact Ne.symm hfa.1
    have htt : tree ∉ t'.addrs := by
      intro h'; have := c6 tree h'; rw [hz1.around.root] at this; simp at this
    have rt : (m2.set a (.atree ⟨t'.ptr, 0, Ptrs.cmp, Ptrs.obj⟩)).get tree = _ := ((Mem.get_set_ne (Ne.symm hta) _).trans (c7 tree htt)).trans hz1.around.root
    simp only [size]
    refine Does.bind (Does.bind (does_readA h.around.tree0 rt (Does.pure ?_)))
    refine Does.bind (does_modA a0 (Mem.get_set_self _ _ _) (Does.pure ⟨t', n, ?_, ?_, c4, ?_, ?_⟩))
    · refine ⟨⟨a0, by simp, trivial, by simp⟩, (c3.set hat).set hat, ?_⟩
      simp only [caddrs_nil, List.append_nil, List.nodup_cons]
      exact ⟨hat, c5⟩
    · have := congrArg List.length c4.items
      simp only [List.length_map] at this
      rw [this]; exact id
    · intro z hz
      simp only [mem_foot, caddrs_nil, List.not_mem_nil, or_false] at hz
      rcases hz with rfl | hz
      · exact af
      · have := c6 z hz
        rwa [o1 z (by simp only [List.mem_singleton]; rintro rfl; exact hat hz)] at this
    · refine (((o1.mono ?_).trans (c7.mono ?_)).set (by simp [foot])).set (by simp [foot])
      · intro z hz; simp only [List.mem_singleton] at hz; simp [foot, hz]
      · intro z hz; simp [foot, hz]

theorem copy_spec {A : Alloc} (hA : A.Good) (h : Z m tree n [] t) : Does (copy A tree) m (fun a m' => ∃ t' n', Z m' a n' [] t' ∧ (n = t.items.length % 2 ^ 64 → n' = t'.items.length % 2 ^ 64) ∧
    Like t t' ∧ (∀ x ∈ foot a [] t', m.get x = none) ∧ Off m m' (foot a [] t')) :=
  (short_copy _ _ _).does (copyS_spec (le_refl _) hA h)

end Verif.Avl
