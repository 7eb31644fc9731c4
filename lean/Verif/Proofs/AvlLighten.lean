import Verif.Proofs.AvlPut

/-! Rebalancing after a removal: on trees, and `lighten_left`, `lighten_right` in memory. -/

namespace Verif.Avl

variable [Ptrs]

open Spec.Avl (Item)
open T

variable {m m' : Mem} {tree n : Nat} {c : Ctx} {t : T}

/-- The subtree in the hole has become lower by one: what rebalancing makes of the whole. -/
def shrink : Ctx → T → T
  | [], t => t
  | .l i b r :: c, t =>
    if b + 1 = 0 then shrink c (node i (b + 1) t r)
    else if b + 1 = 2 then
      if (rotL (node i (b + 1) t r)).bal ≠ -1 then shrink c (rotL (node i (b + 1) t r)) else plug (rotL (node i (b + 1) t r)) c
    else plug (node i (b + 1) t r) c
  | .r i b l :: c, t =>
    if b - 1 = 0 then shrink c (node i (b - 1) l t)
    else if b - 1 = -2 then
      if (rotR (node i (b - 1) l t)).bal ≠ 1 then shrink c (rotR (node i (b - 1) l t)) else plug (rotR (node i (b - 1) l t)) c
    else plug (node i (b - 1) l t) c

omit [Ptrs] in
theorem fill_items {f : Fr} {t t' : T} (h : t'.items = t.items) : (f.fill t').items = (f.fill t).items := by
  cases f <;> simp [Fr.fill, items, h]

omit [Ptrs] in
theorem plug_items : ∀ (c : Ctx) {t t' : T}, t'.items = t.items → (plug t' c).items = (plug t c).items
  | [], _, _, h => h
  | f :: c, _, _, h => plug_items c (fill_items (f := f) h)

omit [Ptrs] in
theorem shrink_items : ∀ (c : Ctx) (t : T), (shrink c t).items = (plug t c).items
  | [], t => rfl
  | .l i b r :: c, t => by
    have h1 : (node i (b + 1) t r).items = (Fr.fill t (.l i b r)).items := rfl
    have h2 : (rotL (node i (b + 1) t r)).items = (Fr.fill t (.l i b r)).items := rotL_items _
    simp only [shrink, plug]
    split
    · rw [shrink_items]; exact plug_items c h1
    · split
      · split
        · rw [shrink_items]; exact plug_items c h2
        · exact plug_items c h2
      · exact plug_items c h1
  | .r i b l :: c, t => by
    have h1 : (node i (b - 1) l t).items = (Fr.fill t (.r i b l)).items := rfl
    have h2 : (rotR (node i (b - 1) l t)).items = (Fr.fill t (.r i b l)).items := rotR_items _
    simp only [shrink, plug]
    split
    · rw [shrink_items]; exact plug_items c h1
    · split
      · split
        · rw [shrink_items]; exact plug_items c h2
        · exact plug_items c h2
      · exact plug_items c h1

/-- The surroundings are balanced if a subtree of height `h` is in the hole. -/
def BalC : Nat → Ctx → Prop
  | _, [] => True
  | h, .l _ b r :: c => b = (r.height : Int) - h ∧ -1 ≤ b ∧ b ≤ 1 ∧ r.Bal ∧ BalC (max h r.height + 1) c
  | h, .r _ b l :: c => b = (h : Int) - l.height ∧ -1 ≤ b ∧ b ≤ 1 ∧ l.Bal ∧ BalC (max l.height h + 1) c

omit [Ptrs] in
theorem bal_plug : ∀ (c : Ctx) (t : T), (plug t c).Bal ↔ t.Bal ∧ BalC t.height c
  | [], t => by simp [plug, BalC]
  | .l i b r :: c, t => by
    simp only [plug, Fr.fill, BalC]
    rw [bal_plug]
    simp only [Bal, height]
    tauto
  | .r i b l :: c, t => by
    simp only [plug, Fr.fill, BalC]
    rw [bal_plug]
    simp only [Bal, height]
    tauto

omit [Ptrs] in
theorem shrink_bal : ∀ (c : Ctx) (t : T), t.Bal → BalC (t.height + 1) c → (shrink c t).Bal
  | [], t, h, _ => h
  | .l i b r :: c, t, h, ⟨h1, h2, h3, h4, h5⟩ => by
    simp only [shrink]
    split
    · refine shrink_bal c _ ⟨by omega, by omega, by omega, h, h4⟩ ?_
      simp only [height]
      rw [show max t.height r.height + 1 + 1 = max (t.height + 1) r.height + 1 by omega]
      exact h5
    · split
      · obtain ⟨-, k1, k2, k3⟩ := rotL_bal (i := i) (b := b + 1) h h4 (by omega)
        split
        · have hr : r.bal ≠ 0 := fun e => by have := (k2 e).2; contradiction
          refine shrink_bal c _ k1 ?_
          rw [(k3 hr).1, show r.height + 1 = max (t.height + 1) r.height + 1 by omega]
          exact h5
        · have hr : r.bal = 0 := by
            by_contra e
            have := (k3 e).2; omega
          rw [bal_plug]
          refine ⟨k1, ?_⟩
          rw [(k2 hr).1, show r.height + 1 = max (t.height + 1) r.height + 1 by omega]
          exact h5
      · rw [bal_plug]
        refine ⟨⟨by omega, by omega, by omega, h, h4⟩, ?_⟩
        simp only [height]
        rw [show max t.height r.height + 1 = max (t.height + 1) r.height + 1 by omega]
        exact h5
  | .r i b l :: c, t, h, ⟨h1, h2, h3, h4, h5⟩ => by
    simp only [shrink]
    split
    · refine shrink_bal c _ ⟨by omega, by omega, by omega, h4, h⟩ ?_
      simp only [height]
      rw [show max l.height t.height + 1 + 1 = max l.height (t.height + 1) + 1 by omega]
      exact h5
    · split
      · obtain ⟨-, k1, k2, k3⟩ := rotR_bal (i := i) (b := b - 1) h4 h (by omega)
        split
        · have hr : l.bal ≠ 0 := fun e => by have := (k2 e).2; contradiction
          refine shrink_bal c _ k1 ?_
          rw [(k3 hr).1, show l.height + 1 = max l.height (t.height + 1) + 1 by omega]
          exact h5
        · have hr : l.bal = 0 := by
            by_contra e
            have := (k3 e).2; omega
          rw [bal_plug]
          refine ⟨k1, ?_⟩
          rw [(k2 hr).1, show l.height + 1 = max l.height (t.height + 1) + 1 by omega]
          exact h5
      · rw [bal_plug]
        refine ⟨⟨by omega, by omega, by omega, h4, h⟩, ?_⟩
        simp only [height]
        rw [show max l.height t.height + 1 = max l.height (t.height + 1) + 1 by omega]
        exact h5

/-- `lighten_left` or `lighten_right` of the element above the hole. -/
def lightenAt (tree : Nat) : Fr → M Unit
  | .l i _ _ => lightenLeft tree i.elem
  | .r i _ _ => lightenRight tree i.elem

/-- The same on a stack. -/
def lightenAtS (tree d : Nat) : Fr → M Unit
  | .l i _ _ => lightenLeftS tree d i.elem
  | .r i _ _ => lightenRightS tree d i.elem

omit [Ptrs] in
theorem short_lightenAt (tree d : Nat) : ∀ f, Short (lightenAtS tree d f) (lightenAt tree f)
  | .l _ _ _ => (short_lighten _ _ _).1
  | .r _ _ _ => (short_lighten _ _ _).2.1

omit [Ptrs] in
theorem sib_ptr_ne {f : Fr} {p : Nat} (h : p ∉ caddrs (f :: c)) (h0 : p ≠ 0) : f.sib.ptr ≠ p :=
  ptr_ne h0 fun h' => h (by simp [h'])

omit [Ptrs] in
theorem Rep.top {p : Nat} (h : Rep m p t) (hn : t ≠ nil) : t.ptr ≠ 0 ∧ ∃ e, m.get t.ptr = some (.aelem e) ∧ e.parent = p ∧ e.balance = t.bal := by
  cases t with
  | nil => exact absurd rfl hn
  | node i b l r => exact ⟨h.1, _, h.2.1, rfl, rfl⟩

theorem Z.ptr_out (h : Z m tree n c t) (hn : t ≠ nil) : t.ptr ∉ caddrs c := by
  rcases ptr_mem t with h' | h'
  · exact absurd h' hn
  · exact (h.disj.1 _ h').2

theorem lightenParent_spec {f : Fr} {d : Nat} {Q : Unit → Mem → Prop} (h : Z m tree n (f :: c) t) (hn : t ≠ nil) (k : Does (lightenAtS tree d f) m Q) :
    Does (lightenParentS tree (d + 1) t.ptr) m Q := by
  obtain ⟨h0, e, he, hp, -⟩ := h.sub.top hn
  have ho := h.ptr_out hn
  obtain ⟨f0, f1, -⟩ := h.around.ctx
  rw [lightenParentS]
  simp only [parent, right]
  steps
  rw [hp]
  cases f with
  | l i b r =>
    simp only [Fr.item, Fr.cell, par_cons] at f0 f1 ⊢
    steps
    exact does_neg (sib_ptr_ne ho h0) k
  | r i b l =>
    simp only [Fr.item, Fr.cell, par_cons] at f0 f1 ⊢
    steps
    exact does_pos rfl k

/-- avltree.c:385-387, 410-412: the parent is made to point at the new top. -/
theorem redirect_spec {f : Fr} {old new : Nat} {e : AElem} {β : Type} {k : M β} {Q : β → Mem → Prop} (h : Around m tree n (f :: c) old)
    (h0 : old ≠ 0) (ho : old ∉ caddrs (f :: c)) (hn0 : new ≠ 0) (hne : new ∉ caddrs (f :: c)) (he : m.get new = some (.aelem e))
    (hp : e.parent = f.item.elem)
    (hk : ∀ m', Around m' tree n (f :: c) new → Off m m' [hole tree (f :: c)] → Does k m' Q) :
    Does (do
      let pr ← right (← parent new)
      if pr = old then setRight (← parent new) new else setLeft (← parent new) new
      k) m Q := by
  have hw := (write_hole h new).mono (Q := fun _ m' => Does k m' Q) fun _ m' h' => hk m' h'.1 h'.2
  obtain ⟨f0, f1, -⟩ := h.ctx
  simp only [parent, right]
  steps
  rw [hp]
  cases f with
  | l i b r =>
    simp only [Fr.item, Fr.cell] at f0 f1 hp ⊢
    steps
    refine does_neg (sib_ptr_ne ho h0) ?_
    steps
    rw [hp]
    exact Does.bind hw
  | r i b l =>
    simp only [Fr.item, Fr.cell] at f0 f1 hp ⊢
    steps
    refine does_pos rfl ?_
    steps
    rw [hp]
    exact Does.bind hw

theorem root_test (h : Z m tree n c t) (hn : t ≠ nil) : (c = [] ∧ top t.ptr c = t.ptr) ∨ (∃ f c', c = f :: c' ∧ t.ptr ≠ top t.ptr c) := by
  cases c with
  | nil => exact Or.inl ⟨rfl, rfl⟩
  | cons f c' =>
    refine Or.inr ⟨f, c', rfl, fun e => ?_⟩
    have := top_mem (f :: c') t.ptr (by simp)
    rw [← e] at this
    exact h.ptr_out hn this

omit [Ptrs] in
/-- The addresses of the whole tree object. -/
theorem foot_plug {a : Nat} : a ∈ foot tree c t ↔ a = tree ∨ a ∈ (plug t c).addrs := by
  rw [mem_foot, (plug_perm c t).mem_iff, List.mem_append]

omit [Ptrs] in
theorem foot_congr {t' : T} (h : t'.items = t.items) : foot tree c t' = foot tree c t := by simp [foot, addrs, h]

theorem lightenLeft_spec {i : Item} {d : Nat} {b : Int} {t x : T} (h : Z m tree n c (node i b t x)) (ht : t.Bal) (hx : x.Bal)
    (hh : b + 1 = 2 → x.height = t.height + 2)
    (ih : ∀ m' t', Z m' tree n c t' → t' ≠ nil → Off m m' (foot tree c (node i b t x)) →
      ((t' = node i (b + 1) t x ∧ b + 1 = 0) ∨ (t' = rotL (node i (b + 1) t x) ∧ b + 1 = 2 ∧ t'.bal ≠ -1)) →
      ∀ f c', c = f :: c' → ∃ d', d = d' + 1 ∧ Does (lightenAtS tree d' f) m' (fun _ m2 => Z m2 tree n [] (shrink c t') ∧ Off m m2 (foot tree c (node i b t x)))) :
    Does (lightenLeftS tree (d + 1) i.elem) m (fun _ m' => Z m' tree n [] (shrink (.l i b x :: c) t) ∧ Off m m' (foot tree c (node i b t x))) := by
  rw [lightenLeftS]
  refine Does.bind (balance_spec h ?_)
  refine Does.bind ((setBalance_spec h (b + 1)).mono ?_)
  rintro _ m2 ⟨z2, o2⟩
  have o2' : Off m m2 (foot tree c (node i b t x)) := o2.mono (by intro a ha; simp at ha; simp [mem_foot, ha])
  refine Does.bind (balance_spec z2 ?_)
  have hr := z2.around.root; have htr := z2.around.tree0
  have hrt := root_test z2 (by simp)
  simp only [ptr_node] at hrt hr
  simp only [shrink, root]
  by_cases hb0 : b + 1 = 0
  · refine does_pos hb0 ?_
    steps
    simp only [if_pos hb0]
    rcases hrt with ⟨rfl, e⟩ | ⟨f, c', hc, e⟩
    · exact does_neg (by simp) (Does.pure ⟨z2, o2'⟩)
    · refine does_pos e ?_
      obtain ⟨d, rfl, k⟩ := ih m2 _ z2 (by simp) o2' (Or.inl ⟨rfl, hb0⟩) f c' hc
      subst hc
      exact lightenParent_spec (t := node i (b + 1) t x) z2 (by simp) k
  · refine does_neg hb0 ?_
    simp only [if_neg hb0]
    by_cases hb2 : b + 1 = 2
    · refine does_pos hb2 ?_
      simp only [if_pos hb2]
      obtain ⟨hcan, hbal, hz, hnz⟩ := rotL_bal (i := i) (b := b + 1) ht hx (hh hb2)
      have hne : rotL (node i (b + 1) t x) ≠ nil := by
        intro e
        have := rotL_items (node i (b + 1) t x)
        rw [e] at this
        simp [items] at this
      refine Does.bind ((rotateLeft_spec z2.sub z2.disj.2.2.2 hcan).mono ?_)
      rintro _ m3 ⟨rfl, r3, o3⟩
      have a3 := Around.after z2 o3
      have hr3 := a3.root
      simp only [ptr_node] at hr3
      steps
      rcases hrt with ⟨rfl, e⟩ | ⟨f, c', hc, e⟩
      · refine does_pos rfl ?_
        refine (write_hole a3 _).mono ?_
        rintro _ m4 ⟨a4, o4⟩
        obtain ⟨z5, o5⟩ := z2.replace (rotL_items _) o3 r3 a4 o4
        refine ⟨?_, o2'.trans (o5.mono ?_)⟩
        · simp only [shrink, plug, ite_self]; exact z5
        · intro a ha; exact ha
      · refine does_neg e ?_
        obtain ⟨k0, e', ke, kp, kb⟩ := r3.top hne
        have hki : (rotL (node i (b + 1) t x)).addrs = (node i (b + 1) t x).addrs := by simp only [addrs, rotL_items]
        have hkout : (rotL (node i (b + 1) t x)).ptr ∉ caddrs c := by
          rcases ptr_mem (rotL (node i (b + 1) t x)) with e | e
          · exact absurd e hne
          · rw [hki] at e; exact (z2.disj.1 _ e).2
        have hout := z2.ptr_out (by simp)
        subst hc
        refine redirect_spec a3 z2.sub.1 hout k0 hkout ke kp ?_
        intro m4 a4 o4
        obtain ⟨z5, o5⟩ := z2.replace (rotL_items _) o3 r3 a4 o4
        have o6 : Off m m4 (foot tree (f :: c') (node i b t x)) := o2'.trans (o5.mono fun a ha => ha)
        obtain ⟨-, e2, ke2, -, kb2⟩ := z5.sub.top hne
        simp only [balance]
        steps
        rw [kb2]
        by_cases hs : (rotL (node i (b + 1) t x)).bal = -1
        · simp only [hs, ne_eq, not_true_eq_false, if_false]
          exact Does.pure ⟨Z.plug.1 z5, o6⟩
        · simp only [ne_eq, hs, not_false_eq_true, if_true]
          obtain ⟨d, rfl, k⟩ := ih m4 _ z5 hne o6 (Or.inr ⟨rfl, hb2, hs⟩) f c' rfl
          exact lightenParent_spec z5 hne k
    · refine does_neg hb2 ?_
      simp only [if_neg hb2]
      exact Does.pure ⟨Z.plug.1 z2, o2'⟩

theorem lightenRight_spec {i : Item} {d : Nat} {b : Int} {t x : T} (h : Z m tree n c (node i b x t)) (ht : t.Bal) (hx : x.Bal)
    (hh : b - 1 = -2 → x.height = t.height + 2)
    (ih : ∀ m' t', Z m' tree n c t' → t' ≠ nil → Off m m' (foot tree c (node i b x t)) →
      ((t' = node i (b - 1) x t ∧ b - 1 = 0) ∨ (t' = rotR (node i (b - 1) x t) ∧ b - 1 = -2 ∧ t'.bal ≠ 1)) →
      ∀ f c', c = f :: c' → ∃ d', d = d' + 1 ∧ Does (lightenAtS tree d' f) m' (fun _ m2 => Z m2 tree n [] (shrink c t') ∧ Off m m2 (foot tree c (node i b x t)))) :
    Does (lightenRightS tree (d + 1) i.elem) m (fun _ m' => Z m' tree n [] (shrink (.r i b x :: c) t) ∧ Off m m' (foot tree c (node i b x t))) := by
  rw [lightenRightS]
  refine Does.bind (balance_spec h ?_)
  refine Does.bind ((setBalance_spec h (b - 1)).mono ?_)
  rintro _ m2 ⟨z2, o2⟩
  have o2' : Off m m2 (foot tree c (node i b x t)) := o2.mono (by intro a ha; simp at ha; simp [mem_foot, ha])
  refine Does.bind (balance_spec z2 ?_)
  have hr := z2.around.root; have htr := z2.around.tree0
  have hrt := root_test z2 (by simp)
  simp only [ptr_node] at hrt hr
  simp only [shrink, root]
  by_cases hb0 : b - 1 = 0
  · refine does_pos hb0 ?_
    steps
    simp only [if_pos hb0]
    rcases hrt with ⟨rfl, e⟩ | ⟨f, c', hc, e⟩
    · exact does_neg (by simp) (Does.pure ⟨z2, o2'⟩)
    · refine does_pos e ?_
      obtain ⟨d, rfl, k⟩ := ih m2 _ z2 (by simp) o2' (Or.inl ⟨rfl, hb0⟩) f c' hc
      subst hc
      exact lightenParent_spec (t := node i (b - 1) x t) z2 (by simp) k
  · refine does_neg hb0 ?_
    simp only [if_neg hb0]
    by_cases hb2 : b - 1 = -2
    · refine does_pos hb2 ?_
      simp only [if_pos hb2]
      obtain ⟨hcan, hbal, hz, hnz⟩ := rotR_bal (i := i) (b := b - 1) hx ht (hh hb2)
      have hne : rotR (node i (b - 1) x t) ≠ nil := by
        intro e
        have := rotR_items (node i (b - 1) x t)
        rw [e] at this
        simp [items] at this
      refine Does.bind ((rotateRight_spec z2.sub z2.disj.2.2.2 hcan).mono ?_)
      rintro _ m3 ⟨rfl, r3, o3⟩
      have a3 := Around.after z2 o3
      have hr3 := a3.root
      simp only [ptr_node] at hr3
      steps
      rcases hrt with ⟨rfl, e⟩ | ⟨f, c', hc, e⟩
      · refine does_pos rfl ?_
        refine (write_hole a3 _).mono ?_
        rintro _ m4 ⟨a4, o4⟩
        obtain ⟨z5, o5⟩ := z2.replace (rotR_items _) o3 r3 a4 o4
        refine ⟨?_, o2'.trans (o5.mono ?_)⟩
        · simp only [shrink, plug, ite_self]; exact z5
        · intro a ha; exact ha
      · refine does_neg e ?_
        obtain ⟨k0, e', ke, kp, kb⟩ := r3.top hne
        have hki : (rotR (node i (b - 1) x t)).addrs = (node i (b - 1) x t).addrs := by simp only [addrs, rotR_items]
        have hkout : (rotR (node i (b - 1) x t)).ptr ∉ caddrs c := by
          rcases ptr_mem (rotR (node i (b - 1) x t)) with e | e
          · exact absurd e hne
          · rw [hki] at e; exact (z2.disj.1 _ e).2
        have hout := z2.ptr_out (by simp)
        subst hc
        refine redirect_spec a3 z2.sub.1 hout k0 hkout ke kp ?_
        intro m4 a4 o4
        obtain ⟨z5, o5⟩ := z2.replace (rotR_items _) o3 r3 a4 o4
        have o6 : Off m m4 (foot tree (f :: c') (node i b x t)) := o2'.trans (o5.mono fun a ha => ha)
        obtain ⟨-, e2, ke2, -, kb2⟩ := z5.sub.top hne
        simp only [balance]
        steps
        rw [kb2]
        by_cases hs : (rotR (node i (b - 1) x t)).bal = 1
        · simp only [hs, ne_eq, not_true_eq_false, if_false]
          exact Does.pure ⟨Z.plug.1 z5, o6⟩
        · simp only [ne_eq, hs, not_false_eq_true, if_true]
          obtain ⟨d, rfl, k⟩ := ih m4 _ z5 hne o6 (Or.inr ⟨rfl, hb2, hs⟩) f c' rfl
          exact lightenParent_spec z5 hne k
    · refine does_neg hb2 ?_
      simp only [if_neg hb2]
      exact Does.pure ⟨Z.plug.1 z2, o2'⟩

/-- On a stack: each level but the first takes a call of `lighten_parent` and one of `lighten_left` or `lighten_right`. -/
theorem lightenS_spec : ∀ (c : Ctx) (f : Fr) (t : T) (m : Mem) (d : Nat), 2 * c.length + 1 ≤ d → Z m tree n (f :: c) t → t.Bal → BalC (t.height + 1) (f :: c) →
    Does (lightenAtS tree d f) m (fun _ m' => Z m' tree n [] (shrink (f :: c) t) ∧ Off m m' (foot tree (f :: c) t)) := by
  intro c
  induction c with
  | nil =>
    intro f t m d hd h hb hc
    obtain ⟨d, rfl⟩ : ∃ d', d = d' + 1 := ⟨d - 1, by omega⟩
    have h' := Z.up.1 h
    have hfoot : ∀ a, a ∈ foot tree [] (f.fill t) → a ∈ foot tree [f] t := fun a => foot_up.2
    cases f with
    | l i b r =>
      obtain ⟨h1, h2, h3, h4, h5⟩ := hc
      refine (lightenLeft_spec h' hb h4 (by omega) ?_).mono ?_
      · rintro m' t' - - - - f c' hc; simp at hc
      · rintro _ m' ⟨z, o⟩; exact ⟨z, o.mono hfoot⟩
    | r i b l =>
      obtain ⟨h1, h2, h3, h4, h5⟩ := hc
      refine (lightenRight_spec h' hb h4 (by omega) ?_).mono ?_
      · rintro m' t' - - - - f c' hc; simp at hc
      · rintro _ m' ⟨z, o⟩; exact ⟨z, o.mono hfoot⟩
  | cons g c ih =>
    intro f t m d hd h hb hc
    obtain ⟨d, rfl⟩ : ∃ d', d = d' + 2 := ⟨d - 2, by simp only [List.length_cons] at hd; omega⟩
    simp only [List.length_cons] at hd
    have h' := Z.up.1 h
    have hfoot : ∀ a, a ∈ foot tree (g :: c) (f.fill t) → a ∈ foot tree (f :: g :: c) t := fun a => foot_up.2
    cases f with
    | l i b r =>
      obtain ⟨h1, h2, h3, h4, h5⟩ := hc
      refine (lightenLeft_spec h' hb h4 (by omega) ?_).mono ?_
      · rintro m' t' z' hn o' ht f c' hc
        simp only [List.cons.injEq] at hc
        obtain ⟨rfl, rfl⟩ := hc
        have key : t'.Bal ∧ t'.height + 1 = max (t.height + 1) r.height + 1 ∧ t'.items = (Fr.fill t (.l i b r)).items := by
          rcases ht with ⟨rfl, hb0⟩ | ⟨rfl, hb2, hs⟩
          · exact ⟨⟨by omega, by omega, by omega, hb, h4⟩, by simp only [height]; omega, rfl⟩
          · obtain ⟨-, k1, k2, k3⟩ := rotL_bal (i := i) (b := b + 1) hb h4 (by omega)
            have hr : r.bal ≠ 0 := fun e => hs (k2 e).2
            exact ⟨k1, by rw [(k3 hr).1]; omega, rotL_items _⟩
        refine ⟨d, rfl, (ih _ t' m' d (by omega) z' key.1 (by rw [key.2.1]; exact h5)).mono ?_⟩
        rintro _ m2 ⟨z2, o2⟩
        rw [foot_congr key.2.2] at o2
        exact ⟨z2, o'.trans o2⟩
      · rintro _ m' ⟨z, o⟩; exact ⟨z, o.mono hfoot⟩
    | r i b l =>
      obtain ⟨h1, h2, h3, h4, h5⟩ := hc
      refine (lightenRight_spec h' hb h4 (by omega) ?_).mono ?_
      · rintro m' t' z' hn o' ht f c' hc
        simp only [List.cons.injEq] at hc
        obtain ⟨rfl, rfl⟩ := hc
        have key : t'.Bal ∧ t'.height + 1 = max l.height (t.height + 1) + 1 ∧ t'.items = (Fr.fill t (.r i b l)).items := by
          rcases ht with ⟨rfl, hb0⟩ | ⟨rfl, hb2, hs⟩
          · exact ⟨⟨by omega, by omega, by omega, h4, hb⟩, by simp only [height]; omega, rfl⟩
          · obtain ⟨-, k1, k2, k3⟩ := rotR_bal (i := i) (b := b - 1) h4 hb (by omega)
            have hr : l.bal ≠ 0 := fun e => hs (k2 e).2
            exact ⟨k1, by rw [(k3 hr).1]; omega, rotR_items _⟩
        refine ⟨d, rfl, (ih _ t' m' d (by omega) z' key.1 (by rw [key.2.1]; exact h5)).mono ?_⟩
        rintro _ m2 ⟨z2, o2⟩
        rw [foot_congr key.2.2] at o2
        exact ⟨z2, o'.trans o2⟩
      · rintro _ m' ⟨z, o⟩; exact ⟨z, o.mono hfoot⟩

theorem lighten_spec (c : Ctx) (f : Fr) (t : T) (m : Mem) (h : Z m tree n (f :: c) t) (hb : t.Bal) (hc : BalC (t.height + 1) (f :: c)) :
    Does (lightenAt tree f) m (fun _ m' => Z m' tree n [] (shrink (f :: c) t) ∧ Off m m' (foot tree (f :: c) t)) :=
  (short_lightenAt _ _ _).does (lightenS_spec c f t m _ (le_refl _) h hb hc)

end Verif.Avl
