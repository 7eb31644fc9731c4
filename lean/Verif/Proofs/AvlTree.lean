import Verif.Model.Avl
import Verif.Spec.Avl
import Mathlib.Data.List.Nodup
import Mathlib.Data.List.Perm.Basic

/-! Trees in memory: subtrees, their surroundings, and moving between them. -/

namespace Verif.Avl

open Spec.Avl (Item)

theorem ne_of_mem {S : List Nat} {a b : Nat} (h : a ∉ S) (hb : b ∈ S) : a ≠ b := fun e => h (e ▸ hb)

/-- A tree with its element addresses and balance fields. -/
inductive T
  | nil
  | node (i : Item) (b : Int) (l r : T)

namespace T

/-- The pointer to a tree. -/
def ptr : T → Nat
  | nil => 0
  | node i _ _ _ => i.elem

/-- The items in order. -/
def items : T → List Item
  | nil => []
  | node i _ l r => l.items ++ i :: r.items

def addrs (t : T) : List Nat := t.items.map (·.elem)

def height : T → Nat
  | nil => 0
  | node _ _ l r => max l.height r.height + 1

/-- Every balance field is the difference of the heights, and at most one. -/
def Bal : T → Prop
  | nil => True
  | node _ b l r => b = (r.height : Int) - l.height ∧ -1 ≤ b ∧ b ≤ 1 ∧ l.Bal ∧ r.Bal

@[simp] theorem addrs_nil : nil.addrs = [] := rfl
@[simp] theorem addrs_node (i : Item) (b : Int) (l r : T) : (node i b l r).addrs = l.addrs ++ i.elem :: r.addrs := by simp [addrs, items]
@[simp] theorem ptr_nil : nil.ptr = 0 := rfl
@[simp] theorem ptr_node (i : Item) (b : Int) (l r : T) : (node i b l r).ptr = i.elem := rfl

end T

open T

/-- Memory holds the tree `t` with parent `p`. -/
def Rep (m : Mem) : Nat → T → Prop
  | _, nil => True
  | p, node i b l r => i.elem ≠ 0 ∧ m.get i.elem = some (.aelem ⟨i.key, i.value, p, l.ptr, r.ptr, b⟩) ∧ Rep m i.elem l ∧ Rep m i.elem r

theorem Rep.frame {m m' : Mem} {t : T} : ∀ {p : Nat}, Rep m p t → (∀ a ∈ t.addrs, m'.get a = m.get a) → Rep m' p t := by
  induction t with
  | nil => intros; trivial
  | node i b l r ihl ihr =>
    rintro p ⟨h0, h1, h2, h3⟩ hf
    refine ⟨h0, by rw [hf _ (by simp)]; exact h1, ihl h2 fun a ha => hf a (by simp [ha]), ihr h3 fun a ha => hf a (by simp [ha])⟩

theorem Rep.set {m : Mem} {t : T} {p a : Nat} {c : Cell} (h : Rep m p t) (ha : a ∉ t.addrs) : Rep (m.set a c) p t :=
  h.frame fun b hb => Mem.get_set_ne (ne_of_mem ha hb) c

theorem Rep.del {m : Mem} {t : T} {p a : Nat} (h : Rep m p t) (ha : a ∉ t.addrs) : Rep (m.del a) p t :=
  h.frame fun b hb => Mem.get_del_ne (ne_of_mem ha hb)

theorem Rep.ne {m : Mem} {t : T} : ∀ {p : Nat}, Rep m p t → ∀ a ∈ t.addrs, a ≠ 0 := by
  induction t with
  | nil => intro p _ a ha; simp at ha
  | node i b l r ihl ihr =>
    rintro p ⟨h0, h1, h2, h3⟩ a ha
    simp only [addrs_node, List.mem_append, List.mem_cons] at ha
    rcases ha with ha | rfl | ha
    · exact ihl h2 a ha
    · exact h0
    · exact ihr h3 a ha

theorem Rep.live {m : Mem} {t : T} : ∀ {p : Nat}, Rep m p t → ∀ i ∈ t.items, ∃ q l r b, m.get i.elem = some (.aelem ⟨i.key, i.value, q, l, r, b⟩) := by
  induction t with
  | nil => intro p _ a ha; simp [items] at ha
  | node i b l r ihl ihr =>
    rintro p ⟨h0, h1, h2, h3⟩ a ha
    simp only [items, List.mem_append, List.mem_cons] at ha
    rcases ha with ha | rfl | ha
    · exact ihl h2 a ha
    · exact ⟨_, _, _, _, h1⟩
    · exact ihr h3 a ha

theorem ptr_mem (t : T) : t = nil ∨ t.ptr ∈ t.addrs := by cases t <;> simp

theorem ptr_ne {t : T} {a : Nat} (h0 : a ≠ 0) (h : a ∉ t.addrs) : t.ptr ≠ a := by
  rcases ptr_mem t with rfl | h'
  · exact h0.symm
  · exact fun e => h (e ▸ h')

theorem Rep.ptr_eq_zero {m : Mem} {p : Nat} {t : T} (h : Rep m p t) : t.ptr = 0 ↔ t = nil := by
  cases t with
  | nil => simp
  | node i b l r => simp [h.1]

/-- The memories agree outside `S`. -/
def Off (m m' : Mem) (S : List Nat) : Prop := ∀ a, a ∉ S → m'.get a = m.get a

theorem Off.refl (m : Mem) (S : List Nat) : Off m m S := fun _ _ => rfl

theorem Off.trans {m m' m'' : Mem} {S : List Nat} (h : Off m m' S) (h' : Off m' m'' S) : Off m m'' S :=
  fun a ha => (h' a ha).trans (h a ha)

theorem Off.mono {m m' : Mem} {S S' : List Nat} (h : Off m m' S) (hs : ∀ a ∈ S, a ∈ S') : Off m m' S' := fun a ha => h a fun h' => ha (hs a h')

theorem Off.set {m m' : Mem} {S : List Nat} {a : Nat} {c : Cell} (h : Off m m' S) (ha : a ∈ S) : Off m (m'.set a c) S :=
  fun b hb => (Mem.get_set_ne (ne_of_mem hb ha).symm c).trans (h b hb)

/-- One level of the way up: the hole is the left or the right child of an element. -/
inductive Fr
  | l (i : Item) (b : Int) (r : T)
  | r (i : Item) (b : Int) (l : T)

namespace Fr

def item : Fr → Item
  | l i _ _ => i
  | r i _ _ => i

/-- The tree with `t` in the hole. -/
def fill (t : T) : Fr → T
  | l i b x => node i b t x
  | r i b x => node i b x t

/-- The other child. -/
def sib : Fr → T
  | l _ _ t => t
  | r _ _ t => t

/-- The element with the pointer `p` in the hole. -/
def cell (q p : Nat) : Fr → AElem
  | l i b x => ⟨i.key, i.value, q, p, x.ptr, b⟩
  | r i b x => ⟨i.key, i.value, q, x.ptr, p, b⟩

/-- The location of the hole. -/
def loc : Fr → Loc
  | l i _ _ => .left i.elem
  | r i _ _ => .right i.elem

end Fr

/-- The surroundings of a subtree, inside out. -/
abbrev Ctx := List Fr

/-- The parent of the subtree, `q` at the top. -/
def par (q : Nat) : Ctx → Nat
  | [] => q
  | f :: _ => f.item.elem

/-- The pointer to the whole when the pointer to the subtree is `p`. -/
def top (p : Nat) : Ctx → Nat
  | [] => p
  | f :: c => top f.item.elem c

def plug (t : T) : Ctx → T
  | [] => t
  | f :: c => plug (f.fill t) c

def caddrs : Ctx → List Nat
  | [] => []
  | f :: c => f.item.elem :: (f.sib.addrs ++ caddrs c)

@[simp] theorem caddrs_cons (f : Fr) (c : Ctx) : caddrs (f :: c) = f.item.elem :: (f.sib.addrs ++ caddrs c) := rfl
@[simp] theorem caddrs_nil : caddrs [] = [] := rfl
@[simp] theorem par_nil (q : Nat) : par q [] = q := rfl
@[simp] theorem par_cons (q : Nat) (f : Fr) (c : Ctx) : par q (f :: c) = f.item.elem := rfl
@[simp] theorem top_nil (p : Nat) : top p [] = p := rfl
@[simp] theorem top_cons (p : Nat) (f : Fr) (c : Ctx) : top p (f :: c) = top f.item.elem c := rfl

theorem fill_perm (f : Fr) (t : T) : (f.fill t).addrs.Perm (t.addrs ++ f.item.elem :: f.sib.addrs) := by
  cases f with
  | l i b r => simp [Fr.fill, Fr.item, Fr.sib]
  | r i b l =>
    simp only [Fr.fill, Fr.item, Fr.sib, addrs_node]
    exact (List.perm_middle.trans (List.perm_append_comm.cons _)).trans List.perm_middle.symm

theorem plug_perm : ∀ (c : Ctx) (t : T), (plug t c).addrs.Perm (t.addrs ++ caddrs c)
  | [], t => by simp [plug]
  | f :: c, t => by
    refine (plug_perm c (f.fill t)).trans ?_
    have := (fill_perm f t).append_right (caddrs c)
    simpa using this

/-- Memory holds the surroundings `c`, with parent `q` at the top and the pointer `p` in the hole. -/
def RepC (m : Mem) (q : Nat) : Ctx → Nat → Prop
  | [], _ => True
  | f :: c, p => f.item.elem ≠ 0 ∧ m.get f.item.elem = some (.aelem (f.cell (par q c) p)) ∧ Rep m f.item.elem f.sib ∧ RepC m q c f.item.elem

theorem RepC.frame {m m' : Mem} {q : Nat} : ∀ {c : Ctx} {p : Nat}, RepC m q c p → (∀ a ∈ caddrs c, m'.get a = m.get a) → RepC m' q c p
  | [], _, _, _ => trivial
  | f :: c, p, ⟨h0, h1, h2, h3⟩, hf => by
    refine ⟨h0, by rw [hf _ (by simp)]; exact h1, h2.frame fun a ha => hf a (by simp [ha]), RepC.frame h3 fun a ha => hf a (by simp [ha])⟩

theorem RepC.set {m : Mem} {q : Nat} {c : Ctx} {p a : Nat} {x : Cell} (h : RepC m q c p) (ha : a ∉ caddrs c) : RepC (m.set a x) q c p :=
  h.frame fun b hb => Mem.get_set_ne (ne_of_mem ha hb) x

theorem RepC.ne {m : Mem} {q : Nat} : ∀ {c : Ctx} {p : Nat}, RepC m q c p → ∀ a ∈ caddrs c, a ≠ 0
  | f :: c, p, ⟨h0, h1, h2, h3⟩, a, ha => by
    simp only [caddrs_cons, List.mem_cons, List.mem_append] at ha
    rcases ha with rfl | ha | ha
    · exact h0
    · exact h2.ne a ha
    · exact h3.ne a ha

/-- Surroundings and subtree make a tree. -/
theorem rep_plug {m : Mem} {q : Nat} : ∀ {c : Ctx} {t : T}, Rep m q (plug t c) ↔ RepC m q c t.ptr ∧ Rep m (par q c) t
  | [], t => by simp [plug, RepC]
  | f :: c, t => by
    simp only [plug]
    rw [rep_plug]
    cases f <;> simp only [Fr.fill, Fr.item, Fr.sib, Fr.cell, RepC, Rep, ptr_node, par_cons] <;> tauto

theorem ptr_plug : ∀ (c : Ctx) (t : T), (plug t c).ptr = top t.ptr c
  | [], t => rfl
  | f :: c, t => by
    simp only [plug, top_cons]
    rw [ptr_plug]
    cases f <;> rfl

theorem plug_append (t : T) : ∀ (d c : Ctx), plug t (d ++ c) = plug (plug t d) c
  | [], c => rfl
  | f :: d, c => by simp only [List.cons_append, plug]; rw [plug_append]

theorem top_append (p : Nat) : ∀ (d c : Ctx), top p (d ++ c) = top (top p d) c
  | [], c => rfl
  | f :: d, c => by simp only [List.cons_append, top_cons]; rw [top_append]

theorem caddrs_append : ∀ (d c : Ctx), caddrs (d ++ c) = caddrs d ++ caddrs c
  | [], c => rfl
  | f :: d, c => by simp only [List.cons_append, caddrs_cons]; rw [caddrs_append]; simp

theorem par_append (q : Nat) (d c : Ctx) : par q (d ++ c) = par (par q c) d := by
  cases d <;> rfl

theorem repC_append {m : Mem} {q : Nat} : ∀ {d c : Ctx} {p : Nat}, RepC m q (d ++ c) p ↔ RepC m (par q c) d p ∧ RepC m q c (top p d)
  | [], c, p => by simp [RepC]
  | f :: d, c, p => by
    simp only [List.cons_append, RepC, top_cons]
    rw [repC_append, par_append]
    tauto

theorem top_mem : ∀ (c : Ctx) (p : Nat), c ≠ [] → top p c ∈ caddrs c
  | [f], p, _ => by simp
  | f :: g :: c, p, _ => by
    have := top_mem (g :: c) f.item.elem (by simp)
    rw [top_cons]
    rw [caddrs_cons]
    exact List.mem_cons_of_mem _ (List.mem_append.2 (Or.inr this))

variable [Ptrs]

/-- Memory holds the tree object and the surroundings of a subtree with the pointer `p`. -/
structure Around (m : Mem) (tree n : Nat) (c : Ctx) (p : Nat) : Prop where
  tree0 : tree ≠ 0
  root : m.get tree = some (.atree ⟨top p c, n, Ptrs.cmp, Ptrs.obj⟩)
  ctx : RepC m 0 c p
  nd : (tree :: caddrs c).Nodup

/-- Memory holds a tree object with `n` as its size and the tree `plug t c`, seen from the subtree `t`. -/
structure Z (m : Mem) (tree n : Nat) (c : Ctx) (t : T) : Prop where
  around : Around m tree n c t.ptr
  sub : Rep m (par 0 c) t
  nd : (tree :: (t.addrs ++ caddrs c)).Nodup

theorem Z.up {m : Mem} {tree n : Nat} {f : Fr} {c : Ctx} {t : T} : Z m tree n (f :: c) t ↔ Z m tree n c (f.fill t) := by
  have hp : (t.addrs ++ caddrs (f :: c)).Perm ((f.fill t).addrs ++ caddrs c) := by
    have := (fill_perm f t).append_right (caddrs c)
    simpa using this.symm
  have hn : (tree :: (t.addrs ++ caddrs (f :: c))).Nodup ↔ (tree :: ((f.fill t).addrs ++ caddrs c)).Nodup := (hp.cons _).nodup_iff
  have hr := @rep_plug m (par 0 c) [f] t
  simp only [plug, RepC, par_nil, par_cons] at hr
  have ht : (f.fill t).ptr = f.item.elem := by cases f <;> rfl
  constructor
  · rintro ⟨⟨h0, h1, ⟨h2, h3, h4, h5⟩, h6⟩, h7, h8⟩
    refine ⟨⟨h0, ?_, ?_, ?_⟩, hr.2 ⟨⟨h2, h3, h4, trivial⟩, h7⟩, hn.1 h8⟩
    · rw [ht]; exact h1
    · rw [ht]; exact h5
    · refine List.Nodup.sublist ?_ h6
      exact List.Sublist.cons_cons _ (((List.sublist_append_right _ _)).cons _)
  · rintro ⟨⟨h0, h1, h2, h3⟩, h4, h5⟩
    obtain ⟨⟨h6, h7, h8, -⟩, h9⟩ := hr.1 h4
    rw [ht] at h1 h2
    refine ⟨⟨h0, h1, ⟨h6, h7, h8, h2⟩, ?_⟩, h9, hn.2 h5⟩
    refine List.Nodup.sublist ?_ (hn.2 h5)
    exact List.Sublist.cons_cons _ (List.sublist_append_right _ _)

theorem Z.plug {m : Mem} {tree n : Nat} : ∀ {c : Ctx} {t : T}, Z m tree n c t ↔ Z m tree n [] (plug t c)
  | [], t => Iff.rfl
  | f :: c, t => by rw [Z.up, Z.plug]; rfl

theorem Around.frame {m m' : Mem} {tree n : Nat} {c : Ctx} {p : Nat} (h : Around m tree n c p) {S : List Nat} (ho : Off m m' S)
    (hs : ∀ a ∈ S, a ≠ tree ∧ a ∉ caddrs c) : Around m' tree n c p := by
  refine ⟨h.tree0, ?_, h.ctx.frame fun a ha => ho a fun h' => (hs a h').2 ha, h.nd⟩
  rw [ho tree fun h' => (hs _ h').1 rfl]; exact h.root

/-- The address of the struct that the location of the hole lies in. -/
def hole (tree : Nat) : Ctx → Nat
  | [] => tree
  | f :: _ => f.item.elem

/-- The location of the hole. -/
def hloc (tree : Nat) : Ctx → Loc
  | [] => .root tree
  | f :: _ => f.loc

omit [Ptrs] in
theorem hole_mem (tree : Nat) (c : Ctx) : hole tree c ∈ tree :: caddrs c := by cases c <;> simp [hole]

theorem read_hole {m : Mem} {tree n : Nat} {c : Ctx} {p : Nat} {Q : Nat → Mem → Prop} (h : Around m tree n c p) (q : Q p m) :
    Does (hloc tree c).read m Q := by
  cases c with
  | nil =>
    have h1 := h.root; have h0 := h.tree0
    simp only [hloc, Loc.read, Avl.root]
    steps
    exact q
  | cons f c =>
    obtain ⟨h0, h1, -⟩ := h.ctx
    cases f <;> simp only [hloc, Fr.loc, Loc.read, Avl.left, Avl.right, Fr.item, Fr.cell] at h0 h1 ⊢
    · refine Does.bind (does_readAE h0 h1 ?_); exact Does.pure q
    · refine Does.bind (does_readAE h0 h1 ?_); exact Does.pure q

omit [Ptrs] in
theorem set_cell {m : Mem} {q p p' : Nat} {f : Fr} {c : Ctx} (h : RepC m q (f :: c) p) (hn : (caddrs (f :: c)).Nodup) :
    RepC (m.set f.item.elem (.aelem (f.cell (par q c) p'))) q (f :: c) p' := by
  obtain ⟨h0, h1, h2, h3⟩ := h
  simp only [caddrs_cons, List.nodup_cons, List.mem_append, not_or] at hn
  exact ⟨h0, by simp, h2.set hn.1.1, h3.set hn.1.2⟩

theorem write_hole {m : Mem} {tree n : Nat} {c : Ctx} {p : Nat} (h : Around m tree n c p) (p' : Nat) :
    Does ((hloc tree c).write p') m (fun _ m' => Around m' tree n c p' ∧ Off m m' [hole tree c]) := by
  cases c with
  | nil =>
    have h1 := h.root; have h0 := h.tree0
    simp only [hloc, Loc.write, setRoot]
    step
    exact ⟨⟨h0, by simp, trivial, h.nd⟩, (Off.refl _ _).set (by simp [hole])⟩
  | cons f c =>
    have hn := h.nd
    have hm := set_cell (p' := p') h.ctx hn.tail
    obtain ⟨h0, h1, -⟩ := h.ctx
    have hne : f.item.elem ≠ tree := by
      intro e; simp [e] at hn
    have key : Does ((hloc tree (f :: c)).write p') m (fun _ m' => m' = m.set f.item.elem (.aelem (f.cell (par 0 c) p'))) := by
      cases f <;> simp only [hloc, Fr.loc, Loc.write, setLeft, setRight, Fr.item, Fr.cell] at h0 h1 ⊢
      · exact does_modAE h0 h1 rfl
      · exact does_modAE h0 h1 rfl
    refine key.mono ?_
    rintro _ m' rfl
    refine ⟨⟨h.tree0, ?_, hm, h.nd⟩, (Off.refl _ _).set (by simp [hole])⟩
    rw [Mem.get_set_ne hne]; exact h.root

/-- The size field can be changed. -/
theorem Around.resize {m : Mem} {tree n : Nat} {c : Ctx} {p : Nat} (h : Around m tree n c p) (n' : Nat) :
    Around (m.set tree (.atree ⟨top p c, n', Ptrs.cmp, Ptrs.obj⟩)) tree n' c p :=
  ⟨h.tree0, by simp, h.ctx.set (List.nodup_cons.1 h.nd).1, h.nd⟩

end Verif.Avl
