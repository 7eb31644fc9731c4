import Verif.Proofs.AvlOps
import Mathlib.Data.Multiset.MapFold

/-! Programs on any number of trees against the specification. -/

namespace Verif.Avl

variable [Ptrs]

open Spec.Avl (Item State Op Res Prog Step Looks Copied Runs Legal Fresh ok Has In Order)
open T

variable {cmp : Nat → Nat → Int} {m0 m m' : Mem} {t : T}

/-- One call of the specification, in the model. Trees are made with the comparator `f` and the context `o`; all other calls use what the tree has
stored. -/
def call (A : Alloc) (F : Funs) (f o : Nat) : Op → M Res
  | .make => do pure (.ptr (← make A f o))
  | .destroy t => do destroy t; pure .unit
  | .copy t => do pure (.ptr (← copy A t))
  | .put t k v => do pure (.ptr (← treePut A (← stored F t) t k v))
  | .get t k => do pure (.ptr (← get (← stored F t) t k))
  | .getBefore t k => do pure (.ptr (← getBefore (← stored F t) t k))
  | .getOnOrBefore t k => do pure (.ptr (← getOnOrBefore (← stored F t) t k))
  | .getAfter t k => do pure (.ptr (← getAfter (← stored F t) t k))
  | .getOnOrAfter t k => do pure (.ptr (← getOnOrAfter (← stored F t) t k))
  | .getFirst t => do pure (.ptr (← getFirst t))
  | .getLast t => do pure (.ptr (← getLast t))
  | .next e => do pure (.ptr (← next e))
  | .previous e => do pure (.ptr (← previous e))
  | .forwards t => do pure (.ptrs (← forwards t))
  | .backwards t => do pure (.ptrs (← backwards t))
  | .pop t k => do pure (.ptr (← pop (← stored F t) t k))
  | .popFirst t => do pure (.ptr (← popFirst t))
  | .popLast t => do pure (.ptr (← popLast t))
  | .detach t e => do detach t e; pure .unit
  | .remove t e => do remove t e; pure .unit
  | .discard e => do destroyElement e; pure .unit
  | .size t => do pure (.num (← size t))
  | .empty t => do pure (.bool (← empty t))
  | .key e => do pure (.ptr (← getKey e))
  | .value e => do pure (.ptr (← getValue e))

/-- A program in the model, with the results of its calls. -/
def exec (A : Alloc) (F : Funs) (f o : Nat) : Prog → M (List Res)
  | .done => pure []
  | .call op next => do
    let r ← call A F f o op
    let rs ← exec A F f o (next r)
    pure (r :: rs)

/-- One call, given the comparator. -/
def callWith (A : Alloc) (cmp : Nat → Nat → Int) : Op → M Res
  | .make => do pure (.ptr (← make A Ptrs.cmp Ptrs.obj))
  | .destroy t => do destroy t; pure .unit
  | .copy t => do pure (.ptr (← copy A t))
  | .put t k v => do pure (.ptr (← treePut A cmp t k v))
  | .get t k => do pure (.ptr (← get cmp t k))
  | .getBefore t k => do pure (.ptr (← getBefore cmp t k))
  | .getOnOrBefore t k => do pure (.ptr (← getOnOrBefore cmp t k))
  | .getAfter t k => do pure (.ptr (← getAfter cmp t k))
  | .getOnOrAfter t k => do pure (.ptr (← getOnOrAfter cmp t k))
  | .getFirst t => do pure (.ptr (← getFirst t))
  | .getLast t => do pure (.ptr (← getLast t))
  | .next e => do pure (.ptr (← next e))
  | .previous e => do pure (.ptr (← previous e))
  | .forwards t => do pure (.ptrs (← forwards t))
  | .backwards t => do pure (.ptrs (← backwards t))
  | .pop t k => do pure (.ptr (← pop cmp t k))
  | .popFirst t => do pure (.ptr (← popFirst t))
  | .popLast t => do pure (.ptr (← popLast t))
  | .detach t e => do detach t e; pure .unit
  | .remove t e => do remove t e; pure .unit
  | .discard e => do destroyElement e; pure .unit
  | .size t => do pure (.num (← size t))
  | .empty t => do pure (.bool (← empty t))
  | .key e => do pure (.ptr (← getKey e))
  | .value e => do pure (.ptr (← getValue e))

omit [Ptrs] in
/-- Where insertion puts the new item, and that the order is kept. -/
theorem ins_place (cmp : Nat → Nat → Int) (x : Item) (t : T) (hn : (ins cmp x t).2.2 = none) :
    ∃ xs ys, t.items = xs ++ ys ∧ (ins cmp x t).1.items = xs ++ x :: ys ∧
      (Order cmp → Asc cmp t.items → (∀ i ∈ xs, cmp i.key x.key < 0) ∧ ∀ i ∈ ys, 0 < cmp i.key x.key) := by
  induction t with
  | nil => exact ⟨[], [], by simp [items], by simp [ins, items], by simp⟩
  | node i b l r ihl ihr =>
    simp only [ins] at hn ⊢
    by_cases h1 : cmp x.key i.key < 0
    · rw [if_pos h1] at hn ⊢
      have hnl : (ins cmp x l).2.2 = none := by
        revert hn; split
        · split <;> exact id
        · exact id
      obtain ⟨xs, ys, e1, e2, e3⟩ := ihl hnl
      have key : ∀ t' : T, t'.items = (ins cmp x l).1.items ++ i :: r.items → ∃ xs ys, (node i b l r).items = xs ++ ys ∧ t'.items = xs ++ x :: ys ∧
          (Order cmp → Asc cmp (node i b l r).items → (∀ i ∈ xs, cmp i.key x.key < 0) ∧ ∀ i ∈ ys, 0 < cmp i.key x.key) := by
        intro t' ht'
        refine ⟨xs, ys ++ i :: r.items, by simp [items, e1], by rw [ht', e2]; simp, fun o ha => ?_⟩
        obtain ⟨a1, -, -, a4⟩ := Asc.parts (i := i) ha
        refine ⟨(e3 o a1).1, fun j hj => ?_⟩
        simp only [List.mem_append, List.mem_cons] at hj
        rcases hj with hj | rfl | hj
        · exact (e3 o a1).2 j hj
        · exact (o.anti _ _).1 h1
        · exact (o.anti _ _).1 (Order.lt_le o h1 (Int.le_of_lt (a4 j hj)))
      split
      · split
        · exact key _ (rotR_items _)
        · exact key _ rfl
      · exact key _ rfl
    · rw [if_neg h1] at hn ⊢
      by_cases h2 : cmp x.key i.key > 0
      · rw [if_pos h2] at hn ⊢
        have hnr : (ins cmp x r).2.2 = none := by
          revert hn; split
          · split <;> exact id
          · exact id
        obtain ⟨xs, ys, e1, e2, e3⟩ := ihr hnr
        have key : ∀ t' : T, t'.items = l.items ++ i :: (ins cmp x r).1.items → ∃ xs ys, (node i b l r).items = xs ++ ys ∧ t'.items = xs ++ x :: ys ∧
            (Order cmp → Asc cmp (node i b l r).items → (∀ i ∈ xs, cmp i.key x.key < 0) ∧ ∀ i ∈ ys, 0 < cmp i.key x.key) := by
          intro t' ht'
          refine ⟨l.items ++ i :: xs, ys, by simp [items, e1], by rw [ht', e2]; simp, fun o ha => ?_⟩
          obtain ⟨-, a2, a3, -⟩ := Asc.parts (i := i) ha
          refine ⟨fun j hj => ?_, (e3 o a2).2⟩
          have hix : cmp i.key x.key < 0 := (o.anti _ _).2 h2
          simp only [List.mem_append, List.mem_cons] at hj
          rcases hj with hj | rfl | hj
          · exact Order.lt_le o (a3 j hj) (Int.le_of_lt hix)
          · exact hix
          · exact (e3 o a2).1 j hj
        split
        · split
          · exact key _ (rotL_items _)
          · exact key _ rfl
        · exact key _ rfl
      · rw [if_neg h2] at hn
        simp at hn

omit [Ptrs] in
theorem Asc.insert {x : Item} {xs ys : List Item} (o : Order cmp) (h : Asc cmp (xs ++ ys)) (h1 : ∀ i ∈ xs, cmp i.key x.key < 0)
    (h2 : ∀ i ∈ ys, 0 < cmp i.key x.key) : Asc cmp (xs ++ x :: ys) := by
  rw [Asc, List.pairwise_append] at h
  rw [Asc, List.pairwise_append, List.pairwise_cons]
  refine ⟨h.1, ⟨fun j hj => (o.anti _ _).2 (h2 j hj), h.2.1⟩, fun i hi j hj => ?_⟩
  rcases List.mem_cons.1 hj with rfl | hj
  · exact h1 i hi
  · exact h.2.2 i hi j hj

omit [Ptrs] in
theorem Asc.replace {i x : Item} {xs ys : List Item} (o : Order cmp) (h : Asc cmp (xs ++ i :: ys)) (he : cmp x.key i.key = 0) :
    Asc cmp (xs ++ x :: ys) := by
  obtain ⟨-, -, h3, h4⟩ := h.parts
  have hd : Asc cmp (xs ++ ys) := List.Pairwise.sublist (List.Sublist.append_left (List.sublist_cons_self _ _) _) h
  have hxi := o.anti x.key i.key; have hix := o.anti i.key x.key
  refine hd.insert o (fun j hj => Order.lt_le o (h3 j hj) (by omega)) fun j hj => (o.anti _ _).1 (Order.le_lt o (by omega) (h4 j hj))

omit [Ptrs] in
theorem Asc.drop {i : Item} {xs ys : List Item} (h : Asc cmp (xs ++ i :: ys)) : Asc cmp (xs ++ ys) :=
  List.Pairwise.sublist (List.Sublist.append_left (List.sublist_cons_self _ _) _) h

/-- A tree object in memory: balanced, sorted, with the right size. -/
structure Good (cmp : Nat → Nat → Int) (m : Mem) (tree : Nat) (t : T) : Prop where
  z : Z m tree (t.items.length % 2 ^ 64) [] t
  bal : t.Bal
  asc : Order cmp → Asc cmp t.items

/-- An element that has left its tree. -/
def Loose (m : Mem) (i : Item) : Prop := i.elem ≠ 0 ∧ ∃ q l r b, m.get i.elem = some (.aelem ⟨i.key, i.value, q, l, r, b⟩)

/-- All addresses. -/
def owned (ws : List (Nat × T)) (det : List Item) : List Nat := ws.flatMap (fun w => foot w.1 [] w.2) ++ det.map (·.elem)

omit [Ptrs] in
theorem mem_owned {ws : List (Nat × T)} {det : List Item} {a : Nat} :
    a ∈ owned ws det ↔ (∃ w ∈ ws, a ∈ foot w.1 [] w.2) ∨ ∃ i ∈ det, i.elem = a := by simp [owned]

omit [Ptrs] in
theorem owned_append {ws ws' : List (Nat × T)} {det det' : List Item} :
    (owned (ws ++ ws') (det ++ det')).Perm (owned ws det ++ owned ws' det') := by
  simp only [owned, List.flatMap_append, List.map_append, List.append_assoc]
  refine List.Perm.append_left _ ?_
  rw [← List.append_assoc, ← List.append_assoc]
  exact List.perm_append_comm.append_right _

/-- Memory holds these trees and loose elements; the rest is as in `m0`. -/
structure WMem (cmp : Nat → Nat → Int) (m0 : Mem) (ws : List (Nat × T)) (det : List Item) (m : Mem) : Prop where
  good : ∀ w ∈ ws, Good cmp m w.1 w.2
  loose : ∀ i ∈ det, Loose m i
  nd : (owned ws det).Nodup
  fresh : ∀ a ∈ owned ws det, m0.get a = none
  frame : ∀ a, a ∉ owned ws det → m.get a = m0.get a

theorem Good.live {tree a : Nat} (h : Good cmp m tree t) (ha : a ∈ foot tree [] t) : m.get a ≠ none := fun hn => h.z.fresh_not hn ha

theorem Good.frame {tree : Nat} (h : Good cmp m tree t) (hf : ∀ a ∈ foot tree [] t, m'.get a = m.get a) : Good cmp m' tree t := by
  refine ⟨⟨⟨h.z.around.tree0, ?_, trivial, by simp⟩, h.z.sub.frame fun a ha => hf a (by simp [foot, ha]), h.z.nd⟩, h.bal, h.asc⟩
  rw [hf tree (by simp [foot])]; exact h.z.around.root

theorem WMem.live {ws : List (Nat × T)} {det : List Item} {a : Nat} (h : WMem cmp m0 ws det m) (ha : a ∈ owned ws det) : m.get a ≠ none := by
  rcases mem_owned.1 ha with ⟨w, hw, ha⟩ | ⟨i, hi, rfl⟩
  · exact (h.good w hw).live ha
  · obtain ⟨-, q, l, r, b, e⟩ := h.loose i hi
    rw [e]; simp

theorem WMem.perm {ws ws' : List (Nat × T)} {det det' : List Item} (h : WMem cmp m0 ws det m) (hw : ws.Perm ws') (hd : det.Perm det') :
    WMem cmp m0 ws' det' m := by
  have hp : (owned ws det).Perm (owned ws' det') := (hw.flatMap_right _).append (hd.map _)
  refine ⟨fun w h' => h.good w (hw.mem_iff.2 h'), fun i h' => h.loose i (hd.mem_iff.2 h'), hp.nodup_iff.1 h.nd,
    fun a ha => h.fresh a (hp.mem_iff.2 ha), fun a ha => h.frame a fun h' => ha (hp.mem_iff.1 h')⟩

/-- Some trees and loose elements are replaced by other ones. -/
theorem WMem.update {olds ws news : List (Nat × T)} {dold det dnew : List Item} (h : WMem cmp m0 (olds ++ ws) (dold ++ det) m)
    (hg : ∀ w ∈ news, Good cmp m' w.1 w.2) (hl : ∀ i ∈ dnew, Loose m' i) (hn : (owned news dnew).Nodup)
    (src : ∀ a ∈ owned news dnew, a ∈ owned olds dold ∨ m.get a = none)
    (off : ∀ a, a ∉ owned olds dold → a ∉ owned news dnew → m'.get a = m.get a)
    (gone : ∀ a ∈ owned olds dold, a ∉ owned news dnew → m'.get a = none) :
    WMem cmp m0 (news ++ ws) (dnew ++ det) m' := by
  have hnd := owned_append.nodup_iff.1 h.nd
  rw [List.nodup_append] at hnd
  obtain ⟨-, n2, n3⟩ := hnd
  have hin : ∀ a, a ∈ owned (olds ++ ws) (dold ++ det) ↔ a ∈ owned olds dold ∨ a ∈ owned ws det := by
    intro a; rw [owned_append.mem_iff, List.mem_append]
  have hin' : ∀ a, a ∈ owned (news ++ ws) (dnew ++ det) ↔ a ∈ owned news dnew ∨ a ∈ owned ws det := by
    intro a; rw [owned_append.mem_iff, List.mem_append]
  have hdis : ∀ a ∈ owned ws det, a ∉ owned olds dold ∧ a ∉ owned news dnew := by
    intro a ha
    have h1 : a ∉ owned olds dold := fun h' => n3 a h' a ha rfl
    refine ⟨h1, fun h' => ?_⟩
    rcases src a h' with h' | h'
    · exact h1 h'
    · exact h.live ((hin a).2 (Or.inr ha)) h'
  have hkeep : ∀ a ∈ owned ws det, m'.get a = m.get a := fun a ha => off a (hdis a ha).1 (hdis a ha).2
  refine ⟨?_, ?_, ?_, ?_, ?_⟩
  · intro w hw
    rcases List.mem_append.1 hw with hw | hw
    · exact hg w hw
    · exact (h.good w (List.mem_append.2 (Or.inr hw))).frame fun a ha => hkeep a (mem_owned.2 (Or.inl ⟨w, hw, ha⟩))
  · intro i hi
    rcases List.mem_append.1 hi with hi | hi
    · exact hl i hi
    · obtain ⟨h0, q, l, r, b, e⟩ := h.loose i (List.mem_append.2 (Or.inr hi))
      exact ⟨h0, q, l, r, b, by rw [hkeep _ (mem_owned.2 (Or.inr ⟨i, hi, rfl⟩))]; exact e⟩
  · rw [owned_append.nodup_iff, List.nodup_append]
    exact ⟨hn, n2, fun a ha b hb e => (hdis b hb).2 (e ▸ ha)⟩
  · intro a ha
    rcases (hin' a).1 ha with ha | ha
    · rcases src a ha with ha | ha
      · exact h.fresh a ((hin a).2 (Or.inl ha))
      · rw [← h.frame a fun h' => h.live h' ha]; exact ha
    · exact h.fresh a ((hin a).2 (Or.inr ha))
  · intro a ha
    rw [hin', not_or] at ha
    by_cases ho : a ∈ owned olds dold
    · rw [gone a ho ha.1, h.fresh a ((hin a).2 (Or.inl ho))]
    · rw [off a ho ha.1]
      exact h.frame a fun h' => ((hin a).1 h').elim ho ha.2

/-- A tree as the specification sees it. -/
def view (w : Nat × T) : Nat × List Item := (w.1, w.2.items)

/-- The state of the specification that memory stands for. -/
structure WInv (cmp : Nat → Nat → Int) (m0 : Mem) (s : State) (m : Mem) : Prop where
  mem : ∃ ws det, WMem cmp m0 ws det m ∧ s = ⟨↑(ws.map view), ↑det⟩

/-- The state with the tree at `tree` in front. -/
structure Front (cmp : Nat → Nat → Int) (m0 : Mem) (s : State) (m : Mem) (tree : Nat) (t : T) (ws : List (Nat × T)) (det : List Item) : Prop where
  mem : WMem cmp m0 ((tree, t) :: ws) det m
  state : s = ⟨(tree, t.items) ::ₘ ↑(ws.map view), ↑det⟩

theorem WInv.pick {s : State} {tree : Nat} (h : WInv cmp m0 s m) (hh : Has s tree) : ∃ t ws det, Front cmp m0 s m tree t ws det := by
  obtain ⟨ws, det, h, rfl⟩ := h
  obtain ⟨x, hx, rfl⟩ := hh
  simp only [Multiset.mem_coe, List.mem_map] at hx
  obtain ⟨w, hw, rfl⟩ := hx
  obtain ⟨xs, ys, rfl⟩ := List.append_of_mem hw
  have hp : (xs ++ w :: ys).Perm (w :: (xs ++ ys)) := List.perm_middle
  refine ⟨w.2, xs ++ ys, det, h.perm hp (List.Perm.refl _), ?_⟩
  rw [State.mk.injEq]
  exact ⟨Multiset.coe_eq_coe.2 (hp.map view), rfl⟩

theorem Front.inv {s : State} {tree : Nat} {ws : List (Nat × T)} {det : List Item} (h : Front cmp m0 s m tree t ws det) : WInv cmp m0 s m :=
  ⟨_, _, h.mem, h.state⟩

theorem WInv.pickElem {s : State} {tree e : Nat} (h : WInv cmp m0 s m) (hh : In s tree e) :
    ∃ t ws det xs i ys, Front cmp m0 s m tree t ws det ∧ t.items = xs ++ i :: ys ∧ i.elem = e := by
  obtain ⟨ws, det, h, rfl⟩ := h
  obtain ⟨x, hx, rfl, i, hi, rfl⟩ := hh
  simp only [Multiset.mem_coe, List.mem_map] at hx
  obtain ⟨w, hw, rfl⟩ := hx
  obtain ⟨xs, ys, rfl⟩ := List.append_of_mem hw
  obtain ⟨as, bs, e⟩ := List.append_of_mem hi
  have hp : (xs ++ w :: ys).Perm (w :: (xs ++ ys)) := List.perm_middle
  refine ⟨w.2, xs ++ ys, det, as, i, bs, ⟨h.perm hp (List.Perm.refl _), ?_⟩, e, rfl⟩
  rw [State.mk.injEq]
  exact ⟨Multiset.coe_eq_coe.2 (hp.map view), rfl⟩

theorem WInv.pickLoose {s : State} {e : Nat} (h : WInv cmp m0 s m) (hh : ∃ i ∈ s.loose, i.elem = e) :
    ∃ ws i det, WMem cmp m0 ws (i :: det) m ∧ s = ⟨↑(ws.map view), i ::ₘ ↑det⟩ ∧ i.elem = e := by
  obtain ⟨ws, det, h, rfl⟩ := h
  obtain ⟨i, hi, rfl⟩ := hh
  simp only [Multiset.mem_coe] at hi
  obtain ⟨xs, ys, rfl⟩ := List.append_of_mem hi
  have hp : (xs ++ i :: ys).Perm (i :: (xs ++ ys)) := List.perm_middle
  refine ⟨ws, i, xs ++ ys, h.perm (List.Perm.refl _) hp, ?_, rfl⟩
  rw [State.mk.injEq]
  exact ⟨rfl, Multiset.coe_eq_coe.2 hp⟩

theorem Front.good {s : State} {tree : Nat} {ws : List (Nat × T)} {det : List Item} (h : Front cmp m0 s m tree t ws det) : Good cmp m tree t :=
  h.mem.good (tree, t) (by simp)

theorem Front.fresh {s : State} {tree a : Nat} {ws : List (Nat × T)} {det : List Item} (h : Front cmp m0 s m tree t ws det) (h0 : a ≠ 0)
    (ha : m.get a = none) : Fresh s a := by
  rw [h.state]
  refine ⟨h0, ?_, ?_⟩
  · intro x hx
    have : ∃ w ∈ (tree, t) :: ws, view w = x := by
      have hx : x ∈ (tree, t.items) ::ₘ (↑(ws.map view) : Multiset (Nat × List Item)) := hx
      rcases Multiset.mem_cons.1 hx with rfl | hx
      · exact ⟨(tree, t), by simp, rfl⟩
      · simp only [Multiset.mem_coe, List.mem_map] at hx
        obtain ⟨w, hw, rfl⟩ := hx
        exact ⟨w, by simp [hw], rfl⟩
    obtain ⟨w, hw, rfl⟩ := this
    have hf := (h.mem.good w hw).z.fresh_not ha
    simp only [mem_foot, not_or] at hf
    exact ⟨Ne.symm hf.1, fun i hi e => hf.2.1 (List.mem_map.2 ⟨i, hi, e⟩)⟩
  · intro i hi e
    simp only [Multiset.mem_coe] at hi
    obtain ⟨-, q, l, r, b, e'⟩ := h.mem.loose i hi
    rw [e, ha] at e'; simp at e'

/-- A call that only looks at the tree in front. -/
theorem looks_sim {α : Type} {s : State} {tree : Nat} {ws : List (Nat × T)} {det : List Item} {x : M α} {P : α → Prop} {f : α → Res} {op : Op}
    (h : Front cmp m0 s m tree t ws det) (hx : Does x m (fun a m' => m' = m ∧ P a)) (hl : ∀ a, P a → Looks cmp tree t.items op (f a)) :
    Does (do let a ← x; pure (f a)) m (fun r m' => ∃ s', Step cmp s op r s' ∧ WInv cmp m0 s' m') := by
  refine Does.bind (hx.mono ?_)
  rintro a _ ⟨rfl, hp⟩
  refine Does.pure ⟨s, ?_, h.inv⟩
  rw [h.state]
  exact .looks (hl a hp)

omit [Ptrs] in
theorem owned_one (tree : Nat) (t : T) (ds : List Item) : owned [(tree, t)] ds = tree :: (t.items ++ ds).map (·.elem) := by
  simp [owned, foot, addrs]

omit [Ptrs] in
theorem owned_none (ds : List Item) : owned [] ds = ds.map (·.elem) := by simp [owned]

omit [Ptrs] in
theorem dec_len (xs ys : Nat) : ((xs + (ys + 1)) % 2 ^ 64 + (2 ^ 64 - 1)) % 2 ^ 64 = (xs + ys) % 2 ^ 64 := by omega

/-- Detaching an element from the tree in front. -/
theorem Front.detach {s : State} {tree : Nat} {ws : List (Nat × T)} {det xs ys : List Item} {i : Item} (h : Front cmp m0 s m tree t ws det)
    (hi : t.items = xs ++ i :: ys) :
    Does (detach tree i.elem) m (fun _ m' => ∃ t', t'.items = xs ++ ys ∧ WMem cmp m0 ((tree, t') :: ws) (i :: det) m') := by
  obtain ⟨c, b, l, r, rfl⟩ := find_place t (i := i) (by rw [hi]; simp)
  have hg := h.good
  refine (detach_spec (Z.plug.2 hg.z) hg.bal).mono ?_
  rintro _ m' ⟨⟨t', z', b', A, B, e1, e2⟩, ec, o⟩
  have hnd : (xs ++ i :: ys).Nodup := hi ▸ (Z.plug.2 hg.z).items_nodup
  have hx : i ∉ xs ++ ys := (List.nodup_cons.1 ((List.perm_middle.nodup_iff).1 hnd)).1
  obtain ⟨rfl, rfl⟩ := middle_unique (hi.symm.trans e1) hx
  have hp : (tree :: (t'.items ++ [i]).map (·.elem)).Perm (tree :: (Avl.plug (node i b l r) c).items.map (·.elem)) := by
    refine List.Perm.cons _ (List.Perm.map _ ?_)
    rw [e2, hi, List.append_assoc]
    exact List.Perm.append_left _ List.perm_append_comm
  have ho : ∀ a, a ∈ owned [(tree, t')] [i] ↔ a ∈ owned [(tree, Avl.plug (node i b l r) c)] [] := by
    intro a
    rw [owned_one, owned_one, List.append_nil]; exact hp.mem_iff
  refine ⟨t', e2, WMem.update (olds := [(tree, Avl.plug (node i b l r) c)]) (news := [(tree, t')]) (dold := []) (dnew := [i]) h.mem ?_ ?_ ?_
    (fun a ha => Or.inl ((ho a).1 ha)) ?_ (fun a ha hn => absurd ((ho a).2 ha) hn)⟩
  · simp only [List.mem_singleton, forall_eq]
    refine ⟨?_, b', fun o => ?_⟩
    · have e : (Avl.plug (node i b l r) c).items.length = xs.length + (ys.length + 1) := by rw [hi]; simp
      rw [e, dec_len] at z'
      rw [e2, List.length_append]
      exact z'
    · rw [e2]; have := hg.asc o; rw [hi] at this; exact this.drop
  · simp only [List.mem_singleton, forall_eq]
    exact ⟨hg.z.elem_ne (by rw [hi]; simp), ec⟩
  · rw [owned_one, hp.nodup_iff]
    have := hg.z.nd
    simpa [addrs] using this
  · intro a ha _
    refine o a ?_
    simpa [owned, foot] using ha

theorem Front.discard {ws : List (Nat × T)} {det : List Item} {i : Item} (h : WMem cmp m0 ws (i :: det) m) :
    Does (destroyElement i.elem) m (fun _ m' => WMem cmp m0 ws det m') := by
  obtain ⟨h0, q, l, r, b, e⟩ := h.loose i (by simp)
  simp only [destroyElement]
  refine does_free h0 e ?_
  refine WMem.update (olds := []) (news := []) (dold := [i]) (dnew := []) h (by simp) (by simp) (by simp [owned]) (by simp [owned]) ?_ ?_
  · intro a ha _
    simp only [owned_none, List.map_cons, List.map_nil, List.mem_singleton] at ha
    exact Mem.get_del_ne (Ne.symm ha)
  · intro a ha _
    simp only [owned_none, List.map_cons, List.map_nil, List.mem_singleton] at ha
    subst ha
    simp [Mem.get_del]

omit [Ptrs] in
theorem _root_.Verif.Does.result {α : Type} {x : M α} {m : Mem} {Q : Res → Mem → Prop} {f : α → Res} (h : Does x m (fun a m' => Q (f a) m')) :
    Does (do let a ← x; pure (f a)) m Q := Does.bind (h.mono fun _ _ q => Does.pure q)

omit [Ptrs] in
theorem _root_.Verif.Does.unit {x : M Unit} {m : Mem} {Q : Res → Mem → Prop} (h : Does x m (fun _ m' => Q .unit m')) :
    Does (do x; pure Res.unit) m Q := Does.bind (h.mono fun _ _ q => Does.pure q)

theorem WInv.fresh {s : State} {a : Nat} (h : WInv cmp m0 s m) (h0 : a ≠ 0) (ha : m.get a = none) : Fresh s a := by
  obtain ⟨ws, det, h, rfl⟩ := h
  refine ⟨h0, ?_, ?_⟩
  · intro x hx
    simp only [Multiset.mem_coe, List.mem_map] at hx
    obtain ⟨w, hw, rfl⟩ := hx
    have hf := (h.good w hw).z.fresh_not ha
    simp only [mem_foot, not_or] at hf
    exact ⟨Ne.symm hf.1, fun i hi e => hf.2.1 (List.mem_map.2 ⟨i, hi, e⟩)⟩
  · intro i hi e
    simp only [Multiset.mem_coe] at hi
    obtain ⟨-, q, l, r, b, e'⟩ := h.loose i hi
    rw [e, ha] at e'; simp at e'

theorem make_sim {A : Alloc} (hA : A.Good) {s : State} (h : WInv cmp m0 s m) :
    Does (make A Ptrs.cmp Ptrs.obj) m (fun a m' => ∃ s', Step cmp s .make (.ptr a) s' ∧ WInv cmp m0 s' m') := by
  refine (make_spec hA m).mono ?_
  rintro a m' ⟨z, hf, o⟩
  have hfr := h.fresh z.around.tree0 hf
  obtain ⟨ws, det, h, rfl⟩ := h
  refine ⟨_, .make hfr, (a, nil) :: ws, det, ?_, rfl⟩
  refine WMem.update (olds := []) (news := [(a, nil)]) (dold := []) (dnew := []) h ?_ (by simp) (by simp [owned_one, items]) ?_ ?_
    (by simp [owned])
  · simp only [List.mem_singleton, forall_eq]
    exact ⟨z, trivial, fun _ => List.Pairwise.nil⟩
  · intro x hx
    simp only [owned_one, items, List.append_nil, List.map_nil, List.mem_singleton] at hx
    subst hx; exact Or.inr hf
  · intro x _ hx
    simp only [owned_one, items, List.append_nil, List.map_nil] at hx
    exact o x hx

theorem destroy_sim {s : State} {tree : Nat} (h : WInv cmp m0 s m) (hh : Has s tree) :
    Does (destroy tree) m (fun _ m' => ∃ s', Step cmp s (.destroy tree) .unit s' ∧ WInv cmp m0 s' m') := by
  obtain ⟨t, ws, det, h⟩ := h.pick hh
  refine (destroy_spec h.good.z).mono ?_
  rintro _ m' ⟨g, o⟩
  rw [h.state]
  refine ⟨_, .destroy, ws, det, ?_, rfl⟩
  refine WMem.update (olds := [(tree, t)]) (news := []) (dold := []) (dnew := []) h.mem (by simp) (by simp) (by simp [owned]) (by simp [owned]) ?_ ?_
  · intro a ha _; exact o a (by simpa [owned] using ha)
  · intro a ha _; exact g a (by simpa [owned] using ha)

omit [Ptrs] in
theorem asc_congr {xs ys : List Item} (h : ys.map (fun i => (i.key, i.value)) = xs.map (fun i => (i.key, i.value))) (ha : Asc cmp xs) : Asc cmp ys := by
  have e : ys.map (·.key) = xs.map (·.key) := by
    have := congrArg (List.map Prod.fst) h
    simpa [List.map_map, Function.comp_def] using this
  have h1 : ((xs.map (·.key)).Pairwise fun a b => cmp a b < 0) := List.pairwise_map.2 ha
  rw [← e] at h1
  exact List.pairwise_map.1 h1

theorem copy_front {A : Alloc} (hA : A.Good) {s : State} {tree : Nat} {ws : List (Nat × T)} {det : List Item} (h : Front cmp m0 s m tree t ws det) :
    Does (copy A tree) m (fun a m' => ∃ items', Copied s a t.items items' ∧ WInv cmp m0 ⟨(a, items') ::ₘ s.trees, s.loose⟩ m' ∧
      (∀ x ∈ a :: items'.map (·.elem), m.get x = none) ∧ ∀ x, m.get x ≠ none → m'.get x = m.get x) := by
  have hg := h.good
  refine (copy_spec hA hg.z).mono ?_
  rintro a m' ⟨t', n', z', hn, hlk, hf, o⟩
  obtain rfl := hn rfl
  have hfr : ∀ x ∈ foot a [] t', x ≠ 0 := by
    intro x hx
    simp only [mem_foot, caddrs_nil, List.not_mem_nil, or_false] at hx
    rcases hx with rfl | hx
    · exact z'.around.tree0
    · exact z'.sub.ne x hx
  have ef : a :: t'.items.map (·.elem) = foot a [] t' := by simp [foot, addrs]
  have hst := h.state
  refine ⟨t'.items, ⟨hlk.items, fun x hx => h.inv.fresh (hfr x (ef ▸ hx)) (hf x (ef ▸ hx)), by rw [ef]; exact z'.nd⟩,
    ⟨(a, t') :: (tree, t) :: ws, det, ?_, by rw [hst]; rfl⟩, fun x hx => hf x (ef ▸ hx), fun x hx => o x fun hm => hx (hf x hm)⟩
  refine WMem.update (olds := []) (news := [(a, t')]) (dold := []) (dnew := []) h.mem ?_ (by simp) ?_ ?_ ?_ (by simp [owned])
  · simp only [List.mem_singleton, forall_eq]
    exact ⟨z', hlk.bal hg.bal, fun o => asc_congr hlk.items (hg.asc o)⟩
  · simpa [owned, foot] using z'.nd
  · intro x hx; exact Or.inr (hf x (by simpa [owned] using hx))
  · intro x _ hx; exact o x (by simpa [owned] using hx)

theorem copy_sim {A : Alloc} (hA : A.Good) {s : State} {tree : Nat} (h : WInv cmp m0 s m) (hh : Has s tree) :
    Does (copy A tree) m (fun a m' => ∃ s', Step cmp s (.copy tree) (.ptr a) s' ∧ WInv cmp m0 s' m') := by
  obtain ⟨t, ws, det, h⟩ := h.pick hh
  refine (copy_front hA h).mono ?_
  rintro a m' ⟨items', hc, hi, -⟩
  have hst := h.state
  rw [hst] at hc hi ⊢
  exact ⟨_, .copy hc, hi⟩

theorem put_sim {A : Alloc} (hA : A.Good) {s : State} {tree k v : Nat} (h : WInv cmp m0 s m) (hh : Has s tree) :
    Does (treePut A cmp tree k v) m (fun a m' => ∃ s', Step cmp s (.put tree k v) (.ptr a) s' ∧ WInv cmp m0 s' m') := by
  obtain ⟨t, ws, det, h⟩ := h.pick hh
  have hg := h.good
  refine (treePut_spec hA hg.z hg.bal k v).mono ?_
  rintro r m' ⟨⟨xe, xk, xv⟩, ⟨hk, hv⟩, ⟨x0, xf⟩, hrem, ⟨n', z', hn⟩, o, hold⟩
  obtain rfl := hn rfl
  dsimp only at hk hv x0 xf o
  subst xk xv
  have hfr := h.inv.fresh x0 xf
  have hnx := hg.z.fresh_not xf
  have hbal := (ins_bal cmp ⟨xe, k, v⟩ hg.bal).1
  generalize hx : (⟨xe, k, v⟩ : Item) = x at *
  generalize ht' : (ins cmp x t).1 = t' at *
  have hxe : x.elem = xe := by rw [← hx]
  have hxk : x.key = k := by rw [← hx]
  have main : ∀ ds : List Item, (t'.items ++ ds).Perm (x :: t.items) → (∀ i ∈ ds, Loose m' i) → (Order cmp → Asc cmp t'.items) →
      WMem cmp m0 ((tree, t') :: ws) (ds ++ det) m' := by
    intro ds hp hl ha
    have hpe := hp.map (·.elem)
    have ho : ∀ a, a ∈ owned [(tree, t')] ds ↔ a = xe ∨ a ∈ owned [(tree, t)] [] := by
      intro a
      rw [owned_one, owned_one, List.mem_cons, hpe.mem_iff, List.map_cons, List.mem_cons, List.append_nil, List.mem_cons, hxe]
      tauto
    refine WMem.update (olds := [(tree, t)]) (news := [(tree, t')]) (dold := []) (dnew := ds) h.mem ?_ hl ?_ ?_ ?_ ?_
    · simp only [List.mem_singleton, forall_eq]; exact ⟨z', hbal, ha⟩
    · rw [owned_one, (List.Perm.cons tree hpe).nodup_iff, List.map_cons, hxe]
      have h1 := hg.z.nd
      simp only [mem_foot, addrs, caddrs_nil, List.not_mem_nil, or_false, not_or] at hnx
      simp only [addrs, caddrs_nil, List.append_nil, List.nodup_cons] at h1
      simp only [List.nodup_cons, List.mem_cons, not_or]
      exact ⟨⟨Ne.symm hnx.1, h1.1⟩, hnx.2, h1.2⟩
    · intro a ha'
      rcases (ho a).1 ha' with rfl | ha'
      · exact Or.inr xf
      · exact Or.inl ha'
    · intro a h1 h2
      refine o a ?_
      rw [ho, not_or] at h2
      simp only [owned, List.flatMap_cons, List.flatMap_nil, List.append_nil, List.map_nil] at h1
      simp only [List.mem_cons, not_or]
      exact ⟨h2.1, h1⟩
    · intro a h1 h2
      exact absurd ((ho a).2 (Or.inr h1)) h2
  cases hr : (ins cmp x t).2.2 with
  | none =>
    rw [hr] at hrem
    obtain ⟨xs, ys, e1, e2, e3⟩ := ins_place cmp x t hr
    rw [ht'] at e2
    have hm := main [] (by rw [e1, e2, List.append_nil]; exact List.perm_middle) (by simp) fun o => by
      have ha := hg.asc o
      have := e3 o ha
      rw [e1] at ha; rw [e2]
      exact ha.insert o this.1 this.2
    have hst := h.state
    rw [e1] at hst
    rw [hst] at hfr ⊢
    subst hrem
    refine ⟨_, .put_new (fun o => ?_) hfr, (tree, t') :: ws, det, hm, ?_⟩
    · rw [← hxk]; exact e3 o (hg.asc o)
    · rw [hx, State.mk.injEq]
      exact ⟨by rw [← e2]; rfl, rfl⟩
  | some i =>
    rw [hr] at hrem
    obtain ⟨xs, ys, e1, e2, e3, e4⟩ := (ins_items cmp x t).2 i hr
    rw [ht'] at e2
    have hi : i ∈ t.items := by rw [e1]; simp
    have hc : cmp x.key i.key = 0 := by omega
    have hm := main [i] (by rw [e1, e2, List.append_assoc]; exact List.perm_middle.trans (List.Perm.cons _ (List.Perm.append_left _ List.perm_append_comm)))
      (by
        simp only [List.mem_singleton, forall_eq]
        obtain ⟨q, l, r, b, e⟩ := hg.z.sub.live i hi
        exact ⟨hg.z.elem_ne hi, q, l, r, b, by rw [hold i hr]; exact e⟩)
      fun o => by
        have ha := hg.asc o
        rw [e1] at ha; rw [e2]
        exact ha.replace o hc
    have hst := h.state
    rw [e1] at hst
    rw [hst] at hfr ⊢
    subst hrem
    refine ⟨_, .put_replace (by rw [← hxk]; exact hc) hfr, (tree, t') :: ws, i :: det, hm, ?_⟩
    rw [hx, State.mk.injEq]
    exact ⟨by rw [← e2]; rfl, rfl⟩

theorem detach_sim {s : State} {tree e : Nat} (h : WInv cmp m0 s m) (hh : In s tree e) :
    Does (detach tree e) m (fun _ m' => ∃ s', Step cmp s (.detach tree e) .unit s' ∧ WInv cmp m0 s' m') := by
  obtain ⟨t, ws, det, xs, i, ys, h, hi, rfl⟩ := h.pickElem hh
  refine (h.detach hi).mono ?_
  rintro _ m' ⟨t', e', hm⟩
  rw [h.state, hi]
  exact ⟨_, .detach, (tree, t') :: ws, i :: det, hm, by rw [← e']; rfl⟩

theorem remove_sim {s : State} {tree e : Nat} (h : WInv cmp m0 s m) (hh : In s tree e) :
    Does (remove tree e) m (fun _ m' => ∃ s', Step cmp s (.remove tree e) .unit s' ∧ WInv cmp m0 s' m') := by
  obtain ⟨t, ws, det, xs, i, ys, h, hi, rfl⟩ := h.pickElem hh
  refine Does.bind ((h.detach hi).mono ?_)
  rintro _ m' ⟨t', e', hm⟩
  refine (Front.discard hm).mono ?_
  intro _ m'' hm
  rw [h.state, hi]
  exact ⟨_, .remove, (tree, t') :: ws, det, hm, by rw [← e']; rfl⟩

theorem detachFound_sim {s : State} {tree : Nat} {ws : List (Nat × T)} {det xs ys : List Item} {i : Item} {op : Op} (h : Front cmp m0 s m tree t ws det)
    (hi : t.items = xs ++ i :: ys)
    (hs : Step cmp ⟨(tree, xs ++ i :: ys) ::ₘ ↑(ws.map view), ↑det⟩ op (.ptr i.elem) ⟨(tree, xs ++ ys) ::ₘ ↑(ws.map view), i ::ₘ ↑det⟩) :
    Does (detachFound tree i.elem) m (fun a m' => ∃ s', Step cmp s op (.ptr a) s' ∧ WInv cmp m0 s' m') := by
  refine does_pos (h.good.z.elem_ne (by rw [hi]; simp)) (Does.bind ((h.detach hi).mono ?_))
  rintro _ m' ⟨t', e', hm⟩
  rw [h.state, hi]
  exact Does.pure ⟨_, hs, (tree, t') :: ws, i :: det, hm, by rw [← e']; rfl⟩

theorem pop_sim {s : State} {tree k : Nat} (h : WInv cmp m0 s m) (hh : Has s tree) :
    Does (pop cmp tree k) m (fun a m' => ∃ s', Step cmp s (.pop tree k) (.ptr a) s' ∧ WInv cmp m0 s' m') := by
  obtain ⟨t, ws, det, h⟩ := h.pick hh
  refine Does.bind ((get_spec h.good.z cmp k).mono ?_)
  rintro a _ ⟨rfl, ⟨i, hi, hc, rfl⟩ | ⟨rfl, hn⟩⟩
  · obtain ⟨xs, ys, hi⟩ := List.append_of_mem hi
    exact detachFound_sim h hi (.pop_hit hc)
  · refine does_neg (by simp) (Does.pure ⟨s, ?_, h.inv⟩)
    rw [h.state]
    exact .pop_miss fun o => hn o (h.good.asc o)

theorem popFirst_sim {s : State} {tree : Nat} (h : WInv cmp m0 s m) (hh : Has s tree) :
    Does (popFirst tree) m (fun a m' => ∃ s', Step cmp s (.popFirst tree) (.ptr a) s' ∧ WInv cmp m0 s' m') := by
  obtain ⟨t, ws, det, h⟩ := h.pick hh
  refine Does.bind ((getFirst_spec h.good.z).mono ?_)
  rintro a _ ⟨rfl, rfl⟩
  cases hi : t.items with
  | nil =>
    refine does_neg (by simp [hd]) (Does.pure ⟨s, ?_, h.inv⟩)
    rw [h.state, hi]
    exact .popFirst_empty
  | cons i ys => exact detachFound_sim (xs := []) h hi .popFirst

theorem popLast_sim {s : State} {tree : Nat} (h : WInv cmp m0 s m) (hh : Has s tree) :
    Does (popLast tree) m (fun a m' => ∃ s', Step cmp s (.popLast tree) (.ptr a) s' ∧ WInv cmp m0 s' m') := by
  obtain ⟨t, ws, det, h⟩ := h.pick hh
  refine Does.bind ((getLast_spec h.good.z).mono ?_)
  rintro a _ ⟨rfl, rfl⟩
  rcases List.eq_nil_or_concat t.items with hi | ⟨xs, i, hi⟩
  · rw [hi]
    refine does_neg (by simp [lst]) (Does.pure ⟨s, ?_, h.inv⟩)
    rw [h.state, hi]
    exact .popLast_empty
  · rw [List.concat_eq_append] at hi
    rw [hi, lst_snoc]
    refine detachFound_sim (ys := []) h hi ?_
    rw [List.append_nil]
    exact .popLast

theorem discard_sim {s : State} {e : Nat} (h : WInv cmp m0 s m) (hh : ∃ i ∈ s.loose, i.elem = e) :
    Does (destroyElement e) m (fun _ m' => ∃ s', Step cmp s (.discard e) .unit s' ∧ WInv cmp m0 s' m') := by
  obtain ⟨ws, i, det, hw, rfl, rfl⟩ := h.pickLoose hh
  refine (Front.discard hw).mono ?_
  intro _ m' hm
  exact ⟨_, .discard, ws, det, hm, rfl⟩

/-- Every call that keeps to the rules returns, and does what the specification says. -/
theorem callWith_sim {A : Alloc} (hA : A.Good) {s : State} {op : Op} (h : WInv cmp m0 s m) (ho : ok s op) :
    Does (callWith A cmp op) m (fun r m' => ∃ s', Step cmp s op r s' ∧ WInv cmp m0 s' m') := by
  cases op with
  | make => exact (make_sim hA h).result
  | destroy t => exact (destroy_sim h ho).unit
  | copy t => exact (copy_sim hA h ho).result
  | put t k v => exact (put_sim hA h ho).result
  | pop t k => exact (pop_sim h ho).result
  | popFirst t => exact (popFirst_sim h ho).result
  | popLast t => exact (popLast_sim h ho).result
  | detach t e => exact (detach_sim h ho).unit
  | remove t e => exact (remove_sim h ho).unit
  | discard e => exact (discard_sim h ho).unit
  | get tree k =>
    obtain ⟨t, ws, det, h⟩ := h.pick ho
    refine looks_sim h (get_spec h.good.z cmp k) ?_
    rintro a (⟨i, hi, hc, rfl⟩ | ⟨rfl, hn⟩)
    · exact .get_hit hi hc
    · exact .get_miss fun o => hn o (h.good.asc o)
  | getBefore tree k =>
    obtain ⟨t, ws, det, h⟩ := h.pick ho
    exact looks_sim h (getBefore_spec h.good.z cmp k) fun a ⟨h1, h2⟩ => .getBefore h1 fun o => h2 o (h.good.asc o)
  | getOnOrBefore tree k =>
    obtain ⟨t, ws, det, h⟩ := h.pick ho
    exact looks_sim h (getOnOrBefore_spec h.good.z cmp k) fun a ⟨h1, h2⟩ => .getOnOrBefore h1 fun o => h2 o (h.good.asc o)
  | getAfter tree k =>
    obtain ⟨t, ws, det, h⟩ := h.pick ho
    exact looks_sim h (getAfter_spec h.good.z cmp k) fun a ⟨h1, h2⟩ => .getAfter h1 fun o => h2 o (h.good.asc o)
  | getOnOrAfter tree k =>
    obtain ⟨t, ws, det, h⟩ := h.pick ho
    exact looks_sim h (getOnOrAfter_spec h.good.z cmp k) fun a ⟨h1, h2⟩ => .getOnOrAfter h1 fun o => h2 o (h.good.asc o)
  | getFirst tree =>
    obtain ⟨t, ws, det, h⟩ := h.pick ho
    exact looks_sim h (getFirst_spec h.good.z) fun a e => e ▸ .getFirst (firstWith_hd _)
  | getLast tree =>
    obtain ⟨t, ws, det, h⟩ := h.pick ho
    exact looks_sim h (getLast_spec h.good.z) fun a e => e ▸ .getLast (lastWith_lst _)
  | next e =>
    obtain ⟨tree, ho⟩ := ho
    obtain ⟨t, ws, det, xs, i, ys, h, hi, rfl⟩ := h.pickElem ho
    exact looks_sim h (next_spec h.good.z hi) fun a e => e ▸ .next hi (firstWith_hd _)
  | previous e =>
    obtain ⟨tree, ho⟩ := ho
    obtain ⟨t, ws, det, xs, i, ys, h, hi, rfl⟩ := h.pickElem ho
    exact looks_sim h (previous_spec h.good.z hi) fun a e => e ▸ .previous hi (lastWith_lst _)
  | forwards tree =>
    obtain ⟨t, ws, det, h⟩ := h.pick ho
    exact looks_sim h (forwards_spec h.good.z) fun a e => e ▸ .forwards
  | backwards tree =>
    obtain ⟨t, ws, det, h⟩ := h.pick ho
    exact looks_sim h (backwards_spec h.good.z) fun a e => e ▸ .backwards
  | empty tree =>
    obtain ⟨t, ws, det, h⟩ := h.pick ho
    exact looks_sim h (empty_spec h.good.z) fun a e => e ▸ .empty
  | size tree =>
    obtain ⟨x, hx, rfl, hl⟩ := ho
    obtain ⟨⟨ws, det, hw, rfl⟩⟩ := h
    simp only [Multiset.mem_coe, List.mem_map] at hx
    obtain ⟨w, hw', rfl⟩ := hx
    obtain ⟨xs, ys, rfl⟩ := List.append_of_mem hw'
    have hp : (xs ++ w :: ys).Perm (w :: (xs ++ ys)) := List.perm_middle
    have h : Front cmp m0 ⟨↑((xs ++ w :: ys).map view), ↑det⟩ m w.1 w.2 (xs ++ ys) det := by
      refine ⟨hw.perm hp (List.Perm.refl _), ?_⟩
      rw [State.mk.injEq]
      exact ⟨Multiset.coe_eq_coe.2 (hp.map view), rfl⟩
    refine looks_sim h (size_spec h.good.z) fun a e => ?_
    rw [Nat.mod_eq_of_lt (show w.2.items.length < 2 ^ 64 from hl)] at e
    exact e ▸ .size
  | key e =>
    rcases ho with ⟨tree, ho⟩ | ho
    · obtain ⟨t, ws, det, xs, i, ys, h, hi, rfl⟩ := h.pickElem ho
      have hm : i ∈ t.items := by rw [hi]; simp
      refine looks_sim (P := fun a => a = i.key) h ?_ fun a e => e ▸ .key hm
      obtain ⟨q, l, r, b, e⟩ := h.good.z.sub.live i hm
      have h0 := h.good.z.elem_ne hm
      simp only [getKey, key]
      steps
      exact ⟨rfl, rfl⟩
    · obtain ⟨ws, i, det, hw, rfl, rfl⟩ := h.pickLoose ho
      obtain ⟨h0, q, l, r, b, e⟩ := hw.loose i (by simp)
      simp only [callWith, getKey, key]
      steps
      exact ⟨_, .key_loose, ws, i :: det, hw, rfl⟩
  | value e =>
    rcases ho with ⟨tree, ho⟩ | ho
    · obtain ⟨t, ws, det, xs, i, ys, h, hi, rfl⟩ := h.pickElem ho
      have hm : i ∈ t.items := by rw [hi]; simp
      refine looks_sim (P := fun a => a = i.value) h ?_ fun a e => e ▸ .value hm
      obtain ⟨q, l, r, b, e⟩ := h.good.z.sub.live i hm
      have h0 := h.good.z.elem_ne hm
      simp only [getValue, value]
      steps
      exact ⟨rfl, rfl⟩
    · obtain ⟨ws, i, det, hw, rfl, rfl⟩ := h.pickLoose ho
      obtain ⟨h0, q, l, r, b, e⟩ := hw.loose i (by simp)
      simp only [callWith, getValue, value]
      steps
      exact ⟨_, .value_loose, ws, i :: det, hw, rfl⟩

theorem stored_spec {F : Funs} {s : State} {tree : Nat} (h : WInv cmp m0 s m) (hh : Has s tree) :
    Run (stored F tree) m (F.cmp Ptrs.cmp Ptrs.obj) m := by
  obtain ⟨t, ws, det, h⟩ := h.pick hh
  exact (run_readA h.good.z.around.tree0 h.good.z.around.root).bind (Run.pure _ _)

theorem call_sim {A : Alloc} (hA : A.Good) {F : Funs} {s : State} {op : Op} (h : WInv (F.cmp Ptrs.cmp Ptrs.obj) m0 s m) (ho : ok s op) :
    Does (call A F Ptrs.cmp Ptrs.obj op) m (fun r m' => ∃ s', Step (F.cmp Ptrs.cmp Ptrs.obj) s op r s' ∧ WInv (F.cmp Ptrs.cmp Ptrs.obj) m0 s' m') := by
  have key := callWith_sim hA h ho
  cases op with
  | put t k v => exact Does.bind ((stored_spec h ho).does key)
  | get t k => exact Does.bind ((stored_spec h ho).does key)
  | getBefore t k => exact Does.bind ((stored_spec h ho).does key)
  | getOnOrBefore t k => exact Does.bind ((stored_spec h ho).does key)
  | getAfter t k => exact Does.bind ((stored_spec h ho).does key)
  | getOnOrAfter t k => exact Does.bind ((stored_spec h ho).does key)
  | pop t k => exact Does.bind ((stored_spec h ho).does key)
  | _ => exact key

theorem exec_sim {A : Alloc} (hA : A.Good) {F : Funs} : ∀ (p : Prog) (s : State) (m : Mem), WInv (F.cmp Ptrs.cmp Ptrs.obj) m0 s m → Legal (F.cmp Ptrs.cmp Ptrs.obj) p s →
    Does (exec A F Ptrs.cmp Ptrs.obj p) m (fun rs m' => ∃ s', Runs (F.cmp Ptrs.cmp Ptrs.obj) p s rs s' ∧ WInv (F.cmp Ptrs.cmp Ptrs.obj) m0 s' m') := by
  intro p
  induction p with
  | done => intro s m h _; exact Does.pure ⟨s, .done, h⟩
  | call op next ih =>
    rintro s m h ⟨ho, hl⟩
    refine Does.bind ((call_sim hA h ho).mono ?_)
    rintro r m' ⟨s1, hs, h1⟩
    refine Does.bind ((ih r s1 m' h1 (hl r s1 hs)).mono ?_)
    rintro rs m'' ⟨s2, hr, h2⟩
    exact Does.pure ⟨s2, .call hs hr, h2⟩

end Verif.Avl
