import Verif.Proofs.AvlSim
import Verif.Spec.Cost

/-! How much a loop over a whole tree looks at. -/

set_option autoImplicit false

namespace Verif.Avl
open Spec.Avl (Item)
open Spec.Cost
open T

/-- The links followed when a loop arrives at the subtree with these surroundings. -/
def arr : Ctx → Nat
  | [] => 1
  | .l _ _ _ :: c => arr c + 1
  | .r _ _ l :: c => arr c + 2 * l.items.length + 1

theorem arr_lefts (c : Ctx) : ∀ d : Ctx, (∀ f ∈ d, ∃ i b r, f = Fr.l i b r) → arr (d ++ c) = arr c + d.length
  | [], _ => rfl
  | f :: d, h => by
    obtain ⟨i, b, r, rfl⟩ := h f (by simp)
    rw [List.cons_append, arr, arr_lefts c d fun f hf => h f (by simp [hf])]
    rfl

section
variable {m : Mem} {p : Nat} {t : T}

theorem looks_left {i : Item} {b : Int} {l r : T} (h : Rep m p (node i b l r)) {m' : Mem} (hm : m'.get i.elem = m.get i.elem) :
    Run (left i.elem) m' l.ptr m' :=
  Run.bind (run_readAE h.1 (hm.trans h.2.1)) (Run.pure _ _)

theorem looks_right {i : Item} {b : Int} {l r : T} (h : Rep m p (node i b l r)) {m' : Mem} (hm : m'.get i.elem = m.get i.elem) :
    Run (right i.elem) m' r.ptr m' :=
  Run.bind (run_readAE h.1 (hm.trans h.2.1)) (Run.pure _ _)

theorem leftmost_looks : ∀ (t : T) (p : Nat), Rep m p t → t ≠ nil →
    ∃ d y b r, (∀ f ∈ d, ∃ i b r, f = Fr.l i b r) ∧ t = plug (node y b nil r) d ∧ Looks (leftmostLoop t.ptr) m y.elem (d.length + 1) := by
  intro t
  induction t with
  | nil => intro p _ h; exact absurd rfl h
  | node i b l r ihl _ =>
    rintro p hrep _
    have h2 := hrep.2.2.1
    rw [ptr_node]
    cases hl : l with
    | nil =>
      refine ⟨[], i, b, r, by simp, by simp [plug], [i.elem], by simp, fun m' hm => ?_⟩
      have hleft := looks_left hrep (hm _ (by simp))
      rw [leftmostLoop]
      refine Run.bind hleft ?_
      rw [hl, if_neg (by simp)]
      exact Run.pure _ _
    | node j b' l' r' =>
      have hj : l.ptr ≠ 0 := by rw [hl] at h2 ⊢; exact h2.1
      rw [← hl]
      obtain ⟨d, y, b2, r2, hd, ht, S, hS, hr⟩ := ihl _ h2 (by simp [hl])
      refine ⟨d ++ [.l i b r], y, b2, r2, ?_, ?_, i.elem :: S, by simp; omega, fun m' hm => ?_⟩
      · intro f hf
        rcases List.mem_append.1 hf with hf | hf
        · exact hd f hf
        · exact ⟨i, b, r, by simpa using hf⟩
      · rw [plug_append, ← ht]; rfl
      · have hleft := looks_left hrep (hm _ (by simp))
        rw [leftmostLoop]
        refine Run.bind hleft ?_
        rw [if_pos hj]
        exact Run.bind hleft (hr m' fun q hq => hm q (by simp [hq]))

end

variable [Ptrs] {m : Mem} {tree n : Nat}

/-- Where `avl_tree_next` leads: `k` links were followed to get to the element, `a.2` more lead to the next one, or to NULL after the last. -/
def Onwards (whole : T) (k : Nat) (a : Nat × Nat) : Prop :=
  (∃ c j b l r, plug (node j b l r) c = whole ∧ a.1 = j.elem ∧ arr c + 2 * l.items.length = k + a.2) ∨
    (a.1 = 0 ∧ 2 * whole.items.length = k + a.2)

theorem climb_looks : ∀ (c : Ctx) (t : T), Z m tree n c t → t ≠ nil → ∃ a : Nat × Nat,
    (∃ S : List Nat, S.length ≤ a.2 + 1 ∧ t.ptr ∈ S ∧ ∀ m', (∀ q ∈ S, Mem.get m' q = m.get q) → Run (nextLoop t.ptr) m' a.1 m') ∧ Onwards (plug t c) (arr c + 2 * t.items.length - 2) a := by
  intro c
  induction c with
  | nil =>
    intro t h hn
    have hlen := List.length_pos_iff.2 (items_ne_nil hn)
    obtain ⟨h0, e, he, hp, -⟩ := h.sub.top hn
    refine ⟨(0, 1), ⟨[t.ptr], by simp, by simp, fun m' hm => ?_⟩, Or.inr ⟨by simp, ?_⟩⟩
    · have hpar : Run (parent t.ptr) m' e.parent m' := Run.bind (run_readAE h0 ((hm _ (by simp)).trans he)) (Run.pure _ _)
      rw [hp] at hpar
      rw [nextLoop]
      refine Run.bind hpar ?_
      rw [if_neg (by simp)]
      exact hpar
    · simp only [plug, arr]; omega
  | cons f c ih =>
    intro t h hn
    have hlen := List.length_pos_iff.2 (items_ne_nil hn)
    obtain ⟨h0, e, he, hp, -⟩ := h.sub.top hn
    have ho := h.ptr_out hn
    obtain ⟨f0, f1, -⟩ := h.around.ctx
    have hz := Z.up.1 h
    have hpar : ∀ m' : Mem, m'.get t.ptr = m.get t.ptr → Run (parent t.ptr) m' e.parent m' :=
      fun m' hm => Run.bind (run_readAE h0 (hm.trans he)) (Run.pure _ _)
    rw [hp, par_cons] at hpar
    cases f with
    | l i b r =>
      simp only [Fr.item, Fr.cell] at f0 f1 hp hpar ⊢
      have hne : r.ptr ≠ t.ptr := sib_ptr_ne ho h0
      refine ⟨(i.elem, 1), ⟨[t.ptr, i.elem], by simp, by simp, fun m' hm => ?_⟩, Or.inl ⟨c, i, b, t, r, rfl, rfl, ?_⟩⟩
      · have hright : Run (right i.elem) m' r.ptr m' := Run.bind (run_readAE f0 ((hm _ (by simp)).trans f1)) (Run.pure _ _)
        have hpar := hpar m' (hm _ (by simp))
        rw [nextLoop]
        refine Run.bind hpar ?_
        rw [if_pos f0]
        refine Run.bind hpar (Run.bind hright ?_)
        rw [if_neg hne]
        exact hpar
      · simp only [arr]; omega
    | r i b l =>
      simp only [Fr.item, Fr.cell] at f0 f1 hp hpar ⊢
      obtain ⟨⟨a, k⟩, ⟨S, hS, hi, hr⟩, hc⟩ := ih _ hz (by simp [Fr.fill])
      rw [Fr.fill, ptr_node] at hi hr
      refine ⟨(a, k + 1), ⟨t.ptr :: S, by simpa using hS, by simp, fun m' hm => ?_⟩, ?_⟩
      · have hright : Run (right i.elem) m' t.ptr m' := Run.bind (run_readAE f0 ((hm _ (by simp [hi])).trans f1)) (Run.pure _ _)
        have hpar := hpar m' (hm _ (by simp))
        rw [nextLoop]
        refine Run.bind hpar ?_
        rw [if_pos f0]
        refine Run.bind hpar (Run.bind hright ?_)
        rw [if_pos rfl]
        exact Run.bind hpar (hr m' fun q hq => hm q (by simp [hq]))
      · simp only [Fr.fill, items, List.length_append, List.length_cons] at hc
        simp only [arr, plug, Fr.fill]
        rcases hc with ⟨c', j, b', l', r', e1, e2, e3⟩ | ⟨e1, e2⟩
        · exact Or.inl ⟨c', j, b', l', r', e1, e2, by simp only at e3 ⊢; omega⟩
        · exact Or.inr ⟨e1, by simp only at e2 ⊢; omega⟩

theorem next_looks {c : Ctx} {i : Item} {b : Int} {l r : T} (h : Z m tree n c (node i b l r)) : ∃ a : Nat × Nat,
    Looks (next i.elem) m a.1 (a.2 + 1) ∧ Onwards (plug (node i b l r) c) (arr c + 2 * l.items.length) a := by
  have hrep := h.sub
  have hr := hrep.2.2.2
  by_cases hn : r = nil
  · subst hn
    obtain ⟨a, ⟨S, hS, hi, g1⟩, g2⟩ := climb_looks c _ h (by simp)
    rw [ptr_node] at hi g1
    refine ⟨a, ⟨S, hS, fun m' hm => ?_⟩, ?_⟩
    · have hright := looks_right hrep (hm _ hi)
      have hd : Run (nextDescendant i.elem) m' 0 m' := by
        rw [nextDescendant]
        refine Run.bind hright ?_
        rw [if_pos (by simp)]
        exact Run.pure _ _
      refine Run.bind hd ?_
      rw [if_neg (by simp)]
      exact g1 m' hm
    · have : arr c + 2 * (node i b l nil).items.length - 2 = arr c + 2 * l.items.length := by simp [items]; omega
      rw [← this]
      exact g2
  · have hr0 : r.ptr ≠ 0 := by cases r with
      | nil => exact absurd rfl hn
      | node => exact hr.1
    obtain ⟨d, y, b2, r2, g2, g3, S, hS, g1⟩ := leftmost_looks r _ hr hn
    refine ⟨(y.elem, d.length + 1), ⟨i.elem :: S, by simp; omega, fun m' hm => ?_⟩, Or.inl ⟨d ++ .r i b l :: c, y, b2, nil, r2, ?_, rfl, ?_⟩⟩
    · have hd : Run (nextDescendant i.elem) m' y.elem m' := by
        rw [nextDescendant]
        refine Run.bind (looks_right hrep (hm _ (by simp))) ?_
        rw [if_neg hr0]
        exact g1 m' fun q hq => hm q (by simp [hq])
      refine Run.bind hd ?_
      rw [if_pos]
      · exact Run.pure _ _
      · rw [g3] at hr
        exact (rep_plug.1 hr).2.1
    · rw [plug_append, ← g3]; rfl
    · rw [arr_lefts _ d g2]
      simp only [arr, items, List.length_nil]
      omega

/-- The loop from an element on: every link is followed twice. -/
theorem passes_next : ∀ (ys : List Item) (c : Ctx) (i : Item) (b : Int) (l r : T) (xs : List Item) (k : Nat),
    Z m tree n c (node i b l r) → (plug (node i b l r) c).items = xs ++ i :: ys → arr c + 2 * l.items.length = k →
    ∃ k', Passes next m (i.elem :: ys.map (·.elem)) (k' + ys.length + 1) ∧ k + k' = 2 * (plug (node i b l r) c).items.length := by
  intro ys
  induction ys with
  | nil =>
    intro c i b l r xs k h hi hk
    obtain ⟨⟨a, k'⟩, g2, g3⟩ := next_looks h
    obtain ⟨e, _⟩ : a = 0 ∧ _ := ((next_spec (Z.plug.1 h) hi).run g2.run).symm
    subst e
    have hend : 2 * (plug (node i b l r) c).items.length = k + k' := by
      rcases g3 with ⟨c', j, b', l', r', e1, e2, -⟩ | ⟨-, e⟩
      · have := (Z.plug.2 (e1 ▸ Z.plug.1 h : Z m tree n [] (plug (node j b' l' r') c'))).sub.1
        exact absurd e2.symm this
      · rw [← hk]; exact e
    exact ⟨k', ⟨k' + 1, 0, by simp, g2, trivial⟩, hend.symm⟩
  | cons y ys ih =>
    intro c i b l r xs k h hi hk
    obtain ⟨⟨a, k'⟩, g2, g3⟩ := next_looks h
    obtain ⟨e, _⟩ : a = y.elem ∧ _ := ((next_spec (Z.plug.1 h) hi).run g2.run).symm
    subst e
    have hy : y ∈ (plug (node i b l r) c).items := by rw [hi]; simp
    have hw := Z.plug.1 h
    rcases g3 with ⟨c', j, b', l', r', e1, e2, e3⟩ | ⟨e, -⟩
    · have hz : Z m tree n c' (node j b' l' r') := Z.plug.2 (e1 ▸ hw)
      have hj : j ∈ (plug (node i b l r) c).items := by
        obtain ⟨A, B, hs⟩ := plug_split c'
        rw [← e1, hs]
        simp [items]
      have hnd : ((plug (node i b l r) c).items.map (·.elem)).Nodup := by
        have := hw.nd
        rw [List.nodup_cons] at this
        simpa [T.addrs] using this.2
      obtain rfl : y = j := List.inj_on_of_nodup_map hnd hy hj e2
      obtain ⟨k2, q1, q2⟩ := ih c' y b' l' r' (xs ++ [i]) (k + k') hz (by rw [e1, hi]; simp) (by rw [e3, hk])
      refine ⟨k' + k2, ⟨k' + 1, _, ?_, g2, q1⟩, by rw [e1] at q2; omega⟩
      simp; omega
    · obtain ⟨c2, b2, l2, r2, e1⟩ := find_place _ hy
      exact absurd e (Z.plug.2 (e1 ▸ hw : Z m tree n [] (plug (node y b2 l2 r2) c2))).sub.1

theorem forwards_linear {t : T} (h : Z m tree n [] t) :
    ∃ k1 k2, k1 + k2 ≤ 3 * t.items.length + 1 ∧ Looks (getFirst tree) m (t.items.map (·.elem)).headI k1 ∧ Passes next m (t.items.map (·.elem)) k2 := by
  have hroot : ∀ m' : Mem, m'.get tree = m.get tree → Run (root tree) m' t.ptr m' :=
    fun m' hm => Run.bind (run_readA h.around.tree0 (hm.trans h.around.root)) (Run.pure _ _)
  by_cases hn : t = nil
  · subst hn
    refine ⟨1, 0, by simp, ⟨[tree], by simp, fun m' hm => ?_⟩, trivial⟩
    have hroot := hroot m' (hm _ (by simp))
    rw [getFirst, empty]
    refine Run.bind (Run.bind hroot (Run.pure _ _)) ?_
    rw [if_pos (by simp)]
    exact Run.pure _ _
  · have ht0 : t.ptr ≠ 0 := by cases t with
      | nil => exact absurd rfl hn
      | node => exact h.sub.1
    obtain ⟨d, y, b, r, g2, rfl, S, hS, g1⟩ := leftmost_looks t _ h.sub hn
    have hz := Z.plug.2 h
    obtain ⟨B, e⟩ := plug_lefts d g2
    have he : (plug (node y b nil r) d).items = y :: (r.items ++ B) := by rw [e]; simp [items]
    obtain ⟨k', q1, q2⟩ := passes_next (r.items ++ B) d y b nil r [] (d.length + 1) hz (by rw [he]; simp) (by
      have := arr_lefts [] d g2
      rw [List.append_nil] at this
      rw [this]; simp [arr, items]; omega)
    refine ⟨d.length + 2, k' + (r.items ++ B).length + 1, ?_, ⟨tree :: S, by simp; omega, fun m' hm => ?_⟩, ?_⟩
    · rw [he] at q2 ⊢
      simp only [List.length_cons] at q2 ⊢
      omega
    · have hroot := hroot m' (hm _ (by simp))
      rw [getFirst, empty, he]
      refine Run.bind (Run.bind hroot (Run.pure _ _)) ?_
      rw [if_neg (by simpa using ht0)]
      exact Run.bind hroot (g1 m' fun q hq => hm q (by simp [hq]))
    · rw [he]; exact q1

end Verif.Avl
