import Verif.Proofs.List
import Verif.Spec.List

/-! Sequences of list operations against the specification. -/

namespace Verif.CList
open Verif.Spec.List (Op Res State after without)

/-- The pointer the user was given for a membership. -/
def handle (hs : List Nat) (k : Nat) : M Nat := match hs[k]? with
  | some a => pure a
  | none => ub

/-- A returned element pointer. -/
def ptr (e : Nat) : Res Nat := .elem (if e = 0 then none else some e)

/-- One operation by the user; `hs` are the pointers returned by the insertions so far. -/
def apply (A : Alloc) (list : Nat) (hs : List Nat) : Op → M (Res Nat × List Nat)
  | .append v => do
    let e ← append A list v
    pure (ptr e, hs ++ [e])
  | .prepend v => do
    let e ← prepend A list v
    pure (ptr e, hs ++ [e])
  | .insertBefore v k => do
    let h ← handle hs k
    let e ← insertBefore A list v h
    pure (ptr e, hs ++ [e])
  | .remove k => do
    let h ← handle hs k
    remove list h
    pure (.nothing, hs)
  | .popFirst => do
    let v ← popFirst list
    pure (.value v, hs)
  | .popLast => do
    let v ← popLast list
    pure (.value v, hs)
  | .first => do
    let e ← getFirst list
    pure (ptr e, hs)
  | .last => do
    let e ← getLast list
    pure (ptr e, hs)
  | .next k => do
    let h ← handle hs k
    let e ← next h
    pure (ptr e, hs)
  | .previous k => do
    let h ← handle hs k
    let e ← previous h
    pure (ptr e, hs)
  | .value k => do
    let h ← handle hs k
    let v ← getValue h
    pure (.value v, hs)
  | .get v => do
    let e ← get list v
    pure (ptr e, hs)
  | .getByIndex i => do
    let e ← getByIndex list i
    pure (ptr e, hs)
  | .size => do
    let n ← size list
    pure (.size n, hs)
  | .empty => do
    let b ← empty list
    pure (.empty b, hs)

/-- A sequence of operations. -/
def runOps (A : Alloc) (list : Nat) : List Nat → List Op → M (List (Res Nat) × List Nat)
  | hs, [] => pure ([], hs)
  | hs, op :: ops => do
    let r ← apply A list hs op
    let q ← runOps A list r.2 ops
    pure (r.1 :: q.1, q.2)

/-- A result of the specification and a result of the code agree: a membership `k` is the pointer `hs[k]`. -/
inductive SameRes (hs : List Nat) : Res Nat → Res Nat → Prop
  | null : SameRes hs (.elem none) (.elem none)
  | elem {k a : Nat} : hs[k]? = some a → a ≠ 0 → SameRes hs (.elem (some k)) (.elem (some a))
  | value (v : Nat) : SameRes hs (.value v) (.value v)
  | size (n : Nat) : SameRes hs (.size n) (.size n)
  | empty (b : Bool) : SameRes hs (.empty b) (.empty b)
  | nothing : SameRes hs .nothing .nothing

theorem SameRes.mono {hs hs' : List Nat} {r c : Res Nat} (h : SameRes hs r c) (hp : hs <+: hs') : SameRes hs' r c := by
  cases h with
  | null => exact .null
  | elem h h0 =>
    refine .elem ?_ h0
    obtain ⟨t, rfl⟩ := hp
    rw [List.getElem?_append_left (by rw [List.getElem?_eq_some_iff] at h; exact h.1)]
    exact h
  | value v => exact .value v
  | size n => exact .size n
  | empty b => exact .empty b
  | nothing => exact .nothing

/-- The memberships with their pointers. -/
def conc (hs : List Nat) (s : List (Nat × Nat)) : List (Nat × Nat) := s.map (fun p => (hs.getD p.1 0, p.2))

theorem conc_append (hs : List Nat) (s t : List (Nat × Nat)) : conc hs (s ++ t) = conc hs s ++ conc hs t := by simp [conc]

theorem conc_length (hs : List Nat) (s : List (Nat × Nat)) : (conc hs s).length = s.length := by simp [conc]

/-- The state of a run: the list holds the specified sequence and no other memory differs from `m0`. -/
structure Inv (m0 : Mem) (l : Nat) (s : State) (hs : List Nat) (m : Mem) : Prop where
  rep : Rep m l (conc hs s.seq)
  len : hs.length = s.made
  ids : ∀ p ∈ s.seq, p.1 < s.made
  fresh : ∀ a ∈ l :: addrs (conc hs s.seq), m0.get a = none
  frame : ∀ a, a ∉ l :: addrs (conc hs s.seq) → m.get a = m0.get a

theorem addrs_conc (hs : List Nat) (s : List (Nat × Nat)) : addrs (conc hs s) = (s.map (·.1)).map (fun k => hs.getD k 0) := by
  simp [conc]

theorem Inv.nodup {m0 m : Mem} {l : Nat} {s : State} {hs : List Nat} (h : Inv m0 l s hs m) : (s.seq.map (·.1)).Nodup := by
  have := h.rep.nodup
  rw [addrs_conc] at this
  exact List.Pairwise.of_map _ (fun a b hab e => hab (by rw [e])) this

/-- The specification's sequence around a member. -/
theorem Inv.split {m0 m : Mem} {l : Nat} {s : State} {hs : List Nat} (h : Inv m0 l s hs m) {k : Nat} (hk : k ∈ s.seq.map (·.1)) :
    ∃ ys u zs, s.seq = ys ++ (k, u) :: zs ∧ k ∉ ys.map (·.1) ∧ k ∉ zs.map (·.1) ∧
      conc hs s.seq = conc hs ys ++ (hs.getD k 0, u) :: conc hs zs ∧ handle hs k = pure (hs.getD k 0) := by
  rw [List.mem_map] at hk
  obtain ⟨⟨k', u⟩, hm, rfl⟩ := hk
  obtain ⟨ys, zs, he⟩ := List.append_of_mem hm
  have hn := h.nodup
  rw [he] at hn
  obtain ⟨n1, n2, -⟩ := nodup_split hn
  have hlt : k' < hs.length := by rw [h.len]; exact h.ids _ hm
  refine ⟨ys, u, zs, he, n1, n2, ?_, ?_⟩
  · rw [he, conc_append]; rfl
  · simp [handle, List.getD_eq_getElem?_getD, hlt]

theorem after_split {ys zs : List (Nat × Nat)} {k u : Nat} (h : k ∉ ys.map (·.1)) : after k (ys ++ (k, u) :: zs) = zs.head?.map (·.1) := by
  have : (ys ++ (k, u) :: zs).dropWhile (fun p => p.1 != k) = (k, u) :: zs := by
    induction ys with
    | nil => simp
    | cons y ys ih =>
      simp only [List.map_cons, List.mem_cons, not_or] at h
      rw [List.cons_append, List.dropWhile_cons, if_pos (by simpa using Ne.symm h.1)]
      exact ih h.2
  rw [after, this]; rfl

theorem without_split {ys zs : List (Nat × Nat)} {k u : Nat} (h : k ∉ ys.map (·.1)) (h' : k ∉ zs.map (·.1)) :
    without k (ys ++ (k, u) :: zs) = ys ++ zs := by
  have aux : ∀ xs : List (Nat × Nat), k ∉ xs.map (·.1) → xs.filter (fun p => p.1 != k) = xs := by
    intro xs hx
    rw [List.filter_eq_self]
    intro p hp
    have : p.1 ≠ k := by rintro rfl; exact hx (List.mem_map_of_mem hp)
    simpa using this
  rw [without, List.filter_append, List.filter_cons, aux ys h, aux zs h']
  simp

theorem insertBefore_split {x : Nat × Nat} {ys zs : List (Nat × Nat)} {k u : Nat} (h : k ∉ ys.map (·.1)) :
    Spec.List.insertBefore x k (ys ++ (k, u) :: zs) = ys ++ x :: (k, u) :: zs := by
  induction ys with
  | nil => simp [Spec.List.insertBefore]
  | cons y ys ih =>
    simp only [List.map_cons, List.mem_cons, not_or] at h
    rw [List.cons_append, Spec.List.insertBefore, if_neg (Ne.symm h.1), ih h.2]; rfl

theorem same_elem {m0 m : Mem} {l : Nat} {s : State} {hs : List Nat} (h : Inv m0 l s hs m) {o : Option Nat} (ho : ∀ k, o = some k → k ∈ s.seq.map (·.1)) :
    SameRes hs (.elem o) (ptr ((o.map (fun k => hs.getD k 0)).getD 0)) := by
  cases o with
  | none => simp [ptr]; exact .null
  | some k =>
    have hk := ho k rfl
    have hlt : k < hs.length := by
      rw [h.len]; rw [List.mem_map] at hk; obtain ⟨p, hp, rfl⟩ := hk; exact h.ids p hp
    have h0 : hs.getD k 0 ≠ 0 := by
      refine (seg_live h.rep.seg _ ?_).1
      rw [addrs_conc]; exact List.mem_map_of_mem hk
    simp only [Option.map_some, Option.getD_some, ptr, if_neg h0]
    exact .elem (by simp [List.getD_eq_getElem?_getD, hlt]) h0

theorem hd_conc (hs : List Nat) (s : List (Nat × Nat)) : hd (conc hs s) 0 = ((s.head?.map (·.1)).map (fun k => hs.getD k 0)).getD 0 := by
  cases s with
  | nil => rfl
  | cons p s => obtain ⟨k, v⟩ := p; rfl

theorem lst_conc (hs : List Nat) (s : List (Nat × Nat)) : lst (conc hs s) 0 = ((s.getLast?.map (·.1)).map (fun k => hs.getD k 0)).getD 0 := by
  rcases List.eq_nil_or_concat s with rfl | ⟨t, p, rfl⟩
  · rfl
  · obtain ⟨k, v⟩ := p
    simp [conc, lst_append, lst]

/-- Insertions. -/
theorem inv_insert {m0 m m' : Mem} {l a v : Nat} {s : State} {hs : List Nat} {ys zs : List (Nat × Nat)} (h : Inv m0 l s hs m) (hsp : s.seq = ys ++ zs)
    (hr : Rep m' l (conc hs ys ++ (a, v) :: conc hs zs)) (hf : m.get a = none) (hsame : Same m m' (a :: l :: addrs (conc hs s.seq))) :
    Inv m0 l ⟨ys ++ (s.made, v) :: zs, s.made + 1⟩ (hs ++ [a]) m' := by
  have hold : ∀ t : List (Nat × Nat), (∀ p ∈ t, p.1 < s.made) → conc (hs ++ [a]) t = conc hs t := by
    intro t ht
    refine List.map_congr_left fun p hp => ?_
    have := ht p hp
    rw [← h.len] at this
    simp [List.getD_eq_getElem?_getD, List.getElem?_append_left this]
  have hids : ∀ p ∈ ys ++ zs, p.1 < s.made := by rw [← hsp]; exact h.ids
  have hc : conc (hs ++ [a]) (ys ++ (s.made, v) :: zs) = conc hs ys ++ (a, v) :: conc hs zs := by
    rw [conc_append, hold ys fun p hp => hids p (by simp [hp])]
    congr 1
    show (_ :: conc (hs ++ [a]) zs) = _
    rw [hold zs fun p hp => hids p (by simp [hp])]
    simp [List.getD_eq_getElem?_getD, ← h.len]
  have hmem : ∀ b, b ∈ l :: addrs (conc hs ys ++ (a, v) :: conc hs zs) ↔ b = a ∨ b ∈ l :: addrs (conc hs s.seq) := by
    intro b
    rw [hsp, conc_append]
    simp only [addrs, List.map_append, List.map_cons, List.mem_cons, List.mem_append]
    tauto
  have hna : a ∉ l :: addrs (conc hs s.seq) := fun hm => h.rep.live a hm hf
  refine ⟨by rw [hc]; exact hr, by simp [h.len], ?_, ?_, ?_⟩
  · intro p hp
    simp only [List.mem_append, List.mem_cons] at hp
    rcases hp with hp | rfl | hp
    · have := hids p (by simp [hp]); show _ < s.made + 1; omega
    · show s.made < s.made + 1; omega
    · have := hids p (by simp [hp]); show _ < s.made + 1; omega
  · intro b hb
    rw [hc, hmem] at hb
    rcases hb with rfl | hb
    · rw [← h.frame _ hna]; exact hf
    · exact h.fresh b hb
  · intro b hb
    rw [hc, hmem, not_or] at hb
    rw [hsame b (by rw [List.mem_cons, not_or]; exact hb)]
    exact h.frame b hb.2

/-- Removals. -/
theorem inv_remove {m0 m m' : Mem} {l k u : Nat} {s : State} {hs : List Nat} {ys zs : List (Nat × Nat)} (h : Inv m0 l s hs m)
    (hsp : s.seq = ys ++ (k, u) :: zs) (hr : Rep m' l (conc hs ys ++ conc hs zs)) (hf : m'.get (hs.getD k 0) = none)
    (hsame : Same m m' (l :: addrs (conc hs s.seq))) : Inv m0 l { s with seq := ys ++ zs } hs m' := by
  have hmem : ∀ b, b ∈ l :: addrs (conc hs s.seq) ↔ b = hs.getD k 0 ∨ b ∈ l :: addrs (conc hs (ys ++ zs)) := by
    intro b
    rw [hsp, conc_append, conc_append]
    simp only [conc, addrs, List.map_append, List.map_cons, List.mem_cons, List.mem_append]
    tauto
  refine ⟨by rw [conc_append]; exact hr, h.len, fun p hp => h.ids p ?_, fun a ha => h.fresh a ((hmem a).2 (Or.inr ha)), fun a ha => ?_⟩
  · rw [hsp]
    simp only [List.mem_append, List.mem_cons] at hp ⊢
    tauto
  · by_cases hk : a = hs.getD k 0
    · rw [hk, hf, h.fresh _ ((hmem _).2 (Or.inl rfl))]
    · have : a ∉ l :: addrs (conc hs s.seq) := by rw [hmem]; tauto
      rw [hsame a this, h.frame a this]

theorem does_handle {hs : List Nat} {k : Nat} {m : Mem} {Q : Nat → Mem → Prop} (h : handle hs k = pure (hs.getD k 0)) (q : Q (hs.getD k 0) m) :
    Does (handle hs k) m Q := by
  rw [h]; exact Does.pure q

theorem apply_sim {A : Alloc} (hA : A.Good) {m0 m : Mem} {l : Nat} {s s' : State} {hs : List Nat} (h : Inv m0 l s hs m) (op : Op) {r : Res Nat}
    (hst : Spec.List.step s op = some (r, s')) :
    Does (apply A l hs op) m (fun x m' => Inv m0 l s' x.2 m' ∧ SameRes x.2 r x.1 ∧ hs <+: x.2) := by
  have hr := h.rep
  cases op with
  | append v =>
    simp only [Spec.List.step, Option.some.injEq, Prod.mk.injEq] at hst
    obtain ⟨rfl, rfl⟩ := hst
    refine Does.bind ((append_spec hA hr v).mono fun a m' ⟨g1, g2, g3, g4⟩ => Does.pure ⟨?_, ?_, ⟨[a], rfl⟩⟩)
    · exact inv_insert (ys := s.seq) (zs := []) h (by simp) g1 g2 g4
    · rw [ptr, if_neg g3]; exact .elem (by simp [← h.len]) g3
  | prepend v =>
    simp only [Spec.List.step, Option.some.injEq, Prod.mk.injEq] at hst
    obtain ⟨rfl, rfl⟩ := hst
    refine Does.bind ((prepend_spec hA hr v).mono fun a m' ⟨g1, g2, g3, g4⟩ => Does.pure ⟨?_, ?_, ⟨[a], rfl⟩⟩)
    · exact inv_insert (ys := []) (zs := s.seq) h (by simp) g1 g2 g4
    · rw [ptr, if_neg g3]; exact .elem (by simp [← h.len]) g3
  | insertBefore v k =>
    simp only [Spec.List.step] at hst
    split at hst
    · rename_i hk
      simp only [Option.some.injEq, Prod.mk.injEq] at hst
      obtain ⟨rfl, rfl⟩ := hst
      obtain ⟨ys, u, zs, h1, h2, h3, h4, h5⟩ := h.split hk
      refine Does.bind (does_handle h5 ?_)
      rw [h4] at hr
      refine Does.bind ((insert_before_spec hA hr v).mono fun a m' ⟨g1, g2, g3, g4⟩ => Does.pure ⟨?_, ?_, ⟨[a], rfl⟩⟩)
      · rw [h1, insertBefore_split h2]
        rw [← h4] at g4
        exact inv_insert (ys := ys) (zs := (k, u) :: zs) h h1 g1 g2 g4
      · rw [ptr, if_neg g3]; exact .elem (by simp [← h.len]) g3
    · simp at hst
  | remove k =>
    simp only [Spec.List.step] at hst
    split at hst
    · rename_i hk
      simp only [Option.some.injEq, Prod.mk.injEq] at hst
      obtain ⟨rfl, rfl⟩ := hst
      obtain ⟨ys, u, zs, h1, h2, h3, h4, h5⟩ := h.split hk
      refine Does.bind (does_handle h5 ?_)
      rw [h4] at hr
      refine Does.bind ((remove_spec hr).mono fun a m' ⟨g1, g2, g4⟩ => Does.pure ⟨?_, .nothing, List.prefix_rfl⟩)
      rw [h1, without_split h2 h3]
      rw [← h4] at g4
      exact inv_remove h h1 g1 g2 g4
    · simp at hst
  | popFirst =>
    simp only [Spec.List.step] at hst
    split at hst
    · rename_i he
      simp only [Option.some.injEq, Prod.mk.injEq] at hst
      obtain ⟨rfl, rfl⟩ := hst
      refine Does.bind (Does.bind ((getFirst_spec hr).does (does_pos ?_ (Does.pure (Does.pure ⟨h, .value 0, List.prefix_rfl⟩)))))
      rw [he]; rfl
    · rename_i p ps he
      obtain ⟨k, u⟩ := p
      simp only [Option.some.injEq, Prod.mk.injEq] at hst
      obtain ⟨rfl, rfl⟩ := hst
      obtain ⟨ys, u', zs, h1, h2, h3, h4, h5⟩ := h.split (k := k) (by rw [he]; simp)
      have hcons : conc hs s.seq = [] ++ (hs.getD k 0, u) :: conc hs ps := by rw [he]; rfl
      have hr' := hr
      rw [hcons] at hr'
      refine Does.bind (Does.bind ((getFirst_spec hr).does ?_))
      rw [hcons]
      refine does_neg hr'.cell.1 (Does.bind ((getValue_spec hr').does (Does.bind ((remove_spec hr').mono fun _ m' ⟨g1, g2, g4⟩ => ?_))))
      refine Does.pure (Does.pure ⟨?_, .value u, List.prefix_rfl⟩)
      rw [← hcons] at g4
      exact inv_remove (ys := []) h he g1 g2 g4
  | popLast =>
    simp only [Spec.List.step] at hst
    split at hst
    · rename_i he
      simp only [Option.some.injEq, Prod.mk.injEq] at hst
      obtain ⟨rfl, rfl⟩ := hst
      refine Does.bind (Does.bind ((getLast_spec hr).does (does_pos ?_ (Does.pure (Does.pure ⟨h, .value 0, List.prefix_rfl⟩)))))
      rw [lst_conc, he]; rfl
    · rename_i p he
      obtain ⟨k, u⟩ := p
      simp only [Option.some.injEq, Prod.mk.injEq] at hst
      obtain ⟨rfl, rfl⟩ := hst
      have hsp : s.seq = s.seq.dropLast ++ [(k, u)] := by
        rcases List.eq_nil_or_concat s.seq with e | ⟨t, q, e⟩
        · rw [e] at he; simp at he
        · rw [e] at he ⊢; simp at he; subst he; simp
      have hcons : conc hs s.seq = conc hs s.seq.dropLast ++ (hs.getD k 0, u) :: [] := by
        conv_lhs => rw [hsp, conc_append]
        rfl
      have hr' := hr
      rw [hcons] at hr'
      refine Does.bind (Does.bind ((getLast_spec hr).does ?_))
      have hlast : lst (conc hs s.seq) 0 = hs.getD k 0 := by rw [hcons, lst_append]; rfl
      rw [hlast]
      refine does_neg hr'.cell.1 (Does.bind ((getValue_spec hr').does (Does.bind ((remove_spec hr').mono fun _ m' ⟨g1, g2, g4⟩ => ?_))))
      refine Does.pure (Does.pure ⟨?_, .value u, List.prefix_rfl⟩)
      rw [← hcons] at g4
      have := inv_remove (zs := []) h hsp g1 g2 g4
      rwa [List.append_nil] at this
  | first =>
    simp only [Spec.List.step, Option.some.injEq, Prod.mk.injEq] at hst
    obtain ⟨rfl, rfl⟩ := hst
    refine Does.bind ((getFirst_spec hr).does (Does.pure ⟨h, ?_, List.prefix_rfl⟩))
    rw [hd_conc]
    refine same_elem h fun k hk => ?_
    rw [Option.map_eq_some_iff] at hk
    obtain ⟨p, hp, rfl⟩ := hk
    exact List.mem_map_of_mem (List.mem_of_mem_head? hp)
  | last =>
    simp only [Spec.List.step, Option.some.injEq, Prod.mk.injEq] at hst
    obtain ⟨rfl, rfl⟩ := hst
    refine Does.bind ((getLast_spec hr).does (Does.pure ⟨h, ?_, List.prefix_rfl⟩))
    rw [lst_conc]
    refine same_elem h fun k hk => ?_
    rw [Option.map_eq_some_iff] at hk
    obtain ⟨p, hp, rfl⟩ := hk
    exact List.mem_map_of_mem (List.mem_of_mem_getLast? hp)
  | next k =>
    simp only [Spec.List.step] at hst
    split at hst
    · rename_i hk
      simp only [Option.some.injEq, Prod.mk.injEq] at hst
      obtain ⟨rfl, rfl⟩ := hst
      obtain ⟨ys, u, zs, h1, h2, h3, h4, h5⟩ := h.split hk
      refine Does.bind (does_handle h5 ?_)
      rw [h4] at hr
      refine Does.bind ((next_spec hr).does (Does.pure ⟨h, ?_, List.prefix_rfl⟩))
      rw [hd_conc, h1, after_split h2]
      refine same_elem h fun j hj => ?_
      rw [Option.map_eq_some_iff] at hj
      obtain ⟨p, hp, rfl⟩ := hj
      refine List.mem_map_of_mem ?_
      rw [h1]
      have := List.mem_of_mem_head? hp
      simp [this]
    · simp at hst
  | previous k =>
    simp only [Spec.List.step] at hst
    split at hst
    · rename_i hk
      simp only [Option.some.injEq, Prod.mk.injEq] at hst
      obtain ⟨rfl, rfl⟩ := hst
      obtain ⟨ys, u, zs, h1, h2, h3, h4, h5⟩ := h.split hk
      refine Does.bind (does_handle h5 ?_)
      rw [h4] at hr
      refine Does.bind ((previous_spec hr).does (Does.pure ⟨h, ?_, List.prefix_rfl⟩))
      have hrev : s.seq.reverse = zs.reverse ++ (k, u) :: ys.reverse := by rw [h1]; simp
      rw [lst_conc, hrev, after_split (by simpa using h3), List.head?_reverse]
      refine same_elem h fun j hj => ?_
      rw [Option.map_eq_some_iff] at hj
      obtain ⟨p, hp, rfl⟩ := hj
      refine List.mem_map_of_mem ?_
      rw [h1]
      have := List.mem_of_mem_getLast? hp
      simp [this]
    · simp at hst
  | value k =>
    simp only [Spec.List.step] at hst
    split at hst
    · rename_i p hp
      simp only [Option.some.injEq, Prod.mk.injEq] at hst
      obtain ⟨rfl, rfl⟩ := hst
      have hpk : p.1 = k := by simpa using List.find?_some hp
      obtain ⟨ys, u, zs, h1, h2, h3, h4, h5⟩ := h.split (k := k) (by rw [← hpk]; exact List.mem_map_of_mem (List.mem_of_find?_eq_some hp))
      have hu : p.2 = u := by
        have hfind : (ys ++ (k, u) :: zs).find? (fun p => p.1 == k) = some (k, u) := by
          rw [List.find?_append, List.find?_eq_none.2 (fun q hq => ?_)]
          · simp
          · intro e
            have : q.1 = k := by simpa using e
            rw [← this] at h2; exact h2 (List.mem_map_of_mem hq)
        rw [h1, hfind] at hp
        simp only [Option.some.injEq] at hp
        rw [← hp]
      refine Does.bind (does_handle h5 ?_)
      rw [h4] at hr
      refine Does.bind ((getValue_spec hr).does (Does.pure ⟨h, ?_, List.prefix_rfl⟩))
      rw [hu]; exact .value u
    · simp at hst
  | get v =>
    simp only [Spec.List.step, Option.some.injEq, Prod.mk.injEq] at hst
    obtain ⟨rfl, rfl⟩ := hst
    refine Does.bind (Does.bind (does_readL hr.nonnull hr.header ((getLoop_spec v _ hr.seg).does (Does.pure ⟨h, ?_, List.prefix_rfl⟩))))
    have : ((conc hs s.seq).find? (fun x => x.2 = v)).map (·.1) = ((s.seq.find? (fun p => p.2 == v)).map (·.1)).map (fun k => hs.getD k 0) := by
      rw [conc, List.find?_map, Option.map_map, Option.map_map]
      rfl
    rw [this]
    refine same_elem h fun k hk => ?_
    rw [Option.map_eq_some_iff] at hk
    obtain ⟨p, hp, rfl⟩ := hk
    exact List.mem_map_of_mem (List.mem_of_find?_eq_some hp)
  | getByIndex i =>
    simp only [Spec.List.step] at hst
    split at hst
    · rename_i hi
      simp only [Option.some.injEq, Prod.mk.injEq] at hst
      obtain ⟨rfl, rfl⟩ := hst
      have key := getByIndexLoop_spec i (conc hs s.seq) (m := m) (p := 0) 0 hr.seg (by rw [conc_length]; have h1 := hi.1; have h2 := hi.2; push_cast; omega)
      refine Does.bind (Does.bind (does_readL hr.nonnull hr.header (key.does (Does.pure ⟨h, ?_, List.prefix_rfl⟩))))
      have : (if i < ((0 : Nat) : Int) then 0 else (((conc hs s.seq)[(i - ((0 : Nat) : Int)).toNat]?).map (·.1)).getD 0) =
          ((if i < 0 then none else (s.seq[i.toNat]?).map (·.1) : Option Nat).map (fun k => hs.getD k 0)).getD 0 := by
        by_cases hneg : i < 0
        · rw [if_pos (by simpa using hneg), if_pos hneg]; rfl
        · rw [if_neg (by simpa using hneg), if_neg hneg]
          simp only [conc, List.getElem?_map, Option.map_map, Int.natCast_zero, Int.sub_zero]
          rfl
      rw [this]
      refine same_elem h fun k hk => ?_
      split at hk
      · simp at hk
      · rw [Option.map_eq_some_iff] at hk
        obtain ⟨p, hp, rfl⟩ := hk
        exact List.mem_map_of_mem (List.mem_of_getElem? hp)
    · simp at hst
  | size =>
    simp only [Spec.List.step] at hst
    split at hst
    · rename_i hlt
      simp only [Option.some.injEq, Prod.mk.injEq] at hst
      obtain ⟨rfl, rfl⟩ := hst
      refine Does.bind ((size_spec hr).does (Does.pure ⟨h, ?_, List.prefix_rfl⟩))
      rw [conc_length, Nat.mod_eq_of_lt hlt]
      exact .size _
    · simp at hst
  | empty =>
    simp only [Spec.List.step, Option.some.injEq, Prod.mk.injEq] at hst
    obtain ⟨rfl, rfl⟩ := hst
    refine Does.bind ((empty_spec hr).does (Does.pure ⟨h, ?_, List.prefix_rfl⟩))
    have : decide (conc hs s.seq = []) = s.seq.isEmpty := by
      cases hs' : s.seq <;> simp [conc]
    rw [this]; exact .empty _

theorem runOps_sim {A : Alloc} (hA : A.Good) {m0 : Mem} {l : Nat} (ops : List Op) : ∀ {m : Mem} {s s' : State} {hs : List Nat} {rs : List (Res Nat)},
    Inv m0 l s hs m → Spec.List.run s ops = some (rs, s') →
    Does (runOps A l hs ops) m (fun x m' => Inv m0 l s' x.2 m' ∧ List.Forall₂ (SameRes x.2) rs x.1 ∧ hs <+: x.2) := by
  induction ops with
  | nil =>
    intro m s s' hs rs h hst
    simp only [Spec.List.run, Option.some.injEq, Prod.mk.injEq] at hst
    obtain ⟨rfl, rfl⟩ := hst
    exact Does.pure ⟨h, .nil, List.prefix_rfl⟩
  | cons op ops ih =>
    intro m s s' hs rs h hst
    simp only [Spec.List.run] at hst
    split at hst
    · simp at hst
    · rename_i r s1 h1
      split at hst
      · simp at hst
      · rename_i rs' s2 h2
        simp only [Option.some.injEq, Prod.mk.injEq] at hst
        obtain ⟨rfl, rfl⟩ := hst
        refine Does.bind ((apply_sim hA h op h1).mono fun x m1 ⟨g1, g2, g3⟩ => ?_)
        refine Does.bind ((ih g1 h2).mono fun y m2 ⟨k1, k2, k3⟩ => Does.pure ⟨k1, .cons (g2.mono k3) k2, g3.trans k3⟩)

theorem inv_init {m0 m : Mem} {l : Nat} (h : Rep m l []) (hf : m0.get l = none) (hs : Same m0 m [l]) : Inv m0 l Spec.List.init [] m :=
  ⟨h, rfl, by simp [Spec.List.init], by simpa [conc, Spec.List.init] using hf, fun a ha => hs a (by simpa [conc, Spec.List.init] using ha)⟩

end Verif.CList
