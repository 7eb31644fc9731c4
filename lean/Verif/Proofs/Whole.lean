import Verif.Spec.Whole
import Verif.Proofs.AvlSim
import Verif.Proofs.ListPtr
import Verif.Proofs.ObjectsSim
import Verif.Proofs.Strings
import Verif.Props.HashTable

/-! Parts of the library side by side in one memory. -/

namespace Verif.Whole
open Spec.Whole (Api Kind Prog World Legal Runs Table TableOp)
set_option autoImplicit false

/-! ### Any parts -/

/-- Memory still holds what `m0` holds. -/
def Ext (m0 m : Mem) : Prop := ∀ a, m0.get a ≠ none → m.get a = m0.get a

/-- The blocks that are in `m` but not in `base`. -/
def Own (base m : Mem) (a : Nat) : Prop := base.get a = none ∧ m.get a ≠ none

/-- The calls of a part in the model. `Loc` is what the program remembers between the calls besides their results. -/
structure Code (I : Api) where
  Loc : Type
  init : Loc
  call : Loc → I.Op → M (I.Res × Loc)

/-- How a part lies in memory: `Inv base s l m` says that `m` holds the state `s` in blocks of its own, and is like `base` elsewhere. -/
structure Impl (m0 : Mem) {I : Api} (C : Code I) where
  Inv : Mem → I.St → C.Loc → Mem → Prop
  start : ∀ m, Inv m I.start C.init m
  sim : ∀ {base s l m op}, Ext m0 base → Inv base s l m → I.ok s op →
    Does (C.call l op) m (fun x m' => ∃ s', I.Step s op x.1 s' ∧ Inv base s' x.2 m')
  frame : ∀ {base s l m}, Inv base s l m → Ext base m
  move : ∀ {base s l m base' m'}, Inv base s l m → (∀ a, Own base m a → base'.get a = none ∧ m'.get a = m.get a) →
    (∀ a, ¬ Own base m a → m'.get a = base'.get a) → Inv base' s l m'
  gone : ∀ {base s l m}, Inv base s l m → I.gone s → ∀ a, ¬ Own base m a
  holds : ∀ {base s l m a}, Inv base s l m → I.holds s a → Own base m a
  blocks : ∀ {base s l m} {own : Finset Nat}, Inv base s l m → (∀ a, a ∈ own ↔ Own base m a) → I.size s own.card

/-- Memory without some blocks. -/
noncomputable def without (P : Nat → Prop) (m : Mem) : Mem := by
  classical exact m.filter fun p => ¬ P p.1

theorem get_without_neg {P : Nat → Prop} {m : Mem} {a : Nat} (h : ¬ P a) : (without P m).get a = m.get a := by
  classical
  unfold without Mem.get
  congr 1
  induction m with
  | nil => rfl
  | cons p m ih =>
    by_cases hp : p.1 = a
    · rw [List.filter_cons_of_pos (by simpa [hp] using h), List.find?_cons_of_pos (by simpa using hp), List.find?_cons_of_pos (by simpa using hp)]
    · rw [List.find?_cons_of_neg (p := fun p : Nat × Cell => p.1 == a) (a := p) (l := m) (by simpa using hp), ← ih, List.filter_cons]
      split
      · rw [List.find?_cons_of_neg (by simpa using hp)]
      · rfl

theorem get_without_pos {P : Nat → Prop} {m : Mem} {a : Nat} (h : P a) : (without P m).get a = none := by
  classical
  unfold without Mem.get
  rw [Option.map_eq_none_iff, List.find?_eq_none]
  intro p hp e
  have : p.1 = a := by simpa using e
  simp only [List.mem_filter, decide_not, Bool.not_eq_true', decide_eq_false_iff_not] at hp
  exact hp.2 (this ▸ h)

section
variable {m0 : Mem} {ι : Type} [DecidableEq ι] {I : ι → Api} (C : (i : ι) → Code (I i))

/-- What the program remembers of all parts. -/
abbrev Locs := (i : ι) → (C i).Loc

/-- A program on all parts, with the results of its calls. -/
def exec : Prog I → Locs C → M (List ((i : ι) × (I i).Res) × Locs C)
  | .done, l => pure ([], l)
  | .call i op next, l => do
    let x ← (C i).call (l i) op
    let y ← exec (next x.1) (Function.update l i x.2)
    pure (⟨i, x.1⟩ :: y.1, y.2)

variable {C} (L : (i : ι) → Impl m0 (C i))

/-- All parts are in memory, apart from each other and from what was in `m0`; all other memory is as in `m0`. -/
structure WInv (base : ι → Mem) (s : World I) (l : Locs C) (m : Mem) : Prop where
  each : ∀ i, (L i).Inv (base i) (s i) (l i) m
  disj : ∀ i j, i ≠ j → ∀ a, Own (base i) m a → ¬ Own (base j) m a
  fresh : ∀ i a, Own (base i) m a → m0.get a = none
  frame : ∀ a, (∀ i, ¬ Own (base i) m a) → m.get a = m0.get a

variable {L} {base : ι → Mem} {s : World I} {l : Locs C} {m m' : Mem}

/-- A block that is not a part's own is seen by the part as it is. -/
theorem WInv.seen (h : WInv L base s l m) {i : ι} {a : Nat} (ha : ¬ Own (base i) m a) (hm : m.get a ≠ none) : (base i).get a = m.get a := by
  by_cases hb : (base i).get a = none
  · exact absurd ⟨hb, hm⟩ ha
  · exact ((L i).frame (h.each i) a hb).symm

theorem WInv.ext (h : WInv L base s l m) (i : ι) : Ext m0 (base i) := by
  intro a ha
  have hn : ∀ j, ¬ Own (base j) m a := fun j hj => ha (h.fresh j a hj)
  have hm := h.frame a hn
  rw [← hm] at ha ⊢
  exact h.seen (hn i) ha

theorem WInv.step (h : WInv L base s l m) (i : ι) {t : (I i).St} {x : (C i).Loc} (ht : (L i).Inv (base i) t x m') :
    ∃ base', WInv L base' (Function.update s i t) (Function.update l i x) m' := by
  have hkeep : ∀ j, j ≠ i → ∀ a, Own (base j) m a → (base i).get a ≠ none ∧ m'.get a = m.get a := by
    intro j hj a ha
    have hb := h.seen (h.disj j i hj a ha) ha.2
    have hb' : (base i).get a ≠ none := by rw [hb]; exact ha.2
    exact ⟨hb', by rw [(L i).frame ht a hb', hb]⟩
  have hext := h.ext i
  let base' : ι → Mem := fun j => if j = i then base i else without (Own (base j) m) m'
  have hbi : base' i = base i := if_pos rfl
  have hbj : ∀ j, j ≠ i → base' j = without (Own (base j) m) m' := fun j hj => if_neg hj
  have hown : ∀ j, j ≠ i → ∀ a, Own (base' j) m' a ↔ Own (base j) m a := by
    intro j hj a
    rw [hbj j hj]
    constructor
    · intro ha
      by_contra hn
      have := ha.1
      rw [get_without_neg hn] at this
      exact ha.2 this
    · intro ha
      exact ⟨get_without_pos ha, by rw [(hkeep j hj a ha).2]; exact ha.2⟩
  refine ⟨base', ⟨?_, ?_, ?_, ?_⟩⟩
  · intro j
    by_cases hj : j = i
    · subst hj
      rw [hbi, Function.update_self, Function.update_self]
      exact ht
    · rw [hbj j hj, Function.update_of_ne hj, Function.update_of_ne hj]
      refine (L j).move (h.each j) (fun a ha => ⟨get_without_pos ha, (hkeep j hj a ha).2⟩) (fun a ha => (get_without_neg ha).symm)
  · intro j k hjk a hj hk
    by_cases e1 : j = i
    · subst e1
      have e2 : k ≠ j := Ne.symm hjk
      rw [hown k e2] at hk
      rw [hbi] at hj
      exact (hkeep k e2 a hk).1 hj.1
    · rw [hown j e1] at hj
      by_cases e2 : k = i
      · subst e2
        rw [hbi] at hk
        exact (hkeep j e1 a hj).1 hk.1
      · rw [hown k e2] at hk
        exact h.disj j k hjk a hj hk
  · intro j a hj
    by_cases e1 : j = i
    · subst e1
      rw [hbi] at hj
      by_contra hn
      have := hext a hn
      rw [hj.1] at this
      exact hn this.symm
    · rw [hown j e1] at hj
      exact h.fresh j a hj
  · intro a ha
    have hi := ha i
    rw [hbi] at hi
    by_cases hb : (base i).get a = none
    · have hm' : m'.get a = none := by
        by_contra hn
        exact hi ⟨hb, hn⟩
      rw [hm']
      by_contra hn
      have := hext a fun e => hn e.symm
      rw [hb] at this
      exact hn this
    · rw [(L i).frame ht a hb, ← (L i).frame (h.each i) a hb]
      refine h.frame a fun j hj => ?_
      by_cases e1 : j = i
      · subst e1; exact hb hj.1
      · exact ha j ((hown j e1 a).2 hj)

theorem exec_sim (p : Prog I) : ∀ {base : ι → Mem} {s : World I} {l : Locs C} {m : Mem}, WInv L base s l m → Legal p s →
    Does (exec C p l) m (fun x m' => ∃ s' base', Runs p s x.1 s' ∧ WInv L base' s' x.2 m') := by
  induction p with
  | done => intro base s l m h _; exact Does.pure ⟨s, base, .done, h⟩
  | call i op next ih =>
    rintro base s l m h ⟨ho, hl⟩
    refine Does.bind (((L i).sim (h.ext i) (h.each i) ho).mono fun x m1 ⟨t, h1, h2⟩ => ?_)
    obtain ⟨base', h3⟩ := h.step i h2
    refine Does.bind ((ih x.1 h3 (hl _ _ h1)).mono fun y m2 ⟨s', base'', h4, h5⟩ => ?_)
    exact Does.pure ⟨s', base'', .call h1 h4, h5⟩

variable (L) in
omit [DecidableEq ι] in
theorem start_inv : WInv L (fun _ => m0) (fun i => (I i).start) (fun i => (C i).init) m0 :=
  ⟨fun i => (L i).start m0, fun _ _ _ _ h => absurd h.1 h.2, fun _ _ h => h.1, fun _ _ => rfl⟩

end

/-! ### The parts of the library -/

variable [Ptrs] {A : Alloc} {m0 : Mem} {F : Funs}

omit [Ptrs] in
/-- Nothing of a part's own: memory is as in `base`. -/
theorem own_iff {base m : Mem} {own : List Nat} (live : ∀ a ∈ own, m.get a ≠ none) (fresh : ∀ a ∈ own, base.get a = none)
    (frame : ∀ a, a ∉ own → m.get a = base.get a) (a : Nat) : Own base m a ↔ a ∈ own := by
  constructor
  · intro h
    by_contra hn
    exact h.2 (by rw [frame a hn]; exact h.1)
  · intro h; exact ⟨fresh a h, live a h⟩

omit [Ptrs] in
theorem own_ext {base m : Mem} {own : List Nat} (fresh : ∀ a ∈ own, base.get a = none) (frame : ∀ a, a ∉ own → m.get a = base.get a) : Ext base m :=
  fun a ha => frame a fun h => ha (fresh a h)

omit [Ptrs] in
theorem card_own {own : Finset Nat} {l : List Nat} (nd : l.Nodup) (h : ∀ a, a ∈ own ↔ a ∈ l) : own.card = l.length := by
  rw [← List.toFinset_card_of_nodup nd]
  congr 1
  ext a
  rw [h a, List.mem_toFinset]

theorem wmem_own {cmp : Nat → Nat → Int} {base m : Mem} {ws : List (Nat × Avl.T)} {det : List Spec.Avl.Item} (h : Avl.WMem cmp base ws det m) (a : Nat) :
    Own base m a ↔ a ∈ Avl.owned ws det := own_iff (fun _ => h.live) h.fresh h.frame a

/-- AVL trees. -/
def treesCode (A : Alloc) (F : Funs) (f o : Nat) : Code (Spec.Whole.trees (F.cmp f o)) where
  Loc := Unit
  init := ()
  call _ op := do pure (← Avl.call A F f o op, ())

def treesImpl (hA : A.Good) (m0 : Mem) (F : Funs) : Impl m0 (treesCode A F Ptrs.cmp Ptrs.obj) where
  Inv base s _ m := Avl.WInv (F.cmp Ptrs.cmp Ptrs.obj) base s m
  start m := ⟨[], [], ⟨by simp, by simp, by simp [Avl.owned], by simp [Avl.owned], by simp⟩, rfl⟩
  sim _ h ho := Does.bind ((Avl.call_sim hA h ho).mono fun _ _ ⟨s', h1, h2⟩ => Does.pure ⟨s', h1, h2⟩)
  frame := by
    rintro base s l m ⟨ws, det, h, -⟩
    exact own_ext h.fresh h.frame
  move := by
    rintro base s l m base' m' ⟨ws, det, h, rfl⟩ h1 h2
    have e := wmem_own h
    refine ⟨ws, det, ⟨fun w hw => (h.good w hw).frame fun a ha => (h1 a ((e a).2 (Avl.mem_owned.2 (Or.inl ⟨w, hw, ha⟩)))).2, fun i hi => ?_, h.nd,
      fun a ha => (h1 a ((e a).2 ha)).1, fun a ha => h2 a fun h' => ha ((e a).1 h')⟩, rfl⟩
    obtain ⟨h0, q, l, r, b, hq⟩ := h.loose i hi
    exact ⟨h0, q, l, r, b, by rw [(h1 _ ((e _).2 (Avl.mem_owned.2 (Or.inr ⟨i, hi, rfl⟩)))).2]; exact hq⟩
  gone := by
    rintro base s l m ⟨ws, det, h, rfl⟩ ⟨h1, h2⟩ a ha
    simp only [Multiset.coe_eq_zero, List.map_eq_nil_iff] at h1 h2
    subst h1; subst h2
    rw [wmem_own h] at ha
    simp [Avl.owned] at ha
  holds := by
    rintro base s l m a ⟨ws, det, h, rfl⟩ ha
    rw [wmem_own h, Avl.mem_owned]
    rcases ha with ⟨x, hx, ha⟩ | ⟨i, hi, ha⟩
    · simp only [Multiset.mem_coe, List.mem_map] at hx
      obtain ⟨w, hw, rfl⟩ := hx
      refine Or.inl ⟨w, hw, ?_⟩
      rcases ha with ha | ⟨i, hi, ha⟩
      · simp [Avl.foot, ← ha, Avl.view]
      · have : i ∈ w.2.items := hi
        simp only [Avl.foot, List.mem_cons, List.mem_append]
        subst ha
        simp [Avl.T.addrs]
        exact Or.inr ⟨i, this, rfl⟩
    · exact Or.inr ⟨i, by simpa using hi, ha⟩
  blocks := by
    rintro base s l m own ⟨ws, det, h, rfl⟩ ho
    have e := card_own h.nd (fun a => (ho a).trans (wmem_own h a))
    have : (Avl.owned ws det).length = (ws.map fun w => 1 + w.2.items.length).sum + det.length := by
      simp only [Avl.owned, List.length_append, List.length_map, List.length_flatMap, Avl.foot, Avl.caddrs, List.append_nil, List.length_cons, Avl.T.addrs]
      congr 3
      funext w; omega
    rw [e, this]
    simp [Spec.Whole.trees, Avl.view, Function.comp_def]

omit [Ptrs] in
theorem pmem_own {base m : Mem} {ws : List (Nat × List (Nat × Nat))} (h : CList.PMem base ws m) (a : Nat) : Own base m a ↔ a ∈ CList.owned ws :=
  own_iff (fun _ => h.live) h.fresh h.frame a

/-- Lists. -/
def listsCode (A : Alloc) : Code Spec.Whole.lists where
  Loc := Unit
  init := ()
  call _ op := do pure (← CList.callPtr A op, ())

def listsImpl (hA : A.Good) (m0 : Mem) : Impl m0 (listsCode A) where
  Inv base s _ m := CList.PInv base s m
  start m := ⟨[], ⟨by simp, by simp [CList.owned], by simp [CList.owned], by simp⟩, rfl⟩
  sim _ h ho := Does.bind ((CList.callPtr_sim hA h ho).mono fun _ _ ⟨s', h1, h2⟩ => Does.pure ⟨s', h1, h2⟩)
  frame := by
    rintro base s l m ⟨ws, h, -⟩
    exact own_ext h.fresh h.frame
  move := by
    rintro base s l m base' m' ⟨ws, h, rfl⟩ h1 h2
    have e := pmem_own h
    exact ⟨ws, ⟨fun w hw => (h.rep w hw).congr fun a ha => (h1 a ((e a).2 (CList.mem_owned.2 ⟨w, hw, ha⟩))).2, h.nd,
      fun a ha => (h1 a ((e a).2 ha)).1, fun a ha => h2 a fun h' => ha ((e a).1 h')⟩, rfl⟩
  gone := by
    rintro base s l m ⟨ws, h, rfl⟩ h1 a ha
    obtain rfl : ws = [] := (Multiset.coe_eq_zero ws).1 h1
    rw [pmem_own h] at ha
    simp [CList.owned] at ha
  holds := by
    rintro base s l m a ⟨ws, h, rfl⟩ ⟨x, hx, ha⟩
    rw [pmem_own h, CList.mem_owned]
    refine ⟨x, by simpa using hx, ?_⟩
    rcases ha with ha | ⟨p, hp, ha⟩
    · simp [← ha]
    · exact List.mem_cons_of_mem _ (List.mem_map.2 ⟨p, hp, ha⟩)
  blocks := by
    rintro base s l m own ⟨ws, h, rfl⟩ ho
    have e := card_own h.nd (fun a => (ho a).trans (pmem_own h a))
    have : (CList.owned ws).length = (ws.map fun w => 1 + w.2.length).sum := by
      simp only [CList.owned, List.length_flatMap, CList.addrs, List.length_cons, List.length_map]
      congr 2
      funext w; omega
    rw [e, this]
    simp [Spec.Whole.lists]

/-! ### Hash tables -/

open Hash (HInv HMem)

/-- Only loose elements. -/
structure DMem (base : Mem) (det : List Spec.Hash.Item) (m : Mem) : Prop where
  live : ∀ d ∈ det, d.elem ≠ 0 ∧ ∃ x y z, m.get d.elem = some (.helem ⟨d.key, d.value, x, y, z⟩)
  nd : (det.map (·.elem)).Nodup
  fresh : ∀ a ∈ det.map (·.elem), base.get a = none
  frame : ∀ a, a ∉ det.map (·.elem) → m.get a = base.get a

/-- A table with its loose elements, or the loose elements alone. -/
def TInv (hash : Nat → Nat) (base : Mem) (s : Table) (t : Nat) (m : Mem) : Prop := match s.items with
  | some items => HInv hash base t s.buckets ⟨items, s.loose⟩ m
  | none => ∃ det : List Spec.Hash.Item, DMem base det m ∧ s.loose = ↑det

/-- The calls around a table; the pointer to the table is kept. -/
def tableCall (A : Alloc) (F : Funs) (h c : Nat) (t : Nat) : TableOp → M (Spec.Hash.Res × Nat)
  | .make n => do pure (.unit, ← Hash.make A n h c)
  | .destroy => do Hash.destroy t; pure (.unit, t)
  | .on op => do pure (← Hash.call A F t op, t)

variable {hash : Nat → Nat} {cmp : Nat → Nat → Int} {base m : Mem} {det : List Spec.Hash.Item}

omit [Ptrs] in
theorem DMem.liveAll (h : DMem base det m) : ∀ a ∈ det.map (·.elem), m.get a ≠ none := by
  intro a ha
  obtain ⟨d, hd, rfl⟩ := List.mem_map.1 ha
  obtain ⟨-, x, y, z, e⟩ := h.live d hd
  rw [e]; simp

/-- Loose elements beside a new table. -/
theorem DMem.add (h : DMem base det m) {t cap : Nat} {m1 : Mem} (h1 : HInv hash m t cap ⟨0, 0⟩ m1) : HInv hash base t cap ⟨0, ↑det⟩ m1 := by
  obtain ⟨hc, tb, bs, d0, hm, e1, e2⟩ := h1
  have e2 : (0 : Multiset Spec.Hash.Item) = ↑d0 := e2
  obtain rfl : d0 = [] := (Multiset.coe_eq_zero _).1 e2.symm
  have hnot : ∀ a ∈ det.map (·.elem), a ∉ Hash.owned t tb bs [] := fun a ha ho => h.liveAll a ha (hm.fresh a ho)
  have hown : ∀ a, a ∈ Hash.owned t tb bs det ↔ a ∈ Hash.owned t tb bs [] ∨ a ∈ det.map (·.elem) := by
    intro a; simp only [Hash.owned]; simp only [List.map_nil, List.append_nil, List.mem_append]
  refine ⟨hc, tb, bs, det, ⟨hm.t0, hm.tb0, hm.len, hm.pos, hm.head, hm.arr, hm.bk, hm.dj, ?_, h.nd, ?_, ?_, ?_⟩, e1, rfl⟩
  · intro d hd
    obtain ⟨h0, x, y, z, e⟩ := h.live d hd
    exact ⟨h0, x, y, z, by rw [hm.frame _ (hnot _ (List.mem_map.2 ⟨d, hd, rfl⟩))]; exact e⟩
  · intro d hd i b hb hd'
    exact hnot _ (List.mem_map.2 ⟨d, hd, rfl⟩) (Hash.mem_owned.2 (Or.inr (Or.inr (Or.inl ⟨i, b, hb, hd'⟩))))
  · intro a ha
    rcases (hown a).1 ha with ha | ha
    · have := hm.fresh a ha
      rw [← h.frame a fun h' => h.liveAll a h' this]; exact this
    · exact h.fresh a ha
  · intro a ha
    rw [hown, not_or] at ha
    rw [hm.frame a ha.1, h.frame a ha.2]

omit [Ptrs] in
theorem capacity_le (n : Nat) : Hash.capacity n ≤ max 53 (3 * n) := by
  obtain ⟨h1, h2, h3, h4⟩ := Hash.hash_capacity n
  have key : ∀ g ∈ Hash.GOOD_SIZES, g ≤ 53 ∨ ∃ g' ∈ Hash.GOOD_SIZES, g' ≠ 0 ∧ g' < g ∧ g ≤ 3 * g' := by decide +kernel
  rcases key _ h2 with h | ⟨g, hg, hg0, hlt, hle⟩
  · omega
  · have : ¬ n ≤ g := fun hn => by have := h4 g hg hg0 hn; omega
    omega

/-- The blocks of a table are all different. -/
theorem owned_nodup {t tb cap sz : Nat} {bs : List Hash.Bucket} (h : HMem hash base t tb cap sz bs det m) : (Hash.owned t tb bs det).Nodup := by
  have kind : ∀ a ∈ bs.flatMap Hash.bfoot, (∃ l, m.get a = some (.list l)) ∨ (∃ e, m.get a = some (.lelem e)) ∨ ∃ e, m.get a = some (.helem e) := by
    intro a ha
    obtain ⟨b, hb, ha⟩ := List.mem_flatMap.1 ha
    obtain ⟨i, hi⟩ := List.mem_iff_getElem?.1 hb
    exact (h.bk i b hi).kind ha
  have dkind : ∀ a ∈ det.map (·.elem), ∃ e, m.get a = some (.helem e) := by
    intro a ha
    obtain ⟨d, hd, rfl⟩ := List.mem_map.1 ha
    obtain ⟨-, x, y, z, e⟩ := h.dt d hd
    exact ⟨_, e⟩
  have hh := h.head
  have hr := h.arr
  simp only [Hash.owned, List.cons_append, List.nodup_cons, List.mem_cons, List.mem_append, not_or]
  refine ⟨⟨?_, ?_, ?_⟩, ⟨?_, ?_⟩, ?_⟩
  · rintro rfl; rw [hh] at hr; cases hr
  · intro ha
    rcases kind _ ha with ⟨x, e⟩ | ⟨x, e⟩ | ⟨x, e⟩ <;> · rw [hh] at e; cases e
  · intro ha
    obtain ⟨x, e⟩ := dkind _ ha
    rw [hh] at e; cases e
  · intro ha
    rcases kind _ ha with ⟨x, e⟩ | ⟨x, e⟩ | ⟨x, e⟩ <;> · rw [hr] at e; cases e
  · intro ha
    obtain ⟨x, e⟩ := dkind _ ha
    rw [hr] at e; cases e
  · rw [List.nodup_append']
    refine ⟨?_, h.dn, fun a ha hd => ?_⟩
    · rw [List.nodup_flatMap]
      constructor
      · intro b hb
        obtain ⟨i, hi⟩ := List.mem_iff_getElem?.1 hb
        have hb := h.bk i b hi
        unfold Hash.bfoot
        split
        · exact List.nodup_nil
        rename_i h0
        have hr := hb.list h0
        have hle := hr.nodup
        rw [Hash.addrs_pair] at hle
        have he : ∀ a ∈ b.2.map Hash.Ent.he, ∃ e, m.get a = some (.helem e) := by
          intro a ha
          obtain ⟨e, he, rfl⟩ := List.mem_map.1 ha
          exact ⟨_, (hb.elem e he).2.1⟩
        have hl : ∀ a ∈ b.2.map Hash.Ent.le, ∃ e, m.get a = some (.lelem e) := by
          intro a ha
          rw [← Hash.addrs_pair] at ha
          exact (CList.seg_live hr.seg a ha).2
        have hhd := hr.header
        rw [List.cons_append, List.nodup_cons, List.mem_append, not_or, List.nodup_append']
        refine ⟨⟨fun ha => ?_, fun ha => ?_⟩, hle, hb.nodup, fun a ha ha' => ?_⟩
        · obtain ⟨x, e⟩ := hl _ ha; rw [hhd] at e; cases e
        · obtain ⟨x, e⟩ := he _ ha; rw [hhd] at e; cases e
        · obtain ⟨x, e⟩ := hl _ ha; obtain ⟨y, e'⟩ := he _ ha'; rw [e] at e'; cases e'
      · rw [List.pairwise_iff_getElem]
        intro i j hi hj hij a ha ha'
        exact h.dj i j _ _ (by omega) (List.getElem?_eq_getElem hi) (List.getElem?_eq_getElem hj) a ha ha'
    · obtain ⟨b, hb, ha⟩ := List.mem_flatMap.1 ha
      obtain ⟨i, hi⟩ := List.mem_iff_getElem?.1 hb
      obtain ⟨d, hd', rfl⟩ := List.mem_map.1 hd
      exact h.dd d hd' i b hi ha

omit [Ptrs] in
theorem buckets_size {t cap : Nat} : ∀ (bs : List Hash.Bucket) (o : Nat), (∀ (i : Nat) b, bs[i]? = some b → Hash.BInv hash m t cap (o + i) b) →
    ∃ lists, lists ≤ bs.length ∧ (Hash.ents bs ≠ [] → 0 < lists) ∧ (bs.flatMap Hash.bfoot).length = lists + 2 * (Hash.ents bs).length := by
  intro bs
  induction bs with
  | nil => intro o _; exact ⟨0, by simp [Hash.ents]⟩
  | cons b bs ih =>
    intro o h
    obtain ⟨k, h1, h2, h3⟩ := ih (o + 1) fun i c hi => by rw [Nat.add_assoc, Nat.add_comm 1]; exact h (i + 1) c hi
    have hb := h 0 b rfl
    by_cases h0 : b.1 = 0
    · refine ⟨k, by simp; omega, ?_, ?_⟩ <;> simp [Hash.ents, hb.null h0, Hash.bfoot, h0] at h2 h3 ⊢
      · exact h2
      · exact h3
    · refine ⟨k + 1, by simp; omega, fun _ => by omega, ?_⟩
      simp [Hash.ents, Hash.bfoot, h0] at h3 ⊢
      omega

theorem hinv_own {t cap : Nat} {s : Spec.Hash.State} (h : HInv hash base t cap s m) :
    ∃ own : List Nat, (∀ a ∈ own, m.get a ≠ none) ∧ (∀ a ∈ own, base.get a = none) ∧ (∀ a, a ∉ own → m.get a = base.get a) ∧
      (∀ {base' m' : Mem}, (∀ a ∈ own, base'.get a = none ∧ m'.get a = m.get a) → (∀ a, a ∉ own → m'.get a = base'.get a) → HInv hash base' t cap s m') ∧
      (∀ i ∈ s.items, i.elem ∈ own) ∧ (∀ i ∈ s.loose, i.elem ∈ own) ∧
      own.Nodup ∧ ∃ lists, lists ≤ cap ∧ (s.items ≠ 0 → 0 < lists) ∧ own.length = 2 + lists + 2 * s.items.card + s.loose.card := by
  obtain ⟨hc, tb, bs, det, h, e1, e2⟩ := h
  have ht : t ∈ Hash.owned t tb bs det := Hash.mem_owned.2 (Or.inl rfl)
  have htb : tb ∈ Hash.owned t tb bs det := Hash.mem_owned.2 (Or.inr (Or.inl rfl))
  have hd : ∀ d ∈ det, d.elem ∈ Hash.owned t tb bs det := fun d hd => Hash.mem_owned.2 (Or.inr (Or.inr (Or.inr ⟨d, hd, rfl⟩)))
  have hb : ∀ {i : Nat} {b : Hash.Bucket} {a : Nat}, bs[i]? = some b → a ∈ Hash.bfoot b → a ∈ Hash.owned t tb bs det :=
    fun hi ha => Hash.mem_owned.2 (Or.inr (Or.inr (Or.inl ⟨_, _, hi, ha⟩)))
  refine ⟨Hash.owned t tb bs det, fun a ha => h.live ha, h.fresh, h.frame, fun h1 h2 => ?_, fun i hi => ?_, fun i hi => ?_, owned_nodup h, ?_⟩
  · refine ⟨hc, tb, bs, det, ⟨h.t0, h.tb0, h.len, h.pos, by rw [(h1 t ht).2]; exact h.head, by rw [(h1 tb htb).2]; exact h.arr,
      fun i b hi => (h.bk i b hi).congr fun a ha => (h1 a (hb hi ha)).2, h.dj, fun d hd' => ?_, h.dn, h.dd, fun a ha => (h1 a ha).1, h2⟩, e1, e2⟩
    obtain ⟨h0, x, y, z, e⟩ := h.dt d hd'
    exact ⟨h0, x, y, z, by rw [(h1 _ (hd d hd')).2]; exact e⟩
  · rw [e1] at hi
    simp only [Multiset.mem_coe, List.mem_map] at hi
    obtain ⟨e, he, rfl⟩ := hi
    obtain ⟨i, l, es, hi, he⟩ := Hash.mem_ents.1 he
    refine hb hi ?_
    rw [Hash.mem_bfoot]
    refine ⟨fun h0 => ?_, Or.inr (Or.inr (List.mem_map.2 ⟨e, he, rfl⟩))⟩
    have : (l, es).2 = [] := (h.bk i _ hi).null h0
    simp only at this
    rw [this] at he
    cases he
  · rw [e2] at hi
    exact hd i (by simpa using hi)
  · obtain ⟨k, h1, h2, h3⟩ := buckets_size (hash := hash) (m := m) (t := t) (cap := cap) bs 0 fun i b hi => by rw [Nat.zero_add]; exact h.bk i b hi
    refine ⟨k, by rw [← h.len]; exact h1, fun hn => h2 fun h0 => hn (by rw [e1, h0]; rfl), ?_⟩
    rw [e1, e2]
    simp only [Hash.owned, List.length_append, List.length_cons, List.length_map, h3, Multiset.coe_card]
    omega

omit [Ptrs] in
theorem sees_of (hc : Hash.Compatible hash cmp) (cap : Nat) : Hash.sees hash cmp cap = fun a b => cmp a b = 0 := Hash.sees_eq hc cap

omit [Ptrs] in
/-- The calls on loose elements after the table is gone. -/
theorem free_sim {t : Nat} (h : DMem base det m) (op : Spec.Hash.Op) (hf : Spec.Whole.free op) (hok : Spec.Hash.ok ⟨0, ↑det⟩ op) {same : Nat → Nat → Prop} :
    Does (Hash.call A F t op) m (fun r m' => ∃ det' : List Spec.Hash.Item, Spec.Hash.Step same ⟨0, ↑det⟩ op r ⟨0, ↑det'⟩ ∧ DMem base det' m') := by
  have hperm : ∀ {i : Spec.Hash.Item}, i ∈ det → ∃ d, det.Perm (i :: d) := by
    intro i hi
    obtain ⟨xs, ys, rfl⟩ := List.append_of_mem hi
    exact ⟨xs ++ ys, List.perm_middle⟩
  cases op with
  | discard e =>
    obtain ⟨i, hi, rfl⟩ := hok
    rw [Multiset.mem_coe] at hi
    obtain ⟨d, hp⟩ := hperm hi
    obtain ⟨h0, x, y, z, e⟩ := h.live i hi
    have hp' := hp.map (·.elem)
    have hnd := hp'.nodup_iff.1 h.nd
    rw [List.map_cons, List.nodup_cons] at hnd
    simp only [Hash.call, Hash.destroyElement]
    refine Does.bind (does_free h0 e (Does.pure ⟨d, ?_, ?_⟩))
    · rw [Multiset.coe_eq_coe.2 hp, ← Multiset.cons_coe]; exact .discard
    · have hne : ∀ j ∈ d, i.elem ≠ j.elem := fun j hj e => hnd.1 (List.mem_map.2 ⟨j, hj, e.symm⟩)
      refine ⟨fun j hj => ?_, hnd.2, fun a ha => h.fresh a (hp'.mem_iff.2 (List.mem_cons_of_mem _ ha)), fun a ha => ?_⟩
      · obtain ⟨g0, x, y, z, g⟩ := h.live j (hp.mem_iff.2 (List.mem_cons_of_mem _ hj))
        exact ⟨g0, x, y, z, by rw [Mem.get_del_ne (hne j hj)]; exact g⟩
      · by_cases hi' : i.elem = a
        · subst hi'
          rw [Mem.get_del_self, h.fresh _ (List.mem_map.2 ⟨i, hi, rfl⟩)]
        · rw [Mem.get_del_ne hi']
          refine h.frame a fun h' => ?_
          rcases List.mem_cons.1 (hp'.mem_iff.1 h') with h' | h'
          · exact hi' h'.symm
          · exact ha h'
  | key e =>
    obtain ⟨i, hi, rfl⟩ := hok
    simp only [zero_add, Multiset.mem_coe] at hi
    obtain ⟨h0, x, y, z, e⟩ := h.live i hi
    simp only [Hash.call, Hash.getKey]
    refine Does.bind (Does.bind (does_readHE h0 e (Does.pure (Does.pure ⟨det, .key ?_, h⟩))))
    simpa using hi
  | value e =>
    obtain ⟨i, hi, rfl⟩ := hok
    simp only [zero_add, Multiset.mem_coe] at hi
    obtain ⟨h0, x, y, z, e⟩ := h.live i hi
    simp only [Hash.call, Hash.getValue]
    refine Does.bind (Does.bind (does_readHE h0 e (Does.pure (Does.pure ⟨det, .value ?_, h⟩))))
    simpa using hi
  | _ => exact hf.elim

theorem table_sim (hA : A.Good) (hc : Hash.Compatible (F.hash Ptrs.hash) (F.cmp Ptrs.cmp 0)) {s : Table} {t : Nat} {op : TableOp}
    (h : TInv (F.hash Ptrs.hash) base s t m) (ho : Spec.Whole.tableOk s op) :
    Does (tableCall A F Ptrs.hash Ptrs.cmp t op) m (fun x m' => ∃ s', Spec.Whole.TableStep (fun a b => F.cmp Ptrs.cmp 0 a b = 0) s op x.1 s' ∧
      TInv (F.hash Ptrs.hash) base s' x.2 m') := by
  obtain ⟨items, loose, b⟩ := s
  cases op with
  | make n =>
    obtain rfl : items = none := ho
    obtain ⟨det, h, e⟩ := h
    obtain rfl : loose = ↑det := e
    refine Does.bind ((Hash.make_spec hA n m).mono fun t m1 h1 => Does.pure ⟨_, .make (Hash.capacity_spec n).2.1 (capacity_le n), h.add h1⟩)
  | destroy =>
    obtain ⟨its, rfl⟩ : ∃ its, items = some its := ho
    obtain ⟨hc, tb, bs, det, h, e1, e2⟩ := h
    obtain rfl : loose = ↑det := e2
    refine Does.bind ((Hash.destroy_spec h).mono fun _ m1 h1 => Does.pure ⟨_, .destroy, det, ⟨fun d hd => ?_, h.dn, fun a ha => h.fresh a ?_, fun a ha => ?_⟩, rfl⟩)
    · obtain ⟨h0, x, y, z, e⟩ := h.dt d hd
      exact ⟨h0, x, y, z, by rw [h1, if_pos (List.mem_map.2 ⟨d, hd, rfl⟩)]; exact e⟩
    · obtain ⟨d, hd, rfl⟩ := List.mem_map.1 ha
      exact Hash.mem_owned.2 (Or.inr (Or.inr (Or.inr ⟨d, hd, rfl⟩)))
    · rw [h1, if_neg ha]
  | on op =>
    cases items with
    | some its =>
      refine Does.bind ((Hash.call_sim hA h op ho).mono fun r m1 ⟨s', h1, h2⟩ => ?_)
      rw [sees_of hc] at h1
      exact Does.pure ⟨⟨some s'.items, s'.loose, b⟩, .on h1, h2⟩
    | none =>
      obtain ⟨det, h, e⟩ := h
      obtain rfl : loose = ↑det := e
      refine Does.bind ((free_sim (F := F) (same := fun a b => F.cmp Ptrs.cmp 0 a b = 0) h op ho.1 ho.2).mono fun r m1 ⟨det', h1, h2⟩ => ?_)
      exact Does.pure ⟨⟨none, ↑det', b⟩, .off ho.1 h1, det', h2, rfl⟩

/-- What a table owns. -/
theorem tinv_own {s : Table} {t : Nat} (h : TInv hash base s t m) :
    ∃ own : List Nat, (∀ a ∈ own, m.get a ≠ none) ∧ (∀ a ∈ own, base.get a = none) ∧ (∀ a, a ∉ own → m.get a = base.get a) ∧
      (∀ {base' m' : Mem}, (∀ a ∈ own, base'.get a = none ∧ m'.get a = m.get a) → (∀ a, a ∉ own → m'.get a = base'.get a) → TInv hash base' s t m') ∧
      (∀ items, s.items = some items → ∀ i ∈ items, i.elem ∈ own) ∧ (∀ i ∈ s.loose, i.elem ∈ own) ∧ (s.items = none → s.loose = 0 → own = []) ∧
      own.Nodup ∧ Spec.Whole.tableSize s own.length := by
  obtain ⟨items, loose, b⟩ := s
  cases items with
  | some its =>
    obtain ⟨own, h1, h2, h3, h4, h5, h6, h7, h8⟩ := hinv_own h
    refine ⟨own, h1, h2, h3, fun g1 g2 => h4 g1 g2, ?_, h6, by simp, h7, h8⟩
    rintro _ ⟨⟩ i hi
    exact h5 i hi
  | none =>
    obtain ⟨det, h, e⟩ := h
    obtain rfl : loose = ↑det := e
    refine ⟨det.map (·.elem), h.liveAll, h.fresh, h.frame, fun g1 g2 => ⟨det, ⟨fun d hd => ?_, h.nd, fun a ha => (g1 a ha).1, g2⟩, rfl⟩, by simp, ?_, ?_, h.nd, by simp [Spec.Whole.tableSize]⟩
    · obtain ⟨h0, x, y, z, e⟩ := h.live d hd
      exact ⟨h0, x, y, z, by rw [(g1 _ (List.mem_map.2 ⟨d, hd, rfl⟩)).2]; exact e⟩
    · intro i hi
      exact List.mem_map.2 ⟨i, by simpa using hi, rfl⟩
    · rintro - h0
      obtain rfl : det = [] := (Multiset.coe_eq_zero _).1 h0
      rfl

/-- A hash table. -/
def tableCode (A : Alloc) (F : Funs) (h c : Nat) : Code (Spec.Whole.table (F.cmp c 0)) where
  Loc := Nat
  init := 0
  call := tableCall A F h c

def tableImpl (hA : A.Good) (m0 : Mem) (hc : Hash.Compatible (F.hash Ptrs.hash) (F.cmp Ptrs.cmp 0)) :
    Impl m0 (tableCode A F Ptrs.hash Ptrs.cmp) where
  Inv base s t m := TInv (F.hash Ptrs.hash) base s t m
  start m := ⟨[], ⟨by simp, by simp, by simp, by simp⟩, rfl⟩
  sim _ h ho := table_sim hA hc h ho
  frame := by
    intro base s l m h
    obtain ⟨own, h1, h2, h3, -⟩ := tinv_own h
    exact own_ext h2 h3
  move := by
    intro base s l m base' m' h g1 g2
    obtain ⟨own, h1, h2, h3, h4, -⟩ := tinv_own h
    have e := own_iff h1 h2 h3
    exact h4 (fun a ha => g1 a ((e a).2 ha)) fun a ha => g2 a fun h' => ha ((e a).1 h')
  gone := by
    intro base s l m h hg a ha
    obtain ⟨own, h1, h2, h3, -, -, -, h7, -⟩ := tinv_own h
    rw [own_iff h1 h2 h3, h7 hg.1 hg.2] at ha
    cases ha
  holds := by
    intro base s l m a h hh
    obtain ⟨own, h1, h2, h3, -, h5, h6, -⟩ := tinv_own h
    rw [own_iff h1 h2 h3]
    rcases hh with ⟨items, hi, i, hi', rfl⟩ | ⟨i, hi, rfl⟩
    · exact h5 items hi i hi'
    · exact h6 i hi
  blocks := by
    intro base s l m own h ho
    obtain ⟨o, h1, h2, h3, -, -, -, -, nd, hs⟩ := tinv_own h
    rw [card_own nd fun a => (ho a).trans (own_iff h1 h2 h3 a)]
    exact hs

/-! ### Sets, priority queues and byte arrays -/

open Spec.Objects (Src Cmd BytesOp readable bytesOk bytesStep)

omit [Ptrs] in
theorem readable_mono {ext ext' : Nat → Option (List UInt8)} (h : ∀ a c, ext a = some c → ext' a = some c) {w : Spec.Objects.World} {src : Src} {bs : List UInt8}
    (hs : readable ext w src = some bs) : readable ext' w src = some bs := by
  cases src with
  | own j off => exact hs
  | ext a off =>
    cases he : ext a with
    | none => simp [readable, he] at hs
    | some c =>
      simp only [readable, he] at hs
      simp only [readable, h a c he]
      exact hs

omit [Ptrs] in
/-- With more blocks to read from, a call that was in order still is, and does the same. -/
theorem bytes_mono {ext ext' : Nat → Option (List UInt8)} (h : ∀ a c, ext a = some c → ext' a = some c) {w : Spec.Objects.World} {i max k : Nat} {c : List UInt8}
    {op : BytesOp} (ho : bytesOk ext w i c k op) : bytesOk ext' w i c k op ∧ bytesStep ext' w max c k op = bytesStep ext w max c k op := by
  cases op with
  | append src len =>
    obtain ⟨bs, h1, h2⟩ := ho
    exact ⟨⟨bs, readable_mono h h1, h2⟩, by simp only [bytesStep, h1, readable_mono h h1]⟩
  | appendString src =>
    obtain ⟨bs, h1, h2⟩ := ho
    exact ⟨⟨bs, readable_mono h h1, h2⟩, by simp only [bytesStep, h1, readable_mono h h1]⟩
  | copy pos src len =>
    obtain ⟨bs, h1, h2⟩ := ho
    exact ⟨⟨bs, readable_mono h h1, h2⟩, by simp only [bytesStep, h1, readable_mono h h1]⟩
  | copyString pos src =>
    obtain ⟨bs, h1, h2⟩ := ho
    exact ⟨⟨bs, readable_mono h h1, h2⟩, by simp only [bytesStep, h1, readable_mono h h1]⟩
  | stream cb len => exact ⟨ho, rfl⟩
  | resize n b => exact ⟨ho, rfl⟩
  | clear => exact ⟨ho, rfl⟩
  | view => exact ⟨ho, rfl⟩
  | share => exact ⟨ho, rfl⟩

omit [Ptrs] in
theorem ok_mono {ext ext' : Nat → Option (List UInt8)} (h : ∀ a c, ext a = some c → ext' a = some c) {w : Spec.Objects.World} {c : Cmd}
    (ho : Spec.Objects.ok ext w c) : Spec.Objects.ok ext' w c := by
  cases c with
  | onBytes i junk op =>
    obtain ⟨max, c, k, h1, h2⟩ := ho
    exact ⟨max, c, k, h1, (bytes_mono (max := max) h h2).1⟩
  | _ => exact ho

omit [Ptrs] in
theorem step_back {ext ext' : Nat → Option (List UInt8)} (h : ∀ a c, ext a = some c → ext' a = some c) {w w' : Spec.Objects.World} {c : Cmd} {r : Spec.Objects.Res}
    {le : Nat → Nat → Prop} (ho : Spec.Objects.ok ext w c) (hs : Spec.Objects.Step ext' le w c r w') : Spec.Objects.Step ext le w c r w' := by
  cases hs with
  | makeSet null n => exact .makeSet null n
  | makeQueue => exact .makeQueue
  | makeBytes junk max => exact .makeBytes junk max
  | onSet i n S S' op r h1 h2 => exact .onSet i n S S' op r h1 h2
  | onQueue i xs ys op r h1 h2 => exact .onQueue i xs ys op r h1 h2
  | onBytes i max c k junk op h1 =>
    obtain ⟨max', c', k', h2, h3⟩ := ho
    rw [h1] at h2
    cases h2
    rw [(bytes_mono (max := max) h h3).2]
    exact .onBytes i max c k junk op h1
  | destroySet i n S h1 => exact .destroySet i n S h1
  | destroyQueue i xs h1 => exact .destroyQueue i xs h1
  | release i max c k h1 => exact .release i max c k h1
  | destroyBytes i max c h1 => exact .destroyBytes i max c h1

omit [Ptrs] in
theorem external_mono {m0 m : Mem} (h : Ext m0 m) (a : Nat) (c : List UInt8) (ha : Objects.external m0 a = some c) : Objects.external m a = some c := by
  unfold Objects.external at ha ⊢
  split at ha
  · cases ha
  · rename_i h0
    rw [if_neg h0]
    cases hm : m0.get a with
    | none => rw [hm] at ha; cases ha
    | some x =>
      rw [h a (by rw [hm]; simp)]
      exact ha

/-- Sets, queues and byte arrays. -/
def objectsCode (ext : Nat → Option (List UInt8)) (A : Alloc) (F : Funs) (c r o : Nat) :
    Code (Spec.Whole.objects ext (F.cmp c o)) where
  Loc := Objects.Env
  init := []
  call := Objects.stepM A F c r o

/-- The blocks of all objects. -/
theorem objects_own {w : Objects.World} {env : Objects.Env} {fp : Nat → List Nat} (h : Objects.WInv base w env fp m) (a : Nat) :
    Own base m a ↔ ∃ i, a ∈ fp i := by
  constructor
  · intro ha
    by_contra hn
    rw [not_exists] at hn
    exact ha.2 (by rw [h.frame a hn]; exact ha.1)
  · rintro ⟨i, hi⟩; exact ⟨h.fresh i a hi, h.live i a hi⟩

omit [Ptrs] in
theorem good_dead {w : Objects.World} {v : Spec.Objects.World} (h : Objects.Good cmp w v) {i : Nat} (hg : ∀ o, v[i]? ≠ some (some o)) (o : Objects.Obj) :
    w[i]? ≠ some (some o) := by
  intro ho
  cases hv : v[i]? with
  | none =>
    have := (List.getElem?_eq_some_iff.1 ho).1
    rw [h.len] at this
    rw [List.getElem?_eq_none_iff] at hv
    omega
  | some s => cases s with
    | none => rw [h.dead i hv] at ho; cases ho
    | some s => exact hg s hv

theorem At.nodup {x : Nat × Objects.Kind} {l : List Nat} {o : Objects.Obj} (h : Objects.At m x l o) : l.Nodup := by
  cases o with
  | set s =>
    obtain ⟨-, d, h, rfl⟩ := h
    rcases h.array with ⟨h1, -⟩ | ⟨h1, h2, -⟩ <;> simp [Objects.foot, h1]
    exact fun e => h2 e.symm
  | queue q =>
    obtain ⟨-, d, h, rfl⟩ := h
    rcases h.array with ⟨h1, -⟩ | ⟨h1, h2, -⟩ <;> simp [Objects.foot, h1]
    exact fun e => h2 e.symm
  | bytes b rc =>
    obtain ⟨-, d, h, rfl⟩ := h
    simp
    exact fun e => h.apart e.symm

/-- All blocks of all objects, one after another. -/
theorem objects_own' {w : Objects.World} {env : Objects.Env} {fp : Nat → List Nat} (h : Objects.WInv base w env fp m) (a : Nat) :
    Own base m a ↔ a ∈ (List.range w.length).flatMap fp := by
  rw [objects_own h, List.mem_flatMap]
  constructor
  · rintro ⟨i, hi⟩
    refine ⟨i, ?_, hi⟩
    rw [List.mem_range]
    by_contra hn
    rw [h.dead i fun o ho => hn (List.getElem?_eq_some_iff.1 ho).1] at hi
    cases hi
  · rintro ⟨i, -, hi⟩; exact ⟨i, hi⟩

theorem objects_nodup {w : Objects.World} {env : Objects.Env} {fp : Nat → List Nat} (h : Objects.WInv base w env fp m) :
    ((List.range w.length).flatMap fp).Nodup := by
  rw [List.nodup_flatMap]
  refine ⟨fun i _ => ?_, (List.nodup_range).imp fun {i j} hij a ha ha' => h.disj i j hij a ha ha'⟩
  by_cases ho : ∃ o, w[i]? = some (some o)
  · obtain ⟨o, ho⟩ := ho
    obtain ⟨x, -, hx⟩ := h.each i o ho
    exact At.nodup hx
  · rw [h.dead i fun o e => ho ⟨o, e⟩]; exact List.nodup_nil

theorem objects_size {w : Objects.World} {env : Objects.Env} {fp : Nat → List Nat} {v : Spec.Objects.World} (h : Objects.WInv base w env fp m)
    (hg : Objects.Good cmp w v) : ∃ ns, List.Forall₂ Spec.Whole.ObjSize v ns ∧ ((List.range w.length).flatMap fp).length = ns.sum := by
  refine ⟨(List.range w.length).map fun i => (fp i).length, ?_, by rw [List.length_flatMap]⟩
  rw [List.forall₂_iff_get]
  refine ⟨by simp [hg.len], fun i hi hi' => ?_⟩
  simp only [List.get_eq_getElem, List.getElem_map, List.getElem_range]
  have hv := List.getElem?_eq_getElem hi
  generalize v[i] = s at hv ⊢
  cases s with
  | none =>
    have := hg.dead i hv
    rw [h.dead i fun o ho => by rw [this] at ho; cases ho]
    exact .gone
  | some s =>
    obtain ⟨o, ho, hr⟩ := hg.each i s hv
    obtain ⟨x, -, hx⟩ := h.each i o ho
    generalize fp i = l at hx
    cases hr with
    | set s S h1 h2 =>
      obtain ⟨-, d, h3, rfl⟩ := hx
      rcases h3.array with ⟨h4, h5⟩ | ⟨h4, -⟩ <;> simp only [Objects.foot, h4, if_true, if_false, List.length_cons, List.length_nil]
      · have hw := h1.1
        unfold IntSet.Wf at hw
        rw [h5, List.length_nil] at hw
        have : s.size.toNat = 0 := by omega
        rw [this]
        exact .emptySet
      · exact .set
    | queue q ys h1 h2 h3 =>
      obtain ⟨-, d, h3, rfl⟩ := hx
      rcases h3.array with ⟨h4, h5⟩ | ⟨h4, -⟩ <;> simp only [Objects.foot, h4, if_true, if_false, List.length_cons, List.length_nil]
      · have : ys = [] := by
          rw [List.eq_nil_iff_length_eq_zero]
          by_contra hn
          have := h1.slots 0 (by omega)
          rw [h5] at this
          cases this
        subst this
        exact .emptyQueue
      · exact .queue
    | bytes b rc h1 h2 =>
      obtain ⟨-, d, h3, rfl⟩ := hx
      exact .bytes

def objectsImpl (hA : A.Good) (m0 : Mem) {rl : Nat} (hr : Ptrs.reloc = if rl ≠ 0 then rl else F.dummyReloc)
    (hc : Spec.Prioq.Preorder (F.cmp Ptrs.cmp Ptrs.obj)) : Impl m0 (objectsCode (Objects.external m0) A F Ptrs.cmp rl Ptrs.obj) where
  Inv base v env m := ∃ w fp, Objects.WInv base w env fp m ∧ Objects.Good (F.cmp Ptrs.cmp Ptrs.obj) w v
  start m := ⟨[], _, Objects.wInv_start m, Objects.Good.start⟩
  sim := by
    rintro base v env m op hx ⟨w, fp, h1, h2⟩ ho
    obtain ⟨r, w', v', g1, g2, g3⟩ := Objects.step_sim hc h2 op (ok_mono (external_mono hx) ho)
    refine (Objects.stepM_spec hA hr h1 g1).mono ?_
    rintro x m' ⟨rfl, fp', h3⟩
    exact ⟨v', step_back (external_mono hx) ho g2, w', fp', h3, g3⟩
  frame := by
    rintro base v env m ⟨w, fp, h1, -⟩ a ha
    exact h1.frame a fun i hi => ha (h1.fresh i a hi)
  move := by
    rintro base v env m base' m' ⟨w, fp, h1, h2⟩ g1 g2
    have e := objects_own h1
    refine ⟨w, fp, ⟨h1.len, fun i o ho => ?_, h1.dead, h1.disj, fun i y hy => (g1 y ((e y).2 ⟨i, hy⟩)).1, fun y hy => g2 y fun h' => ?_⟩, h2⟩
    · obtain ⟨x, hx, hx'⟩ := h1.each i o ho
      exact ⟨x, hx, hx'.congr fun y hy => (g1 y ((e y).2 ⟨i, hy⟩)).2⟩
    · obtain ⟨i, hi⟩ := (e y).1 h'
      exact hy i hi
  gone := by
    rintro base v env m ⟨w, fp, h1, h2⟩ hg a ha
    obtain ⟨i, hi⟩ := (objects_own h1 a).1 ha
    rw [h1.dead i (good_dead h2 (hg i))] at hi
    cases hi
  holds := by
    intro base v env m a h hh
    exact hh.elim
  blocks := by
    rintro base v env m own ⟨w, fp, h1, h2⟩ ho
    have e := card_own (objects_nodup h1) fun a => (ho a).trans (objects_own' h1 a)
    obtain ⟨ns, h3, h4⟩ := objects_size h1 h2
    exact ⟨ns, h3, e.trans h4⟩

/-! ### Strings -/

/-- Strings. -/
def stringsCode (ext : Nat → Option (List UInt8)) (A : Alloc) : Code (Spec.Whole.strings ext) where
  Loc := Unit
  init := ()
  call _ op := do pure (← Strings.callM A op, ())

omit [Ptrs] in
theorem strings_own {s : Spec.Strings.State} (h : Strings.Inv base s m) (a : Nat) : Own base m a ↔ s a ≠ none := by
  have := h a
  cases hs : s a with
  | none => rw [hs] at this; exact ⟨fun ha => (ha.2 (by rw [this]; exact ha.1)).elim, fun ha => (ha rfl).elim⟩
  | some t =>
    rw [hs] at this
    refine ⟨fun _ => by simp, fun _ => ?_⟩
    cases t with
    | string b => exact ⟨this.2.1, by rw [this.2.2]; simp⟩
    | encoder f => obtain ⟨-, h1, b, h2, -⟩ := this; exact ⟨h1, by rw [h2]; simp⟩

def stringsImpl (hA : A.Good) (m0 : Mem) : Impl m0 (stringsCode (Objects.external m0) A) where
  Inv base s _ m := Strings.Inv base s m
  start m _ := rfl
  sim hx h ho := Does.bind ((Strings.call_sim hA hx h ho).mono fun _ _ ⟨s', h1, h2⟩ => Does.pure ⟨s', h1, h2⟩)
  frame := by
    intro base s _ m h a ha
    by_contra hn
    by_cases hs : s a = none
    · have := h a; rw [hs] at this; exact hn this
    · exact ha ((strings_own h a).2 hs).1
  move := by
    intro base s _ m base' m' h g1 g2 a
    have := h a
    cases hs : s a with
    | none => exact g2 a fun ha => (strings_own h a).1 ha hs
    | some t =>
      obtain ⟨e1, e2⟩ := g1 a ((strings_own h a).2 (by rw [hs]; simp))
      rw [hs] at this
      cases t with
      | string b => exact ⟨this.1, e1, by rw [e2]; exact this.2.2⟩
      | encoder f => obtain ⟨h0, -, b, h2, h3⟩ := this; exact ⟨h0, e1, b, by rw [e2]; exact h2, h3⟩
  gone := by
    intro base s _ m h hg a ha
    exact (strings_own h a).1 ha (hg a)
  holds := by
    intro base s _ m a h hh
    exact (strings_own h a).2 hh
  blocks := by
    intro base s _ m own h ho
    exact ⟨own, fun p => (ho p).trans (strings_own h p), rfl⟩

/-! ### All parts -/

omit [Ptrs]

/-- The calls of a part. -/
def code (F : Funs) (ext : Nat → Option (List UInt8)) (A : Alloc) : (k : Kind) → Code (k.api F ext)
  | .trees f o => treesCode A F f o
  | .lists => listsCode A
  | .table h f => tableCode A F h f
  | .objects f r o => objectsCode ext A F f r o
  | .strings => stringsCode ext A

/-- What the callbacks must satisfy. -/
def Callbacks (F : Funs) : Kind → Prop
  | .trees _ _ => True
  | .lists => True
  | .table h f => Hash.Compatible (F.hash h) (F.cmp f 0)
  | .objects f _ o => Spec.Prioq.Preorder (F.cmp f o)
  | .strings => True

def impl (hA : A.Good) (F : Funs) (m0 : Mem) : (k : Kind) → Callbacks F k → Impl m0 (code F (Objects.external m0) A k)
  | .trees f o, _ => letI : Ptrs := ⟨0, f, o, 0⟩; treesImpl hA m0 F
  | .lists, _ => listsImpl hA m0
  | .table h f, hc => letI : Ptrs := ⟨h, f, 0, 0⟩; tableImpl hA m0 hc
  | .objects f r o, hc => letI : Ptrs := ⟨0, f, o, if r ≠ 0 then r else F.dummyReloc⟩; objectsImpl hA m0 (rl := r) rfl hc
  | .strings, _ => stringsImpl hA m0

end Verif.Whole
