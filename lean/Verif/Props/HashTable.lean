import Verif.Proofs.HashSim
import Verif.Props.Integer
import Verif.Base.U8
import Mathlib.Data.Multiset.MapFold
import Mathlib.Data.Int.ModEq

/-! Properties C15-C19: the hash table. -/

namespace Verif.Hash
open Spec.Hash

/-- What `hashtable.h` asks of the comparator and the hash function. -/
structure Compatible (hash : Nat → Nat) (cmp : Nat → Nat → Int) : Prop where
  refl : ∀ a, cmp a a = 0
  symm : ∀ a b, cmp a b = 0 → cmp b a = 0
  trans : ∀ a b c, cmp a b = 0 → cmp b c = 0 → cmp a c = 0
  hash : ∀ a b, cmp a b = 0 → hash a = hash b

/-- Keys that compare equal. -/
def eqv (cmp : Nat → Nat → Int) (a b : Nat) : Prop := cmp a b = 0

theorem sees_eq {hash : Nat → Nat} {cmp : Nat → Nat → Int} (hc : Compatible hash cmp) (cap : Nat) : sees hash cmp cap = eqv cmp := by
  funext a b
  simp only [sees, eqv, eq_iff_iff]
  exact ⟨fun h => h.1, fun h => ⟨h, by rw [hc.hash a b h]⟩⟩

/-- A program: make a table with the hash function `f` and the comparator `g`, work with it, and keep it. -/
def session (A : Alloc) (F : Funs) (f g : Nat) (n : Nat) (p : Prog) : M (Nat × List Res) := do
  let t ← make A n f g
  let rs ← exec A F t p
  pure (t, rs)

/-- Every session, for every hash function and comparator: it runs to the end and the memory is that of a specified state. -/
theorem session_sim [Ptrs] {A : Alloc} (hA : A.Good) {F : Funs} {n : Nat} {p : Prog} {m0 : Mem}
    (hp : Legal (sees (F.hash Ptrs.hash) (F.cmp Ptrs.cmp 0) (capacity n)) p ⟨0, 0⟩) :
    Does (session A F Ptrs.hash Ptrs.cmp n p) m0 (fun x m => ∃ s, Runs (sees (F.hash Ptrs.hash) (F.cmp Ptrs.cmp 0) (capacity n)) p ⟨0, 0⟩ x.2 s ∧
      HInv (F.hash Ptrs.hash) m0 x.1 (capacity n) s m) := by
  refine Does.bind ((make_spec (hash := F.hash Ptrs.hash) hA n m0).mono fun t m1 h1 => ?_)
  refine Does.bind ((exec_sim hA p h1 hp).mono ?_)
  rintro rs m2 ⟨s, h2, h3⟩
  exact Does.pure ⟨s, h2, h3⟩

/-- C15: every program on a hash table behaves as one on a set of items: it never goes wrong, every result is one the specification allows, and
all memory that was in use before is untouched. -/
theorem hash_table_refines {A : Alloc} (hA : A.Good) {F : Funs} {f g : Nat} (hc : Compatible (F.hash f) (F.cmp g 0)) (n : Nat) (p : Prog)
    (m0 : Mem) (hp : Legal (eqv (F.cmp g 0)) p ⟨0, 0⟩) :
    ∃ t rs m s, Run (session A F f g n p) m0 (t, rs) m ∧ Runs (eqv (F.cmp g 0)) p ⟨0, 0⟩ rs s ∧ ∀ a, m0.get a ≠ none → m.get a = m0.get a := by
  letI : Ptrs := ⟨f, g, 0, 0⟩
  rw [← sees_eq hc (capacity n)] at hp ⊢
  obtain ⟨⟨⟨t, rs⟩, m, h1, s, h2, h3⟩⟩ := session_sim (m0 := m0) hA hp
  refine ⟨t, rs, m, s, h1, h2, fun a ha => ?_⟩
  obtain ⟨-, tb, bs, det, h, -, -⟩ := h3
  exact h.frame a fun ho => ha (h.fresh a ho)

theorem put_loose {sees : Nat → Nat → Prop} {s s' : State} {op : Op} {r : Res} (h : Step sees s op r s') :
    ∀ k v p, op = .put k v → r = .ptr p → p ≠ 0 → ∃ i ∈ s'.loose, i.elem = p := by
  cases h <;> intro k v p e1 e2 h0 <;> simp_all

/-- Not vacuous: store, replace, and destroy what was displaced. -/
example : ∃ (p : Prog) (hash : Nat → Nat) (cmp : Nat → Nat → Int), Compatible hash cmp ∧ Legal (eqv cmp) p ⟨0, 0⟩ ∧
    ∃ k, p = .call (.put 1 10) (fun _ => .call (.put 1 20) k) := by
  refine ⟨.call (.put 1 10) (fun _ => .call (.put 1 20) (fun r => match r with
    | .ptr (q + 1) => .call (.discard (q + 1)) (fun _ => .call .traverse (fun _ => .done))
    | _ => .done)), fun k => k, fun a b => (a : Int) - b, ⟨by simp, by intro a b; omega, by intro a b c; omega, by intro a b; omega⟩, ?_, _, rfl⟩
  refine ⟨trivial, fun r1 s1 _ => ⟨trivial, fun r2 s2 h2 => ?_⟩⟩
  cases r2 with
  | ptr q =>
    cases q with
    | zero => exact trivial
    | succ q => exact ⟨put_loose h2 1 20 (q + 1) rfl rfl (by simp), fun _ _ _ => ⟨trivial, fun _ _ _ => trivial⟩⟩
  | _ => exact trivial

/-- The table stores the value `v` under a key equal to `k`. -/
def Holds (sees : Nat → Nat → Prop) (s : State) (k v : Nat) : Prop := ∃ i ∈ s.items, sees k i.key ∧ i.value = v

/-- Distinct elements, and distinct keys. -/
structure Distinct (sees : Nat → Nat → Prop) (s : State) : Prop where
  elems : ((s.items + s.loose).map (·.elem)).Nodup
  keys : ∀ i ∈ s.items, ∀ j ∈ s.items, sees i.key j.key → i = j
  nonnull : ∀ i ∈ s.items + s.loose, i.elem ≠ 0

/-- An equivalence. -/
structure Equiv (sees : Nat → Nat → Prop) : Prop where
  refl : ∀ a, sees a a
  symm : ∀ a b, sees a b → sees b a
  trans : ∀ a b c, sees a b → sees b c → sees a c

theorem eqv_equiv {hash : Nat → Nat} {cmp : Nat → Nat → Int} (hc : Compatible hash cmp) : Equiv (eqv cmp) := ⟨hc.refl, hc.symm, hc.trans⟩

theorem nodup_cons_elem {i : Item} {items loose : Multiset Item} (h : ((i ::ₘ items + loose).map (·.elem)).Nodup) :
    (∀ j ∈ items + loose, j.elem ≠ i.elem) ∧ ((items + loose).map (·.elem)).Nodup := by
  rw [Multiset.cons_add, Multiset.map_cons, Multiset.nodup_cons] at h
  refine ⟨fun j hj e => h.1 ?_, h.2⟩
  rw [← e]; exact Multiset.mem_map_of_mem _ hj

theorem distinct_drop {sees : Nat → Nat → Prop} {items loose : Multiset Item} {i : Item} (h : Distinct sees ⟨i ::ₘ items, loose⟩) :
    Distinct sees ⟨items, i ::ₘ loose⟩ ∧ Distinct sees ⟨items, loose⟩ := by
  have h1 := h.elems
  have h2 := (nodup_cons_elem h1).2
  refine ⟨⟨?_, ?_, ?_⟩, ⟨h2, ?_, ?_⟩⟩
  · simp only at h1 ⊢; rw [Multiset.add_cons, ← Multiset.cons_add]; exact h1
  · exact fun a ha b hb => h.keys a (Multiset.mem_cons_of_mem ha) b (Multiset.mem_cons_of_mem hb)
  · intro a ha
    refine h.nonnull a ?_
    simp only [Multiset.mem_add, Multiset.mem_cons] at ha ⊢; tauto
  · exact fun a ha b hb => h.keys a (Multiset.mem_cons_of_mem ha) b (Multiset.mem_cons_of_mem hb)
  · intro a ha
    refine h.nonnull a ?_
    simp only [Multiset.mem_add, Multiset.mem_cons] at ha ⊢; tauto

theorem distinct_new {sees : Nat → Nat → Prop} (he : Equiv sees) {items loose : Multiset Item} {a k v : Nat} (h : Distinct sees ⟨items, loose⟩)
    (hf : Fresh ⟨items, loose⟩ a) (hk : ∀ i ∈ items, ¬ sees k i.key) : Distinct sees ⟨⟨a, k, v⟩ ::ₘ items, loose⟩ := by
  refine ⟨?_, ?_, ?_⟩
  · simp only
    rw [Multiset.cons_add, Multiset.map_cons, Multiset.nodup_cons]
    refine ⟨fun hm => ?_, h.elems⟩
    obtain ⟨j, hj, e⟩ := Multiset.mem_map.1 hm
    exact hf.2 j hj e
  · intro i hi j hj hs
    rcases Multiset.mem_cons.1 hi with rfl | hi <;> rcases Multiset.mem_cons.1 hj with rfl | hj
    · rfl
    · exact absurd hs (hk j hj)
    · exact absurd (he.symm _ _ hs) (hk i hi)
    · exact h.keys i hi j hj hs
  · intro i hi
    simp only [Multiset.mem_add, Multiset.mem_cons] at hi
    rcases hi with (rfl | hi) | hi
    · exact hf.1
    · exact h.nonnull i (Multiset.mem_add.2 (Or.inl hi))
    · exact h.nonnull i (Multiset.mem_add.2 (Or.inr hi))

theorem fresh_mono {items loose : Multiset Item} {a : Nat} {i : Item} (h : Fresh ⟨i ::ₘ items, loose⟩ a) : Fresh ⟨items, i ::ₘ loose⟩ a := by
  refine ⟨h.1, fun j hj => h.2 j ?_⟩
  simp only [Multiset.mem_add, Multiset.mem_cons] at hj ⊢; tauto

theorem step_distinct {sees : Nat → Nat → Prop} (he : Equiv sees) {s s' : State} {op : Op} {r : Res} (h : Step sees s op r s')
    (hd : Distinct sees s) : Distinct sees s' := by
  cases h with
  | put_new hk hf => exact distinct_new he hd hf hk
  | @put_replace items loose k v a i hs hv hf =>
    refine distinct_new he (distinct_drop hd).1 (fresh_mono hf) ?_
    intro j hj hk
    have h1 : i = j := hd.keys i (Multiset.mem_cons_self _ _) j (Multiset.mem_cons_of_mem hj) (he.trans _ _ _ (he.symm _ _ hs) hk)
    exact (nodup_cons_elem hd.elems).1 j (Multiset.mem_add.2 (Or.inl hj)) (by rw [h1])
  | pop_hit hs => exact (distinct_drop hd).1
  | detach => exact (distinct_drop hd).1
  | remove => exact (distinct_drop hd).2
  | popAny => exact (distinct_drop hd).1
  | @discard items loose i =>
    refine ⟨?_, hd.keys, ?_⟩
    · have := hd.elems
      simp only at this ⊢
      rw [Multiset.add_cons, Multiset.map_cons, Multiset.nodup_cons] at this
      exact this.2
    · intro j hj
      refine hd.nonnull j ?_
      simp only [Multiset.mem_add, Multiset.mem_cons] at hj ⊢; tauto
  | put_same => exact hd
  | get_hit => exact hd
  | get_miss => exact hd
  | pop_miss => exact hd
  | popAny_empty => exact hd
  | getAny => exact hd
  | getAny_empty => exact hd
  | getOther => exact hd
  | getOther_last => exact hd
  | traverse => exact hd
  | size => exact hd
  | empty => exact hd
  | key => exact hd
  | value => exact hd

theorem runs_distinct {sees : Nat → Nat → Prop} (he : Equiv sees) {p : Prog} {s s' : State} {rs : List Res} (h : Runs sees p s rs s') :
    Distinct sees s → Distinct sees s' := by
  induction h with
  | done => exact id
  | call h _ ih => exact fun hd => ih (step_distinct he h hd)

theorem distinct_init (sees : Nat → Nat → Prop) : Distinct sees ⟨0, 0⟩ := ⟨by simp, by simp, by simp⟩

theorem holds_cons {sees : Nat → Nat → Prop} {i : Item} {items loose : Multiset Item} {k v : Nat} :
    Holds sees ⟨i ::ₘ items, loose⟩ k v ↔ (sees k i.key ∧ i.value = v) ∨ ∃ j ∈ items, sees k j.key ∧ j.value = v := by
  simp [Holds]

/-- Taking the item of key `k0` out leaves the other keys' values. -/
theorem holds_drop {sees : Nat → Nat → Prop} (he : Equiv sees) {i : Item} {items loose : Multiset Item} (hd : Distinct sees ⟨i ::ₘ items, loose⟩)
    (k v : Nat) : (∃ j ∈ items, sees k j.key ∧ j.value = v) ↔ ¬ sees k i.key ∧ Holds sees ⟨i ::ₘ items, loose⟩ k v := by
  rw [holds_cons]
  constructor
  · rintro ⟨j, hj, h1, h2⟩
    refine ⟨fun h3 => ?_, Or.inr ⟨j, hj, h1, h2⟩⟩
    have h4 : i = j := hd.keys i (Multiset.mem_cons_self _ _) j (Multiset.mem_cons_of_mem hj) (he.trans _ _ _ (he.symm _ _ h3) h1)
    exact (nodup_cons_elem hd.elems).1 j (Multiset.mem_add.2 (Or.inl hj)) (by rw [h4])
  · rintro ⟨h1, h2 | h2⟩
    · exact absurd h2.1 h1
    · exact h2

/-- C15, the specification as a map from keys to values: in a state with distinct keys, `put` stores its value under its key, `pop` empties its key,
removing or detaching an element empties that element's key, and nothing else changes; and `get` answers from that map. -/
theorem spec_map {sees : Nat → Nat → Prop} (he : Equiv sees) {s s' : State} {op : Op} {r : Res} (h : Step sees s op r s') (hd : Distinct sees s)
    (k v : Nat) : Holds sees s' k v ↔ match op, r with
      | .put k0 v0, _ => (sees k0 k ∧ v = v0) ∨ (¬ sees k0 k ∧ Holds sees s k v)
      | .pop k0, _ => ¬ sees k0 k ∧ Holds sees s k v
      | .detach e, _ => (∀ i ∈ s.items, i.elem = e → ¬ sees k i.key) ∧ Holds sees s k v
      | .remove e, _ => (∀ i ∈ s.items, i.elem = e → ¬ sees k i.key) ∧ Holds sees s k v
      | .popAny, .ptr e => (∀ i ∈ s.items, i.elem = e → ¬ sees k i.key) ∧ Holds sees s k v
      | _, _ => Holds sees s k v := by
  have hone : ∀ {i : Item} {items loose : Multiset Item}, Distinct sees ⟨i ::ₘ items, loose⟩ →
      ((∀ j ∈ i ::ₘ items, j.elem = i.elem → ¬ sees k j.key) ↔ ¬ sees k i.key) := by
    intro i items loose hd
    constructor
    · exact fun h => h i (Multiset.mem_cons_self _ _) rfl
    · intro h j hj e
      rcases Multiset.mem_cons.1 hj with rfl | hj
      · exact h
      · exact absurd e ((nodup_cons_elem hd.elems).1 j (Multiset.mem_add.2 (Or.inl hj)))
  cases h with
  | @put_new items loose k0 v0 a hk hf =>
    simp only
    rw [holds_cons]
    by_cases hs : sees k0 k
    · simp only [hs, true_and, not_true_eq_false, false_and, or_false]
      constructor
      · rintro (h1 | ⟨j, hj, h1, -⟩)
        · exact h1.2.symm
        · exact absurd (he.trans _ _ _ hs h1) (hk j hj)
      · rintro rfl; exact Or.inl ⟨he.symm _ _ hs, rfl⟩
    · simp only [hs, false_and, not_false_eq_true, true_and, false_or]
      constructor
      · rintro (h1 | h1)
        · exact absurd (he.symm _ _ h1.1) hs
        · exact h1
      · exact Or.inr
  | @put_same s i k0 hi hs =>
    simp only
    by_cases hk : sees k0 k
    · simp only [hk, true_and, not_true_eq_false, false_and, or_false]
      constructor
      · rintro ⟨j, hj, h1, rfl⟩
        rw [hd.keys i hi j hj (he.trans _ _ _ (he.symm _ _ hs) (he.trans _ _ _ hk h1))]
      · rintro rfl; exact ⟨i, hi, he.trans _ _ _ (he.symm _ _ hk) hs, rfl⟩
    · simp only [hk, false_and, not_false_eq_true, true_and, false_or]
  | @put_replace items loose k0 v0 a i hs hv hf =>
    simp only
    rw [holds_cons, holds_drop he hd]
    by_cases hk : sees k0 k
    · simp only [hk, true_and, not_true_eq_false, false_and, or_false]
      constructor
      · rintro (h1 | h1)
        · exact h1.2.symm
        · exact absurd (he.trans _ _ _ (he.symm _ _ hk) hs) h1.1
      · rintro rfl; exact Or.inl ⟨he.symm _ _ hk, rfl⟩
    · simp only [hk, false_and, not_false_eq_true, true_and, false_or]
      constructor
      · rintro (h1 | h1)
        · exact absurd (he.symm _ _ h1.1) hk
        · exact h1.2
      · intro h1
        exact Or.inr ⟨fun h2 => hk (he.trans _ _ _ hs (he.symm _ _ h2)), h1⟩
  | @pop_hit items loose i k0 hs =>
    simp only
    rw [Holds, holds_drop he hd]
    have : sees k0 k ↔ sees k i.key := ⟨fun h => he.trans _ _ _ (he.symm _ _ h) hs, fun h => he.trans _ _ _ hs (he.symm _ _ h)⟩
    rw [this]
  | @pop_miss s k0 hk =>
    simp only
    constructor
    · rintro ⟨i, hi, h1, h2⟩
      exact ⟨fun h => hk i hi (he.trans _ _ _ h h1), i, hi, h1, h2⟩
    · exact fun h => h.2
  | detach => simp only; rw [Holds, holds_drop he hd, hone hd]
  | remove => simp only; rw [Holds, holds_drop he hd, hone hd]
  | popAny => simp only; rw [Holds, holds_drop he hd, hone hd]
  | popAny_empty => simp [Holds]
  | discard => exact Iff.rfl
  | get_hit => exact Iff.rfl
  | get_miss => exact Iff.rfl
  | getAny => exact Iff.rfl
  | getAny_empty => exact Iff.rfl
  | getOther => exact Iff.rfl
  | getOther_last => exact Iff.rfl
  | traverse => exact Iff.rfl
  | size => exact Iff.rfl
  | empty => exact Iff.rfl
  | key => exact Iff.rfl
  | value => exact Iff.rfl

/-- C15, the result of `get`: NULL exactly when nothing is stored under the key, else the element holding the key's value. -/
theorem spec_get {sees : Nat → Nat → Prop} {s s' : State} {k : Nat} {r : Res} (h : Step sees s (.get k) r s') :
    (r = .ptr 0 ∧ ∀ v, ¬ Holds sees s k v) ∨ ∃ i ∈ s.items, r = .ptr i.elem ∧ sees k i.key ∧ Holds sees s k i.value := by
  cases h with
  | get_hit hi hs => exact Or.inr ⟨_, hi, rfl, hs, _, hi, hs, rfl⟩
  | get_miss hk => exact Or.inl ⟨rfl, fun v ⟨i, hi, h1, _⟩ => hk i hi h1⟩

/-- C15, the result of `put`: the element whose value it displaces, or NULL. -/
theorem spec_put {sees : Nat → Nat → Prop} {s s' : State} {k v : Nat} {r : Res} (h : Step sees s (.put k v) r s') :
    (r = .ptr 0 ∧ ((∀ w, ¬ Holds sees s k w) ∨ Holds sees s k v)) ∨
    ∃ i ∈ s.items, r = .ptr i.elem ∧ sees k i.key ∧ i.value ≠ v ∧ i ∈ s'.loose := by
  generalize hop : Op.put k v = op at h
  cases h with
  | put_new hk hf => cases hop; exact Or.inl ⟨rfl, Or.inl fun w ⟨i, hi, h1, _⟩ => hk i hi h1⟩
  | @put_same _ i _ hi hs => cases hop; exact Or.inl ⟨rfl, Or.inr ⟨i, hi, hs, rfl⟩⟩
  | @put_replace _ _ _ _ _ i hs hv hf =>
    cases hop; exact Or.inr ⟨i, Multiset.mem_cons_self _ _, rfl, hs, hv, Multiset.mem_cons_self _ _⟩
  | _ => cases hop

/-- C16: putting the value that is already stored under the key returns NULL and changes nothing in memory. -/
theorem hash_put_same {A : Alloc} (hA : A.Good) {F : Funs} {f g : Nat} (hc : Compatible (F.hash f) (F.cmp g 0)) (n : Nat) (p : Prog)
    (m0 : Mem) (hp : Legal (eqv (F.cmp g 0)) p ⟨0, 0⟩) :
    ∃ t rs m s, Run (session A F f g n p) m0 (t, rs) m ∧ Runs (eqv (F.cmp g 0)) p ⟨0, 0⟩ rs s ∧
      ∀ k v, Holds (eqv (F.cmp g 0)) s k v → Run (put A (F.hash f) (F.cmp g 0) t k v) m 0 m := by
  letI : Ptrs := ⟨f, g, 0, 0⟩
  rw [← sees_eq hc (capacity n)] at hp ⊢
  obtain ⟨⟨⟨t, rs⟩, m, h1, s, h2, h3⟩⟩ := session_sim (m0 := m0) hA hp
  refine ⟨t, rs, m, s, h1, h2, ?_⟩
  rintro k v ⟨i, hi, hs, rfl⟩
  have hequ : Equiv (sees (F.hash f) (F.cmp g 0) (capacity n)) := by rw [sees_eq hc]; exact eqv_equiv hc
  have hdis := runs_distinct hequ h2 (distinct_init _)
  obtain ⟨-, tb, bs, det, h, e1, e2⟩ := h3
  have hmem : ∀ e ∈ ents bs, e.item ∈ s.items := by
    intro e he; rw [e1]; simp only [Multiset.mem_coe, List.mem_map]; exact ⟨e, he, rfl⟩
  have hi' := hi
  rw [e1] at hi'
  simp only [Multiset.mem_coe, List.mem_map] at hi'
  obtain ⟨e, he, hei⟩ := hi'
  obtain ⟨⟨q, m', r1, r2⟩⟩ := put_spec (cmp := F.cmp g 0) hA h k i.value
  cases r2 with
  | new l le he' es hi2 hp hn h' h0 hf =>
    obtain ⟨l0, hi2⟩ := hi2
    refine absurd hs ?_
    have := h.miss hi2 hn e he
    rw [← hei]; exact this
  | same l es f hi2 hf hcm hv hp hm => subst hp hm; exact r1
  | replace l le he' xs ys x hi2 hcm hv hp h' h0 hf hg =>
    exfalso
    have hfm : x ∈ ents bs := mem_ents.2 ⟨_, _, _, hi2, by simp⟩
    have hsf : sees (F.hash f) (F.cmp g 0) (capacity n) k x.key := ⟨hcm, (h.elem hi2 (e := x) (by simp)).2.2.symm⟩
    have := hdis.keys i hi x.item (hmem x hfm) (hequ.trans _ _ _ (hequ.symm _ _ hs) hsf)
    exact hv (by rw [this]; rfl)

/-- C17: the traversal visits the stored elements, each exactly once, and changes nothing. -/
theorem hash_traversal {A : Alloc} (hA : A.Good) {F : Funs} {f g : Nat} (n : Nat) (p : Prog) (m0 : Mem)
    (hp : Legal (sees (F.hash f) (F.cmp g 0) (capacity n)) p ⟨0, 0⟩) :
    ∃ t rs m s ps, Run (session A F f g n p) m0 (t, rs) m ∧ Runs (sees (F.hash f) (F.cmp g 0) (capacity n)) p ⟨0, 0⟩ rs s ∧ Run (traverse t) m ps m ∧
      ps.Nodup ∧ (ps : Multiset Nat) = s.items.map (·.elem) ∧ 0 ∉ ps := by
  letI : Ptrs := ⟨f, g, 0, 0⟩
  obtain ⟨⟨⟨t, rs⟩, m, h1, s, h2, h3⟩⟩ := session_sim (m0 := m0) hA hp
  obtain ⟨hcap, tb, bs, det, h, e1, e2⟩ := h3
  refine ⟨t, rs, m, s, _, h1, h2, traverse_spec h hcap, ents_nodup h, ?_, ?_⟩
  · rw [e1, Multiset.map_coe]; simp [Ent.item, Function.comp_def]
  · intro h0
    obtain ⟨e, he, h0⟩ := List.mem_map.1 h0
    exact (h.elem' he).1 h0

/-- C18: for every hash function, comparator and requested capacity, a legal program never goes wrong; `destroy_hash_table` then frees every block of
the table exactly once, so that memory is as it was before, but for the elements that left the table and that the user has to destroy. -/
theorem hash_table_leak_free {A : Alloc} (hA : A.Good) {F : Funs} {f g : Nat} (n : Nat) (p : Prog) (m0 : Mem)
    (hp : Legal (sees (F.hash f) (F.cmp g 0) (capacity n)) p ⟨0, 0⟩) :
    ∃ t rs m m' s, Run (session A F f g n p) m0 (t, rs) m ∧ Runs (sees (F.hash f) (F.cmp g 0) (capacity n)) p ⟨0, 0⟩ rs s ∧ Run (destroy t) m () m' ∧
      (∀ a, (∀ i ∈ s.loose, i.elem ≠ a) → m'.get a = m0.get a) ∧
      ∀ i ∈ s.loose, m0.get i.elem = none ∧ ∃ x y z, m'.get i.elem = some (.helem ⟨i.key, i.value, x, y, z⟩) := by
  letI : Ptrs := ⟨f, g, 0, 0⟩
  obtain ⟨⟨⟨t, rs⟩, m, h1, s, h2, h3⟩⟩ := session_sim (m0 := m0) hA hp
  obtain ⟨hcap, tb, bs, det, h, e1, e2⟩ := h3
  obtain ⟨⟨_, m', h4, h5⟩⟩ := destroy_spec h
  refine ⟨t, rs, m, m', s, h1, h2, h4, ?_, ?_⟩
  · intro a ha
    rw [h5 a, if_neg]
    intro hm
    obtain ⟨d, hd, e⟩ := List.mem_map.1 hm
    exact ha d (by rw [e2]; exact hd) e
  · intro i hi
    rw [e2] at hi
    simp only [Multiset.mem_coe] at hi
    obtain ⟨-, x, y, z, q⟩ := h.dt i hi
    refine ⟨h.fresh _ (mem_owned.2 (Or.inr (Or.inr (Or.inr ⟨i, hi, rfl⟩)))), x, y, z, ?_⟩
    rw [h5, if_pos (List.mem_map.2 ⟨i, hi, rfl⟩), q]

theorem goodSize_least (n z : Nat) : ∀ (xs : List Nat), (∀ x ∈ xs, x ≠ 0) → z ≠ 0 → (xs ++ [z]).Pairwise (· ≤ ·) →
    ∀ g, goodSize n (xs ++ [z, 0]) = some g → ∀ x ∈ xs ++ [z], n ≤ x → g ≤ x := by
  intro xs
  induction xs with
  | nil => intro _ _ _ g hg x hx _; simp [goodSize] at hg; simp at hx; omega
  | cons a xs ih =>
    intro h hz hs g hg x hx hn
    have hstep : ∃ b l, xs ++ [z, 0] = b :: l ∧ b ≠ 0 := by
      cases xs with
      | nil => exact ⟨z, [0], rfl, hz⟩
      | cons b xs => exact ⟨b, xs ++ [z, 0], rfl, h b (by simp)⟩
    obtain ⟨b, l, hbl, hb⟩ := hstep
    rw [List.cons_append, List.pairwise_cons] at hs
    rw [List.cons_append, hbl, goodSize] at hg
    rw [List.cons_append, List.mem_cons] at hx
    by_cases hc : a < n
    · rw [if_pos ⟨hb, hc⟩, ← hbl] at hg
      rcases hx with rfl | hx
      · omega
      · exact ih (fun x hx => h x (List.mem_cons_of_mem _ hx)) hz hs.2 g hg x hx hn
    · rw [if_neg (fun q => hc q.2)] at hg
      simp only [Option.some.injEq] at hg
      subst hg
      rcases hx with rfl | hx
      · exact Nat.le_refl _
      · exact hs.1 x hx

/-- C18: the capacity, by which bucket indices are reduced, is positive; it is the smallest listed size that is not below what was asked for, or the
largest listed size. -/
theorem hash_capacity (n : Nat) : 0 < capacity n ∧ capacity n ∈ GOOD_SIZES ∧ (n ≤ capacity n ∨ ∀ g ∈ GOOD_SIZES, g ≤ capacity n) ∧
    ∀ g ∈ GOOD_SIZES, g ≠ 0 → n ≤ g → capacity n ≤ g := by
  obtain ⟨h1, h2, -, h3⟩ := capacity_spec n
  have hmem : ∀ g ∈ GOOD_SIZES, g ≠ 0 → g ∈ GOOD_SIZES.take 25 ++ [1610612741] := by decide +kernel
  have hmax : ∀ g ∈ GOOD_SIZES, g ≤ 1610612741 := by decide +kernel
  have hsub : ∀ g ∈ GOOD_SIZES.take 25 ++ [1610612741], g ∈ GOOD_SIZES := by decide +kernel
  refine ⟨h2, ?_, ?_, ?_⟩
  · obtain ⟨g, h4, h5, -⟩ := goodSize_some n 1610612741 (GOOD_SIZES.take 25) (by decide) (by decide)
    have h6 : goodSize n GOOD_SIZES = some g := h5
    rw [h6, Option.some.injEq] at h1
    rw [← h1]; exact hsub g h4
  · rcases h3 with h3 | h3
    · exact Or.inl h3
    · rw [h3]; exact Or.inr hmax
  · intro g hg h0 hn
    exact goodSize_least n 1610612741 (GOOD_SIZES.take 25) (by decide) (by decide) (by decide +kernel) _ h1 g (hmem g hg h0) hn

/-- The number a `char` of these bits is, if `char` is signed. -/
def schar (c : UInt8) : Int := if c.toNat < 128 then c.toNat else (c.toNat : Int) - 256

/-- The hash of digits as one polynomial. -/
def poly : List Int → Int
  | [] => 0
  | d :: ds => (d + 9999991) * 9973 ^ ds.length + poly ds

theorem modEq_of_eq {n a b : Int} (h : a = b) : a ≡ b [ZMOD n] := by rw [h]

theorem h9 : (9973 : UInt64).toNat = 9973 := by decide +kernel
theorem h99 : (9999991 : UInt64).toNat = 9999991 := by decide +kernel
theorem mix_mod (x y a N : Nat) : (((x % N + y) % N) + a) % N = (x + y + a) % N := by simp

theorem mix_toNat (h d : UInt64) : (mix h d).toNat = (h.toNat * 9973 + d.toNat + 9999991) % 2 ^ 64 := by
  unfold mix
  rw [UInt64.toNat_add, UInt64.toNat_add, UInt64.toNat_mul, h9, h99, mix_mod]

theorem hash_step (h d : UInt64) (z : Int) (hz : (d.toNat : Int) ≡ z [ZMOD 2 ^ 64]) :
    ((mix h d).toNat : Int) ≡ h.toNat * 9973 + (z + 9999991) [ZMOD 2 ^ 64] := by
  have : ((mix h d).toNat : Int) = ((h.toNat * 9973 + d.toNat + 9999991 : Nat) : Int) % 2 ^ 64 := by
    have h2 : (2 : Int) ^ 64 = ((2 ^ 64 : Nat) : Int) := by norm_num
    rw [h2, ← Int.natCast_mod, mix_toNat]
  rw [this]
  refine (Int.mod_modEq _ _).trans ?_
  push_cast
  rw [add_assoc]
  exact Int.ModEq.add_left _ (hz.add_right _)

theorem schar_spec (c : UInt8) : ((c.toInt8.toInt64.toUInt64).toNat : Int) ≡ schar c [ZMOD 2 ^ 64] := by
  revert c; apply u8_all; decide +kernel

theorem hashStringLoop_spec (s rest : List UInt8) (hs : 0 ∉ s) : ∀ h : UInt64, ∃ r, hashStringLoop (s ++ 0 :: rest) h = .ok r ∧
    (r.toNat : Int) ≡ h.toNat * 9973 ^ s.length + poly (s.map schar) [ZMOD 2 ^ 64] := by
  induction s with
  | nil => intro h; exact ⟨h, by simp [hashStringLoop], modEq_of_eq (by simp [poly])⟩
  | cons c s ih =>
    intro h
    simp only [List.mem_cons, not_or] at hs
    obtain ⟨r, h1, h2⟩ := ih hs.2 (mix h c.toInt8.toInt64.toUInt64)
    refine ⟨r, ?_, ?_⟩
    · rw [List.cons_append, hashStringLoop, if_neg (Ne.symm hs.1)]; exact h1
    · refine h2.trans ?_
      refine ((Int.ModEq.mul_right _ (hash_step h _ _ (schar_spec c))).add_right _).trans ?_
      rw [List.map_cons, poly, List.length_map, List.length_cons, pow_succ]
      exact modEq_of_eq (by ring)

theorem hashBlobLoop_spec (s : List UInt8) : ∀ h : UInt64, ((s.foldl (fun hash c => mix hash c.toUInt64) h).toNat : Int) ≡
    h.toNat * 9973 ^ s.length + poly (s.map (fun c => (c.toNat : Int))) [ZMOD 2 ^ 64] := by
  induction s with
  | nil => intro h; exact modEq_of_eq (by simp [poly])
  | cons c s ih =>
    intro h
    rw [List.foldl_cons]
    refine (ih (mix h c.toUInt64)).trans ?_
    refine ((Int.ModEq.mul_right _ (hash_step h _ (c.toNat : Int) (modEq_of_eq (by rw [UInt8.toNat_toUInt64])))).add_right _).trans ?_
    rw [List.map_cons, poly, List.length_map, List.length_cons, pow_succ]
    exact modEq_of_eq (by ring)

theorem u64_modEq {r : UInt64} {z : Int} (h : (r.toNat : Int) ≡ z [ZMOD 2 ^ 64]) : (r.toNat : Int) = z % 2 ^ 64 := by
  have := r.toNat_lt
  rw [← h, Int.emod_eq_of_lt (by omega) (by omega)]

/-- C19: the hash of a string is a fixed polynomial in its characters, whatever follows the NUL. -/
theorem hash_string_value (s rest : List UInt8) (hs : 0 ∉ s) :
    ∃ r, hashString (s ++ 0 :: rest) = .ok r ∧ (r.toNat : Int) = poly (s.map schar) % 2 ^ 64 := by
  obtain ⟨r, h1, h2⟩ := hashStringLoop_spec s rest hs 0
  exact ⟨r, h1, u64_modEq (by simpa using h2)⟩

/-- C19: the hash of a blob is the same polynomial in its bytes, whatever follows them. -/
theorem hash_blob_value (s rest : List UInt8) :
    ∃ r, hashBlob (s ++ rest) s.length = .ok r ∧ (r.toNat : Int) = poly (s.map (fun c => (c.toNat : Int))) % 2 ^ 64 := by
  refine ⟨s.foldl (fun hash c => mix hash c.toUInt64) 0, ?_, ?_⟩
  · rw [hashBlob, if_pos (by simp)]; simp
  · exact u64_modEq (by simpa using hashBlobLoop_spec s 0)

example : (0 : UInt8) ∉ [97, 98, 200] := by decide

/-- C19: equal strings in different places have the same hash, and likewise blobs. -/
theorem hash_equal (s rest rest' : List UInt8) : (0 ∉ s → hashString (s ++ 0 :: rest) = hashString (s ++ 0 :: rest')) ∧
    hashBlob (s ++ rest) s.length = hashBlob (s ++ rest') s.length := by
  constructor
  · intro hs
    obtain ⟨r, h1, h2⟩ := hash_string_value s rest hs
    obtain ⟨r', h3, h4⟩ := hash_string_value s rest' hs
    rw [h1, h3]
    have : r = r' := UInt64.toNat_inj.1 (by omega)
    rw [this]
  · obtain ⟨r, h1, h2⟩ := hash_blob_value s rest
    obtain ⟨r', h3, h4⟩ := hash_blob_value s rest'
    rw [h1, h3]
    have : r = r' := UInt64.toNat_inj.1 (by omega)
    rw [this]

/-- C19: for strings of 7-bit characters, `hash_string(s) == hash_blob(s, strlen(s))`. -/
theorem hash_string_blob (s rest : List UInt8) (hs : ∀ c ∈ s, c ≠ 0 ∧ c.toNat < 128) :
    hashString (s ++ 0 :: rest) = hashBlob (s ++ 0 :: rest) s.length := by
  obtain ⟨r, h1, h2⟩ := hash_string_value s rest (fun h => (hs 0 h).1 rfl)
  obtain ⟨r', h3, h4⟩ := hash_blob_value s (0 :: rest)
  have hm : s.map schar = s.map (fun c => (c.toNat : Int)) := by
    apply List.map_congr_left
    intro c hc
    simp [schar, (hs c hc).2]
  rw [hm] at h2
  rw [h1, h3]
  have : r = r' := UInt64.toNat_inj.1 (by omega)
  rw [this]

example : ∀ c ∈ ([104, 105] : List UInt8), c ≠ 0 ∧ c.toNat < 128 := by decide

/-- With 8-bit characters the two differ (where `char` is signed). -/
theorem hash_string_blob_eight_bit : ∃ s : List UInt8, 0 ∉ s ∧ hashString (s ++ [0]) ≠ hashBlob (s ++ [0]) s.length :=
  ⟨[0xc3, 0xa4], by decide, by decide +kernel⟩

theorem bmod_mod {x : Nat} (h : x < 2 ^ 64) : (x : Int) = Int.bmod x (2 ^ 64) % 2 ^ 64 := by
  have := Int.bmod_emod (x := (x : Int)) (m := 2 ^ 64)
  have h2 : (2 : Int) ^ 64 = ((2 ^ 64 : Nat) : Int) := by norm_num
  rw [h2, this, Int.emod_eq_of_lt (by omega) (by omega)]

/-- C19: `hash_integer` and `hash_unsigned` are the value modulo 2^64: values that compare equal hash equal, and different values hash differently. -/
theorem hash_integer_value (v : Int64) (u : UInt64) : ((hashInteger (Integer.asInteger v)).toNat : Int) = v.toInt % 2 ^ 64 ∧
    hashUnsigned (Integer.asUnsigned u) = u ∧
    (∀ a b, Integer.integerCmp a b = 0 ↔ hashInteger a = hashInteger b) ∧ (∀ a b, Integer.unsignedCmp a b = 0 ↔ hashUnsigned a = hashUnsigned b) := by
  refine ⟨?_, rfl, fun a b => ?_, fun a b => ?_⟩
  · have h1 : hashInteger (Integer.asInteger v) = v.toUInt64 := by simp [hashInteger, Integer.asIntptr, Integer.asInteger]
    rw [h1]
    have h2 : (v.toUInt64.toNat : Int) = v.toUInt64.toBitVec.toNat := rfl
    rw [h2, show v.toUInt64.toBitVec = v.toBitVec from rfl, ← Int64.toInt_toBitVec, BitVec.toInt_eq_toNat_bmod]
    exact bmod_mod v.toBitVec.isLt
  · have h := Integer.integer_cmps_total_orders.1.refl a b
    rw [h]
    simp [hashInteger, Integer.asIntptr]
  · have h := Integer.integer_cmps_total_orders.2.refl a b
    rw [h]
    simp [hashUnsigned, Integer.asUintptr]

end Verif.Hash
