import Verif.Props.Whole
import Mathlib.Algebra.BigOperators.Group.Finset.Basic
import Mathlib.Data.Fintype.BigOperators

/-! Property C118: how many blocks of memory the library uses. -/

namespace Verif.Whole
open Spec.Whole (Api Kind Prog World Legal Runs)
set_option autoImplicit false

theorem mem_of_get {m : Mem} {a : Nat} (h : m.get a ≠ none) : a ∈ m.map (·.1) := by
  unfold Mem.get at h
  cases hf : m.find? (fun p => p.1 == a) with
  | none => rw [hf] at h; exact absurd rfl h
  | some p =>
    have := List.find?_some hf
    exact List.mem_map.2 ⟨p, List.mem_of_find?_eq_some hf, by simpa using this⟩

/-- The blocks of a part, of which there are finitely many. -/
theorem own_finset (base m : Mem) : ∃ own : Finset Nat, ∀ a, a ∈ own ↔ Own base m a := by
  classical
  refine ⟨(m.map (·.1)).toFinset.filter (Own base m), fun a => ?_⟩
  rw [Finset.mem_filter, List.mem_toFinset]
  exact ⟨fun h => h.2, fun h => ⟨mem_of_get h.2, h⟩⟩

/-- C118. After every legal program on any parts of the library, with any allocator and from any memory, each part uses as many blocks as its
contents say: a tree or list one for itself and one for each element, an element that has left its tree or table one; a hash table one for itself, one
for its buckets, one for each list, of which it has at most as many as buckets, and two for each element; a set, queue or byte array one or two; a
string one. No block belongs to two parts. -/
theorem library_blocks {A : Alloc} (hA : A.Good) (F : Funs) (m : Mem) {ι : Type} [DecidableEq ι] (kinds : ι → Kind) (hk : ∀ i, Callbacks F (kinds i))
    (p : Prog fun i => (kinds i).api F (Objects.external m)) (hl : Legal p (start _)) :
    ∃ rs locs m' s, Run (exec (fun i => code F (Objects.external m) A (kinds i)) p fun i => (code F (Objects.external m) A (kinds i)).init) m (rs, locs) m' ∧
      Runs p (start _) rs s ∧ ∃ own : ι → Finset Nat, (∀ i j, i ≠ j → Disjoint (own i) (own j)) ∧
        (∀ a, (m.get a = none ∧ m'.get a ≠ none) ↔ ∃ i, a ∈ own i) ∧
        (∀ i a, ((kinds i).api F (Objects.external m)).holds (s i) a → a ∈ own i) ∧
        ∀ i, ((kinds i).api F (Objects.external m)).size (s i) (own i).card := by
  obtain ⟨⟨⟨rs, locs⟩, m', h1, s, base, h2, h3⟩⟩ := exec_sim p (start_inv fun i => impl hA F m (kinds i) (hk i)) hl
  choose own hown using fun i => own_finset (base i) m'
  refine ⟨rs, locs, m', s, h1, h2, own, fun i j hij => ?_, fun a => ⟨fun ha => ?_, fun ⟨i, hi⟩ => ?_⟩,
    fun i a ha => (hown i a).2 ((impl hA F m (kinds i) (hk i)).holds (h3.each i) ha), fun i => (impl hA F m (kinds i) (hk i)).blocks (h3.each i) (hown i)⟩
  · rw [Finset.disjoint_left]
    intro a hi hj
    exact h3.disj i j hij a ((hown i a).1 hi) ((hown j a).1 hj)
  · by_contra hn
    rw [not_exists] at hn
    exact ha.2 (by rw [h3.frame a fun i hi => hn i ((hown i a).2 hi)]; exact ha.1)
  · have := (hown i a).1 hi
    exact ⟨h3.fresh i a this, this.2⟩

/-- C118. In all, the blocks in use that were not in use before are as many as the contents of the parts say. -/
theorem library_total {A : Alloc} (hA : A.Good) (F : Funs) (m : Mem) {ι : Type} [DecidableEq ι] [Fintype ι] (kinds : ι → Kind)
    (hk : ∀ i, Callbacks F (kinds i)) (p : Prog fun i => (kinds i).api F (Objects.external m)) (hl : Legal p (start _)) :
    ∃ rs locs m' s, Run (exec (fun i => code F (Objects.external m) A (kinds i)) p fun i => (code F (Objects.external m) A (kinds i)).init) m (rs, locs) m' ∧
      Runs p (start _) rs s ∧ ∃ (blocks : Finset Nat) (n : ι → Nat), (∀ a, a ∈ blocks ↔ m.get a = none ∧ m'.get a ≠ none) ∧
        (∀ i, ((kinds i).api F (Objects.external m)).size (s i) (n i)) ∧ blocks.card = ∑ i, n i := by
  obtain ⟨rs, locs, m', s, h1, h2, own, h3, h4, -, h5⟩ := library_blocks hA F m kinds hk p hl
  refine ⟨rs, locs, m', s, h1, h2, Finset.univ.biUnion own, fun i => (own i).card, fun a => ?_, h5, ?_⟩
  · rw [h4 a, Finset.mem_biUnion]; simp
  · exact Finset.card_biUnion fun i _ j _ hij => h3 i j hij

/-! ### A program and its blocks -/

def fewKinds : Bool → Kind
  | true => .trees 2 0
  | false => .objects 2 0 0

theorem few_callbacks : ∀ i, Callbacks sampleFuns (fewKinds i)
  | true => trivial
  | false => sample_callbacks .objects

/-- A tree with a key, a queue with an element, and a byte array that is destroyed again. -/
def fewProg : Prog fun i => (fewKinds i).api sampleFuns (Objects.external []) :=
  .call true Spec.Avl.Op.make fun
    | Spec.Avl.Res.ptr t => .call true (Spec.Avl.Op.put t 5 50) fun _ => .call false Spec.Objects.Cmd.makeQueue fun _ =>
      .call false (Spec.Objects.Cmd.makeBytes (fun _ => 0) 10) fun _ => .call false (Spec.Objects.Cmd.onQueue 0 (.enqueue 3)) fun _ =>
      .call false (Spec.Objects.Cmd.destroy 1) fun _ => .done
    | _ => .done

theorem few_legal : Legal fewProg (start _) := by
  refine ⟨trivial, fun r s1 h => ?_⟩
  obtain ⟨t, rfl, ht⟩ := Avl.make_has h rfl
  refine ⟨ht, fun r s2 h => ⟨trivial, fun r s3 h => ?_⟩⟩
  cases h
  refine ⟨⟨by decide, by decide⟩, fun r s4 h => ?_⟩
  cases h
  refine ⟨⟨_, rfl, by decide⟩, fun r s5 h => ?_⟩
  cases h with | onQueue _ _ _ _ _ e h => _
  cases e; cases h
  exact ⟨⟨_, rfl⟩, fun _ _ _ => trivial⟩

theorem first_put {cmp : Nat → Nat → Int} {s1 s2 : Spec.Avl.State} {t : Nat} {r : Spec.Avl.Res} (h1 : Spec.Avl.Step cmp ⟨0, 0⟩ .make (.ptr t) s1)
    (h2 : Spec.Avl.Step cmp s1 (.put t 5 50) r s2) : (s2.trees.map fun x => 1 + x.2.length).sum + s2.loose.card = 2 := by
  have h3 : s1 = ⟨{(t, [])}, 0⟩ := by
    generalize ho : Spec.Avl.Op.make = op at h1
    generalize hs : (⟨0, 0⟩ : Spec.Avl.State) = s at h1
    cases h1 with
    | make hf => cases hs; rfl
    | looks h => cases h <;> cases ho
    | _ => cases ho
  subst h3
  generalize ho : Spec.Avl.Op.put t 5 50 = op at h2
  generalize hs : (⟨{(t, [])}, 0⟩ : Spec.Avl.State) = s at h2
  cases h2 with
  | put_new h hf =>
    simp only [Spec.Avl.State.mk.injEq] at hs
    obtain ⟨e1, rfl⟩ := hs
    have := congrArg (fun ts : Multiset (Nat × List Spec.Avl.Item) => (ts.map fun x => 1 + x.2.length).sum) e1
    simp at this ⊢
    omega
  | put_replace h hf =>
    simp only [Spec.Avl.State.mk.injEq] at hs
    obtain ⟨e1, rfl⟩ := hs
    have := congrArg (fun ts : Multiset (Nat × List Spec.Avl.Item) => (ts.map fun x => 1 + x.2.length).sum) e1
    simp at this
    omega
  | looks h => cases h <;> cases ho
  | _ => cases ho

theorem queue_size {xs : Multiset Nat} {k : Nat} (h : Spec.Whole.ObjSize (some (.queue xs)) k) (hx : xs ≠ 0) : k = 2 := by
  generalize ho : some (Spec.Objects.Obj.queue xs) = o at h
  cases h with
  | queue => rfl
  | emptyQueue => cases ho; exact absurd rfl hx
  | _ => cases ho

/-- It ends with exactly four blocks in use. -/
example {A : Alloc} (hA : A.Good) : ∃ rs locs m',
    Run (exec (fun i => code sampleFuns (Objects.external []) A (fewKinds i)) fewProg fun i => (code sampleFuns (Objects.external []) A (fewKinds i)).init) [] (rs, locs) m' ∧
      ∃ blocks : Finset Nat, (∀ a, a ∈ blocks ↔ m'.get a ≠ none) ∧ blocks.card = 4 := by
  obtain ⟨rs, locs, m', s, h1, h2, blocks, n, h3, h4, h5⟩ := library_total hA sampleFuns [] fewKinds few_callbacks fewProg few_legal
  refine ⟨rs, locs, m', h1, blocks, fun a => (h3 a).trans ⟨fun h => h.2, fun h => ⟨by simp [Mem.get], h⟩⟩, ?_⟩
  rw [h5, Fintype.sum_bool]
  cases h2 with | call g1 h2 => _
  obtain ⟨t, rfl, ht⟩ := Avl.make_has g1 rfl
  cases h2 with | call g2 h2 => _
  cases h2 with | call g3 h2 => _
  cases h2 with | call g4 h2 => _
  cases h2 with | call g5 h2 => _
  cases h2 with | call g6 h2 => _
  cases h2
  have e1 : n true = 2 := by
    have := h4 true
    exact Eq.trans this (first_put g1 g2)
  have e2 : n false = 2 := by
    obtain ⟨ns, hf, e⟩ := h4 false
    cases g3
    cases g4
    cases g5 with | onQueue _ _ _ _ _ e5 q5 => _
    cases e5; cases q5
    generalize hc : Spec.Objects.Cmd.destroy 1 = c at g6
    cases g6 with
    | destroyBytes i max c e6 =>
      cases hc
      cases e6
      cases hf with | cons o1 hf => _
      cases hf with | cons o2 hf => _
      cases hf
      cases o2
      obtain rfl := queue_size o1 (Multiset.cons_ne_zero)
      exact e
    | release i max c k e6 => cases hc; cases e6
    | destroySet i n S e6 => cases hc; cases e6
    | destroyQueue i xs e6 => cases hc; cases e6
    | _ => cases hc
  omega

end Verif.Whole
