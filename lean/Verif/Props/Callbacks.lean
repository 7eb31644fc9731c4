import Verif.Props.HashTable
import Verif.Props.Objects
import Verif.Props.Whole

/-! Property C114: trees, hash tables and queues keep the callbacks they were made with. -/

namespace Verif.Callbacks
set_option autoImplicit false

/-- C114, trees: after every program the block of every tree, made or copied, holds the comparator and the context that the trees were made with. -/
theorem avl_callbacks {A : Alloc} (hA : A.Good) (F : Funs) (f d : Nat) (p : Spec.Avl.Prog) (m0 : Mem) (hp : Spec.Avl.Legal (F.cmp f d) p ⟨0, 0⟩) :
    ∃ rs m s, Run (Avl.exec A F f d p) m0 rs m ∧ Spec.Avl.Runs (F.cmp f d) p ⟨0, 0⟩ rs s ∧
      ∀ t items, (t, items) ∈ s.trees → ∃ c, m.get t = some (.atree c) ∧ c.cmp = f ∧ c.obj = d := by
  letI : Ptrs := ⟨0, f, d, 0⟩
  obtain ⟨rs, m, s, h1, h2, h3⟩ := Avl.exec_inv hA m0 hp
  refine ⟨rs, m, s, h1, h2, fun t items ht => ?_⟩
  obtain ⟨root, e⟩ := h3.cell ht
  exact ⟨_, e, rfl, rfl⟩

/-- C114, hash tables. -/
theorem hash_callbacks {A : Alloc} (hA : A.Good) {F : Funs} {f g : Nat} (n : Nat) (p : Spec.Hash.Prog) (m0 : Mem)
    (hp : Spec.Hash.Legal (Hash.sees (F.hash f) (F.cmp g 0) (Hash.capacity n)) p ⟨0, 0⟩) :
    ∃ t rs m s, Run (Hash.session A F f g n p) m0 (t, rs) m ∧ Spec.Hash.Runs (Hash.sees (F.hash f) (F.cmp g 0) (Hash.capacity n)) p ⟨0, 0⟩ rs s ∧
      ∃ c, m.get t = some (.htable c) ∧ c.hash = f ∧ c.cmp = g := by
  letI : Ptrs := ⟨f, g, 0, 0⟩
  obtain ⟨⟨⟨t, rs⟩, m, h1, s, h2, h3⟩⟩ := Hash.session_sim (m0 := m0) hA hp
  obtain ⟨-, tb, bs, det, h, -, -⟩ := h3
  exact ⟨t, rs, m, s, h1, h2, _, h.head, rfl, rfl⟩

/-- C114, queues: each holds its comparator and context, and the callback for new locations, or the one that does nothing if NULL was given. -/
theorem queue_callbacks {A : Alloc} (hA : A.Good) {F : Funs} {c r o : Nat} (hc : Spec.Prioq.Preorder (F.cmp c o)) (m : Mem) (cs : List Spec.Objects.Cmd)
    (hl : Spec.Objects.Legal (Objects.external m) (fun a b => F.cmp c o a b ≤ 0) [] cs) :
    ∃ rs env m' v, Run (Objects.progM A F c r o [] cs) m (rs, env) m' ∧
      Spec.Objects.Steps (Objects.external m) (fun a b => F.cmp c o a b ≤ 0) [] cs rs v ∧
      ∀ (i : Nat) xs, v[i]? = some (some (.queue xs)) → ∃ x q, env[i]? = some x ∧ m'.get x.1 = some (.pqueue q) ∧ q.cmp = c ∧ q.obj = o ∧
        q.reloc = if r = 0 then F.dummyReloc else r := by
  letI : Ptrs := ⟨0, c, o, if r ≠ 0 then r else F.dummyReloc⟩
  obtain ⟨rs, w, v, h1, h2, h3⟩ := Objects.prog_sim hc cs (Objects.Good.start (cmp := F.cmp c o)) hl
  obtain ⟨⟨rs', env⟩, m', g1, rfl, fp, g2⟩ := Objects.progM_spec hA (rl := r) rfl cs (Objects.wInv_start m) h1
  refine ⟨rs', env, m', v, g1, h2, fun i xs hi => ?_⟩
  obtain ⟨ob, hw, hrep⟩ := h3.each i _ hi
  obtain ⟨x, hx, hat⟩ := g2.each i _ hw
  cases ob with
  | queue q =>
    obtain ⟨-, d, hq, -⟩ := hat
    refine ⟨x, _, hx, hq.header, rfl, rfl, ?_⟩
    by_cases h0 : r = 0
    · rw [if_pos h0]; exact if_neg (fun h => h h0)
    · rw [if_neg h0]; exact if_pos h0
  | set s => cases hrep
  | bytes b k => cases hrep

/-- Not vacuous: a queue made without a callback for new locations. -/
example : ∃ x q m', m'.get x = some (.pqueue q) ∧ q.cmp = 2 ∧ q.obj = 0 ∧ q.reloc = 1 ∧
    ∃ rs env, Run (Objects.progM Alloc.example Objects.sampleFuns 2 0 0 [] [.makeQueue, .onQueue 0 (.enqueue 5)]) [] (rs, env) m' := by
  have hl : Spec.Objects.Legal (Objects.external []) (fun a b => Objects.sampleFuns.cmp 2 0 a b ≤ 0) [] [.makeQueue, .onQueue 0 (.enqueue 5)] := by
    refine ⟨trivial, ?_⟩
    intro r w h; cases h
    exact ⟨⟨_, rfl, by decide⟩, fun _ _ _ => trivial⟩
  obtain ⟨rs, env, m', v, h1, h2, h3⟩ := queue_callbacks Alloc.example_good (F := Objects.sampleFuns) (c := 2) (r := 0) (o := 0)
    ⟨fun a b => by simp only [Objects.sampleFuns]; omega, fun a b c => by simp only [Objects.sampleFuns]; omega⟩ [] _ hl
  cases h2 with | cons e1 h2 => _
  cases h2 with | cons e2 h2 => _
  cases h2
  cases e1
  cases e2 with | onQueue _ _ _ _ _ e h => _
  cases e; cases h
  obtain ⟨x, q, -, g1, g2, g3, g4⟩ := h3 0 _ rfl
  exact ⟨x.1, q, m', g1, g2, g3, g4, _, env, h1⟩

end Verif.Callbacks
