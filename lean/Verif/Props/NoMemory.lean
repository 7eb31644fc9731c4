import Verif.Proofs.NoMemory
import Verif.Props.Whole
import Verif.Props.Owned

/-! Property C116: what happens when there is no more memory. -/

namespace Verif
set_option autoImplicit false

/-- What malloc promises of the addresses it returns; it need not have room for every block. -/
structure Alloc.Fair (A : Alloc) : Prop where
  nonnull : ∀ m : Mem, A.pick m ≠ 0
  fresh : ∀ m : Mem, m.get (A.pick m) = none

theorem Alloc.Fair.roomy {A : Alloc} (h : A.Fair) : A.roomy.Good := ⟨h.nonnull, h.fresh, fun _ _ => rfl⟩

theorem Aborts.not_run {α : Type} {x : M α} {m m' : Mem} {a : α} (h : Aborts x m) : ¬ Run x m a m' := by
  intro h'
  rw [Run, show x m = liftC (.error .abort) from h] at h'
  exact nomatch h'

/-- A computation that returns with room for everything aborts, or does the same. -/
theorem Sub.run {α : Type} {x y : M α} (h : Sub x y) {m m' : Mem} {a : α} (hr : Run y m a m') : Aborts x m ∨ Run x m a m' := by
  have hr' : y m = some (.ok (a, m')) := hr
  rcases h m with h | h | h
  · rw [h] at hr'; exact nomatch hr'
  · right; rw [Run, h]; exact hr
  · exact .inl h

namespace Whole
open Spec.Whole (Api Kind Prog World Legal Runs)

/-- C116. With an allocator that has no room for some blocks in some memories, every legal program on all parts of the library either is aborted,
because the allocator had no room, or does everything that `library_refines` says of programs that have room for everything. It never has undefined
behaviour, never runs forever and never returns something else. -/
theorem library_out_of_memory {A : Alloc} (hA : A.Fair) (F : Funs) (m : Mem) {ι : Type} [DecidableEq ι] (kinds : ι → Kind)
    (hk : ∀ i, Callbacks F (kinds i)) (p : Prog fun i => (kinds i).api F (Objects.external m)) (hl : Legal p (start _)) :
    (Aborts (exec (fun i => code F (Objects.external m) A (kinds i)) p fun i => (code F (Objects.external m) A (kinds i)).init) m ∧
      ∃ m' c, A.full m' c = true) ∨
    ∃ rs locs m' s, Run (exec (fun i => code F (Objects.external m) A (kinds i)) p fun i => (code F (Objects.external m) A (kinds i)).init) m (rs, locs) m' ∧
      Runs p (start _) rs s ∧ (∀ a, m.get a ≠ none → m'.get a = m.get a) ∧
      (∃ own : ι → Nat → Prop, (∀ i j, i ≠ j → ∀ a, own i a → ¬ own j a) ∧ (∀ a, (m.get a = none ∧ m'.get a ≠ none) ↔ ∃ i, own i a) ∧
        (∀ i a, ((kinds i).api F (Objects.external m)).holds (s i) a → own i a) ∧ ∀ i, ((kinds i).api F (Objects.external m)).gone (s i) → ∀ a, ¬ own i a) ∧
      ((∀ i, ((kinds i).api F (Objects.external m)).gone (s i)) → ∀ a, m'.get a = m.get a) := by
  by_cases hf : ∃ m' c, A.full m' c = true
  · choose f hf1 hf2 using fun i => sub_code A F (Objects.external m) (kinds i)
    have key : ∀ C : (i : ι) → Code ((kinds i).api F (Objects.external m)), C = (fun i => code F (Objects.external m) A.roomy (kinds i)) →
        ∃ rs locs m' s, Run (exec C p fun i => (C i).init) m (rs, locs) m' ∧
      Runs p (start _) rs s ∧ (∀ a, m.get a ≠ none → m'.get a = m.get a) ∧
      (∃ own : ι → Nat → Prop, (∀ i j, i ≠ j → ∀ a, own i a → ¬ own j a) ∧ (∀ a, (m.get a = none ∧ m'.get a ≠ none) ↔ ∃ i, own i a) ∧
        (∀ i a, ((kinds i).api F (Objects.external m)).holds (s i) a → own i a) ∧ ∀ i, ((kinds i).api F (Objects.external m)).gone (s i) → ∀ a, ¬ own i a) ∧
      ((∀ i, ((kinds i).api F (Objects.external m)).gone (s i)) → ∀ a, m'.get a = m.get a) := by
      rintro _ rfl
      exact library_refines hA.roomy F m kinds hk p hl
    obtain ⟨rs, locs, m', s, h1, h2⟩ := key _ (funext hf1).symm
    rcases (sub_exec hf2 p _).run h1 with h | h
    · exact .inl ⟨h, hf⟩
    · exact .inr ⟨rs, locs, m', s, h, h2⟩
  · right
    exact library_refines ⟨hA.nonnull, hA.fresh, fun m' c => by simpa using fun h => hf ⟨m', c, h⟩⟩ F m kinds hk p hl

/-! An allocator that can hold `n` blocks, and a program that needs two. -/

def few (n : Nat) : Alloc := { Alloc.example with full := fun m _ => n ≤ (m.map (·.1)).dedup.length }

theorem few_fair (n : Nat) : (few n).Fair := ⟨Alloc.example_good.nonnull, Alloc.example_good.fresh⟩

def twoProg : Prog fun _ : Unit => Kind.lists.api sampleFuns (Objects.external []) :=
  .call () Spec.Lists.Op.make fun
    | Spec.Lists.Res.ptr l => .call () (Spec.Lists.Op.append l 5) fun _ => .done
    | _ => .done

theorem two_legal : Legal twoProg (start _) := by
  refine ⟨trivial, fun r s1 h => ?_⟩
  obtain ⟨l, rfl, hl⟩ := lists_make h
  exact ⟨hl, fun _ _ _ => trivial⟩

/-- Whether a computation aborts. -/
def aborts {α : Type} (x : M α) (m : Mem) : Bool := match (x m).run with
  | some (.error .abort) => true
  | _ => false

theorem aborts_iff {α : Type} (x : M α) (m : Mem) : Aborts x m ↔ aborts x m = true := by
  unfold Aborts aborts
  constructor
  · intro h; rw [h]; rfl
  · intro h
    split at h
    · rename_i h'; exact h'
    · exact nomatch h

abbrev twoRun (n : Nat) := exec (fun _ : Unit => code sampleFuns (Objects.external []) (few n) .lists) twoProg fun _ =>
  (code sampleFuns (Objects.external []) (few n) .lists).init

/-- With room for one block the program is aborted; with room for two it is not, and so it returns. -/
example : Aborts (twoRun 1) [] ∧ ¬ Aborts (twoRun 2) [] ∧ ∃ rs locs m' s, Run (twoRun 2) [] (rs, locs) m' ∧ Runs twoProg (start _) rs s := by
  have h2 : ¬ Aborts (twoRun 2) [] := by rw [aborts_iff]; decide +kernel
  refine ⟨by rw [aborts_iff]; decide +kernel, h2, ?_⟩
  rcases library_out_of_memory (few_fair 2) sampleFuns [] (fun _ : Unit => Kind.lists) (fun _ => trivial) twoProg two_legal with h | h
  · exact absurd h.1 h2
  · obtain ⟨rs, locs, m', s, h3, h4, -⟩ := h
    exact ⟨rs, locs, m', s, h3, h4⟩

/-- The program that uses everything. -/
example (n : Nat) : (Aborts (exec (fun i => code sampleFuns (Objects.external []) (few n) (sampleKinds i)) sampleProg
      fun i => (code sampleFuns (Objects.external []) (few n) (sampleKinds i)).init) []) ∨
    ∃ rs locs m' s, Run (exec (fun i => code sampleFuns (Objects.external []) (few n) (sampleKinds i)) sampleProg
      fun i => (code sampleFuns (Objects.external []) (few n) (sampleKinds i)).init) [] (rs, locs) m' ∧ Runs sampleProg (start _) rs s := by
  rcases library_out_of_memory (few_fair n) sampleFuns [] sampleKinds sample_callbacks sampleProg sample_legal with h | ⟨rs, locs, m', s, h1, h2, -⟩
  · exact .inl h.1
  · exact .inr ⟨rs, locs, m', s, h1, h2⟩

end Whole

namespace Owned
open Verif.Puny Verif.Unicode

/-- C116 for `charstr_idna_encode`: it is aborted, or it returns NULL and leaves memory as it was, or returns a new block with the encoded name and
changes nothing else. -/
theorem idna_out_of_memory {A : Alloc} (hA : A.Fair) {u : Ucd} {id : Idna} {fresh : Nat → List UInt8} {b : List UInt8} {a : Nat} {m : Mem} (h0 : a ≠ 0)
    (ha : m.get a = some (.bytes b)) {r : Option (List UInt8)} (hr : Returns (idnaEncode u id fresh b) r) :
    Aborts (idnaEncodeM A u id fresh a) m ∨ ∃ p m', Run (idnaEncodeM A u id fresh a) m p m' ∧ Gives m r p m' := by
  obtain ⟨p, m', h1, h2⟩ := idnaEncodeM_spec hA.roomy h0 ha hr
  rcases (sub_idnaEncodeM A u id fresh a).run h1 with h | h
  · exact .inl h
  · exact .inr ⟨p, m', h, h2⟩

end Owned

/-! ### A reallocator that returns NULL -/

unseal M.read in
theorem crashes_null (m : Mem) : Crashes (M.read 0) m := by simp [Crashes, M.read, liftC]

unseal M.alloc in
/-- NULL is returned. -/
theorem run_alloc_null {A : Alloc} {m : Mem} (h0 : A.pick m = 0) (hf : ∀ c, A.full m c = false) (c : Cell) : Run (M.alloc A c) m 0 (m.set 0 c) := by
  simp [Run, M.alloc, hf, h0, returns_liftC]

unseal modL modLE modA modAE modH readL readLE readA readAE readH readIS readPQ readBA in
/-- C116, the other way around: the library relies on the reallocator not to return NULL. Where the user's own reallocator does, making a list, an
element of a list, a tree, a hash table, a set, a queue or a byte array is undefined behaviour. -/
theorem null_reallocator_undefined {A : Alloc} {m : Mem} (h0 : A.pick m = 0) (hf : ∀ c, A.full m c = false) (l v c o h n : Nat) (s : UInt64) (null : Bool)
    (F : Funs) (junk : BA.Junk) :
    Crashes (CList.make A) m ∧ Crashes (CList.append A l v) m ∧ Crashes (CList.prepend A l v) m ∧ Crashes (CList.insertBefore A l v c) m ∧
      Crashes (Avl.make A c o) m ∧ Crashes (Avl.treePut A (F.cmp c o) l v n) m ∧ Crashes (Hash.make A n h c) m ∧ Crashes (Objects.makeIntset A null s) m ∧
      Crashes (Objects.makePrioq A F c h o) m ∧ Crashes (Objects.makeByteArray A junk n) m := by
  have hL : ∀ (f : LList → LList) (m : Mem), Crashes (modL 0 f) m := fun f m => (crashes_null m).left.left
  have hLE : ∀ (f : LElem → LElem) (m : Mem), Crashes (modLE 0 f) m := fun f m => (crashes_null m).left.left
  have hT : ∀ (f : ATree → ATree) (m : Mem), Crashes (modA 0 f) m := fun f m => (crashes_null m).left.left
  have hTE : ∀ (f : AElem → AElem) (m : Mem), Crashes (modAE 0 f) m := fun f m => (crashes_null m).left.left
  have hH : ∀ (f : HTable → HTable) (m : Mem), Crashes (modH 0 f) m := fun f m => (crashes_null m).left.left
  have hr := fun c => run_alloc_null h0 hf c
  refine ⟨(hr _).crash (hL _ _).left, (hr _).crash (hLE _ _).left, (hr _).crash (hLE _ _).left, (hr _).crash (hLE _ _).left, (hr _).crash (hT _ _).left,
    Crashes.left ((hr _).crash (hTE _ _).left), (hr _).crash ?_, (hr _).crash (crashes_null _).left.left, (hr _).crash (crashes_null _).left.left,
    (hr _).crash (crashes_null _).left.left⟩
  split
  · rfl
  · exact (hH _ _).left

/-- Such a reallocator. -/
example : Crashes (CList.make { Alloc.example with pick := fun _ => 0 }) [] :=
  (null_reallocator_undefined (A := { Alloc.example with pick := fun _ => 0 }) rfl (fun _ => rfl) 0 0 0 0 0 0 0 false Whole.sampleFuns fun _ => 0).1

end Verif
