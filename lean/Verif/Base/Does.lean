import Verif.Base.Heap

/-!
Total correctness of memory computations, stepwise: `Does x m Q` says that `x` run on `m` returns, without undefined behaviour, with a result
and a memory that satisfy `Q`. The tactic `step` performs one memory access, finding the block in the context.
-/

namespace Verif

/-- `x` run on `m` returns and `Q` holds of the result and the final memory. -/
structure Does {α : Type} (x : M α) (m : Mem) (Q : α → Mem → Prop) : Prop where
  out : ∃ a m', Run x m a m' ∧ Q a m'

section
variable {α β : Type} {m : Mem} {Q : α → Mem → Prop}

theorem Does.bind {x : M β} {f : β → M α} (h : Does x m (fun b m' => Does (f b) m' Q)) : Does (x >>= f) m Q := by
  obtain ⟨b, m', h1, ⟨a, m'', h2, h3⟩⟩ := h
  exact ⟨a, m'', h1.bind h2, h3⟩

theorem Does.pure {a : α} (h : Q a m) : Does (Pure.pure a) m Q := ⟨a, m, Run.pure a m, h⟩

theorem Does.mono {x : M α} {P : α → Mem → Prop} (h : Does x m P) (hi : ∀ a m', P a m' → Q a m') : Does x m Q := by
  obtain ⟨a, m', h1, h2⟩ := h
  exact ⟨a, m', h1, hi a m' h2⟩

theorem does_pos {c : Prop} [Decidable c] {x y : M α} (h : c) (q : Does x m Q) : Does (if c then x else y) m Q := by
  rw [if_pos h]; exact q

theorem does_neg {c : Prop} [Decidable c] {x y : M α} (h : ¬ c) (q : Does y m Q) : Does (if c then x else y) m Q := by
  rw [if_neg h]; exact q

theorem Run.does {x : M α} {a : α} {m' : Mem} (h : Run x m a m') (q : Q a m') : Does x m Q := ⟨a, m', h, q⟩

theorem Does.run {x : M α} {a : α} {m' : Mem} (h : Does x m Q) (r : Run x m a m') : Q a m' := by
  obtain ⟨b, m2, h1, h2⟩ := h
  obtain ⟨rfl, rfl⟩ := h1.unique r
  exact h2

theorem Does.and {x : M α} {P : α → Mem → Prop} (h : Does x m P) (h' : Does x m Q) : Does x m (fun a m' => P a m' ∧ Q a m') := by
  obtain ⟨a, m', h1, h2⟩ := h
  exact ⟨a, m', h1, h2, h'.run h1⟩
end

section
variable {m : Mem} {a : Nat}

theorem does_alloc {A : Alloc} (hA : A.Good) {c : Cell} {Q : Nat → Mem → Prop} (h : Q (A.pick m) (m.set (A.pick m) c)) : Does (M.alloc A c) m Q :=
  (run_alloc hA c m).does h
theorem does_free {c : Cell} {Q : Unit → Mem → Prop} (h0 : a ≠ 0) (h : m.get a = some c) (q : Q () (m.del a)) : Does (M.free a) m Q :=
  (run_free h0 h).does q
theorem does_free_null {Q : Unit → Mem → Prop} (q : Q () m) : Does (M.free 0) m Q := (run_free_null m).does q
theorem does_write {c c' : Cell} {Q : Unit → Mem → Prop} (h0 : a ≠ 0) (h : m.get a = some c) (q : Q () (m.set a c')) : Does (M.write a c') m Q :=
  (run_write h0 h c').does q

theorem does_readL {l : LList} {Q : LList → Mem → Prop} (h0 : a ≠ 0) (h : m.get a = some (.list l)) (q : Q l m) : Does (readL a) m Q :=
  (run_readL h0 h).does q
theorem does_readLE {e : LElem} {Q : LElem → Mem → Prop} (h0 : a ≠ 0) (h : m.get a = some (.lelem e)) (q : Q e m) : Does (readLE a) m Q :=
  (run_readLE h0 h).does q
theorem does_readH {t : HTable} {Q : HTable → Mem → Prop} (h0 : a ≠ 0) (h : m.get a = some (.htable t)) (q : Q t m) : Does (readH a) m Q :=
  (run_readH h0 h).does q
theorem does_readHE {e : HElem} {Q : HElem → Mem → Prop} (h0 : a ≠ 0) (h : m.get a = some (.helem e)) (q : Q e m) : Does (readHE a) m Q :=
  (run_readHE h0 h).does q
theorem does_readB {b : List Nat} {Q : List Nat → Mem → Prop} (h0 : a ≠ 0) (h : m.get a = some (.buckets b)) (q : Q b m) : Does (readB a) m Q :=
  (run_readB h0 h).does q
theorem does_readA {t : ATree} {Q : ATree → Mem → Prop} (h0 : a ≠ 0) (h : m.get a = some (.atree t)) (q : Q t m) : Does (readA a) m Q :=
  (run_readA h0 h).does q
theorem does_readAE {e : AElem} {Q : AElem → Mem → Prop} (h0 : a ≠ 0) (h : m.get a = some (.aelem e)) (q : Q e m) : Does (readAE a) m Q :=
  (run_readAE h0 h).does q
theorem does_readBytes {b : List UInt8} {Q : List UInt8 → Mem → Prop} (h0 : a ≠ 0) (h : m.get a = some (.bytes b)) (q : Q b m) : Does (readBytes a) m Q :=
  (run_readBytes h0 h).does q
theorem does_readWords {w : List UInt64} {Q : List UInt64 → Mem → Prop} (h0 : a ≠ 0) (h : m.get a = some (.words w)) (q : Q w m) : Does (readWords a) m Q :=
  (run_readWords h0 h).does q
theorem does_readSlots {s : List (Option Nat)} {Q : List (Option Nat) → Mem → Prop} (h0 : a ≠ 0) (h : m.get a = some (.slots s)) (q : Q s m) :
    Does (readSlots a) m Q := (run_readSlots h0 h).does q
theorem does_readIS {s : ISet} {Q : ISet → Mem → Prop} (h0 : a ≠ 0) (h : m.get a = some (.iset s)) (q : Q s m) : Does (readIS a) m Q :=
  (run_readIS h0 h).does q
theorem does_readPQ {p : PQueue} {Q : PQueue → Mem → Prop} (h0 : a ≠ 0) (h : m.get a = some (.pqueue p)) (q : Q p m) : Does (readPQ a) m Q :=
  (run_readPQ h0 h).does q
theorem does_readBA {b : BArray} {Q : BArray → Mem → Prop} (h0 : a ≠ 0) (h : m.get a = some (.barray b)) (q : Q b m) : Does (readBA a) m Q :=
  (run_readBA h0 h).does q
theorem does_lift {α : Type} {x : D α} {r : α} {Q : α → Mem → Prop} (h : Returns x r) (q : Q r m) : Does (M.lift x) m Q :=
  (run_lift h).does q

theorem does_modL {l : LList} {f : LList → LList} {Q : Unit → Mem → Prop} (h0 : a ≠ 0) (h : m.get a = some (.list l))
    (q : Q () (m.set a (.list (f l)))) : Does (modL a f) m Q := (run_modL h0 h f).does q
theorem does_modLE {e : LElem} {f : LElem → LElem} {Q : Unit → Mem → Prop} (h0 : a ≠ 0) (h : m.get a = some (.lelem e))
    (q : Q () (m.set a (.lelem (f e)))) : Does (modLE a f) m Q := (run_modLE h0 h f).does q
theorem does_modH {t : HTable} {f : HTable → HTable} {Q : Unit → Mem → Prop} (h0 : a ≠ 0) (h : m.get a = some (.htable t))
    (q : Q () (m.set a (.htable (f t)))) : Does (modH a f) m Q := (run_modH h0 h f).does q
theorem does_modHE {e : HElem} {f : HElem → HElem} {Q : Unit → Mem → Prop} (h0 : a ≠ 0) (h : m.get a = some (.helem e))
    (q : Q () (m.set a (.helem (f e)))) : Does (modHE a f) m Q := (run_modHE h0 h f).does q
theorem does_modA {t : ATree} {f : ATree → ATree} {Q : Unit → Mem → Prop} (h0 : a ≠ 0) (h : m.get a = some (.atree t))
    (q : Q () (m.set a (.atree (f t)))) : Does (modA a f) m Q := (run_modA h0 h f).does q
theorem does_modAE {e : AElem} {f : AElem → AElem} {Q : Unit → Mem → Prop} (h0 : a ≠ 0) (h : m.get a = some (.aelem e))
    (q : Q () (m.set a (.aelem (f e)))) : Does (modAE a f) m Q := (run_modAE h0 h f).does q
end

theorem get_set_other {m : Mem} {a b : Nat} {c : Cell} {r : Option Cell} (h : a ≠ b) (h' : m.get b = r) : (m.set a c).get b = r := by
  rw [Mem.get_set_ne h]; exact h'

theorem get_del_other {m : Mem} {a b : Nat} {r : Option Cell} (h : a ≠ b) (h' : m.get b = r) : (m.del a).get b = r := by
  rw [Mem.get_del_ne h]; exact h'

/-- Two addresses in the context differ. -/
macro "differ" : tactic => `(tactic| first | assumption | (apply Ne.symm; assumption))

/-- Find what memory holds at an address. -/
syntax "cell" : tactic
macro_rules
  | `(tactic| cell) => `(tactic| first
    | exact Mem.get_set_self _ _ _
    | exact Mem.get_del_self _ _
    | with_reducible assumption
    | (refine get_set_other (by differ) ?_; cell)
    | (refine get_del_other (by differ) ?_; cell)
    | rfl)

/-- One memory access at the head of the computation. -/
macro "step" : tactic => `(tactic| (
  repeat with_reducible refine Does.bind ?_
  first
    | (apply does_modLE; (focus differ); (focus cell))
    | (apply does_readLE; (focus differ); (focus cell))
    | (apply does_modL; (focus differ); (focus cell))
    | (apply does_readL; (focus differ); (focus cell))
    | (apply does_modAE; (focus differ); (focus cell))
    | (apply does_readAE; (focus differ); (focus cell))
    | (apply does_modA; (focus differ); (focus cell))
    | (apply does_readA; (focus differ); (focus cell))
    | (apply does_modHE; (focus differ); (focus cell))
    | (apply does_readHE; (focus differ); (focus cell))
    | (apply does_modH; (focus differ); (focus cell))
    | (apply does_readH; (focus differ); (focus cell))
    | (apply does_readB; (focus differ); (focus cell))
    | (apply does_free; (focus differ); (focus cell))
    | (apply does_write; (focus differ); (focus cell))
    | refine Does.pure ?_))

/-- All accesses up to the next branch. -/
macro "steps" : tactic => `(tactic| repeat step)

/-- `x` run on `m` is undefined behaviour. -/
def Crashes {α : Type} (x : M α) (m : Mem) : Prop := (x m).run = some (.error .ub)

theorem Crashes.left {α β : Type} {x : M α} {f : α → M β} {m : Mem} (h : Crashes x m) : Crashes (x >>= f) m := by
  have : (x >>= f) m = (x m >>= fun p => f p.1 p.2) := rfl
  simp only [Crashes] at h ⊢
  rw [this, ExceptT.run_bind, h]
  rfl

theorem Run.crash {α β : Type} {x : M α} {f : α → M β} {m m' : Mem} {a : α} (h : Run x m a m') (h' : Crashes (f a) m') : Crashes (x >>= f) m := by
  have : (x >>= f) m = (x m >>= fun p => f p.1 p.2) := rfl
  simp only [Crashes] at h' ⊢
  rw [this, ExceptT.run_bind, show (x m).run = some (.ok (a, m')) from h]
  exact h'

theorem Does.crash {α β : Type} {x : M α} {f : α → M β} {m : Mem} (h : Does x m (fun a m' => Crashes (f a) m')) : Crashes (x >>= f) m := by
  obtain ⟨a, m', h1, h2⟩ := h
  exact h1.crash h2

theorem Crashes.not_run {α : Type} {x : M α} {m m' : Mem} {a : α} (h : Crashes x m) : ¬ Run x m a m' := by
  intro h'
  rw [Crashes, show (x m).run = some (.ok (a, m')) from h'] at h
  cases h

unseal M.read in
theorem crashes_read {a : Nat} {m : Mem} (h : m.get a = none) : Crashes (M.read a) m := by
  simp only [Crashes, M.read]
  rw [h]
  split <;> rfl

unseal readBytes in
theorem crashes_readBytes {a : Nat} {m : Mem} (h : m.get a = none) : Crashes (readBytes a) m := (crashes_read h).left

unseal M.lift in
theorem crashes_lift {α : Type} {x : C α} {m : Mem} (h : x = .error .ub) : Crashes (M.lift (liftC x)) m := by subst h; rfl

/-- The function pointers and the context stored in the objects that the proofs are about. -/
class Ptrs where
  hash : Nat
  cmp : Nat
  obj : Nat
  reloc : Nat

deriving instance DecidableEq for Except

instance {α : Type} [DecidableEq α] (x : M α) (m : Mem) (a : α) (m' : Mem) : Decidable (Run x m a m') :=
  inferInstanceAs (Decidable ((x m).run = some (.ok (a, m'))))

instance {α : Type} [DecidableEq α] (x : M α) (m : Mem) : Decidable (Crashes x m) :=
  inferInstanceAs (Decidable ((x m).run = some (.error .ub)))

end Verif
