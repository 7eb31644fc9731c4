import Verif.Proofs.ReadOnly

/-!
Property C124: the queries change nothing.
-/

set_option autoImplicit false

namespace Verif

/-- Programs that call nothing but queries of lists, trees, hash tables and byte arrays. Between the calls, and depending on their results, there
may be any computation (`pure`, `bind`); `list_foreach` is a query if its callback is such a program. Nothing is said about the pointers that
are passed. -/
inductive Queries : {α : Type} → M α → Prop
  | pure {α : Type} (a : α) : Queries (Pure.pure a)
  | bind {α β : Type} {x : M α} {f : α → M β} : Queries x → (∀ a, Queries (f a)) → Queries (x >>= f)
  | listGet (l v : Nat) : Queries (CList.get l v)
  | listGetByIndex (l : Nat) (i : Int) : Queries (CList.getByIndex l i)
  | listGetFirst (l : Nat) : Queries (CList.getFirst l)
  | listGetLast (l : Nat) : Queries (CList.getLast l)
  | listNext (e : Nat) : Queries (CList.next e)
  | listPrevious (e : Nat) : Queries (CList.previous e)
  | listElemGetValue (e : Nat) : Queries (CList.getValue e)
  | listEmpty (l : Nat) : Queries (CList.empty l)
  | listSize (l : Nat) : Queries (CList.size l)
  | listForeach (l : Nat) (f : Nat → M Unit) : (∀ v, Queries (f v)) → Queries (CList.foreach l f)
  | avlTreeGet (F : Funs) (t k : Nat) : Queries (do Avl.get (← Avl.stored F t) t k)
  | avlTreeGetBefore (F : Funs) (t k : Nat) : Queries (do Avl.getBefore (← Avl.stored F t) t k)
  | avlTreeGetOnOrBefore (F : Funs) (t k : Nat) : Queries (do Avl.getOnOrBefore (← Avl.stored F t) t k)
  | avlTreeGetAfter (F : Funs) (t k : Nat) : Queries (do Avl.getAfter (← Avl.stored F t) t k)
  | avlTreeGetOnOrAfter (F : Funs) (t k : Nat) : Queries (do Avl.getOnOrAfter (← Avl.stored F t) t k)
  | avlTreeGetFirst (t : Nat) : Queries (Avl.getFirst t)
  | avlTreeGetLast (t : Nat) : Queries (Avl.getLast t)
  | avlTreeNext (e : Nat) : Queries (Avl.next e)
  | avlTreePrevious (e : Nat) : Queries (Avl.previous e)
  | avlTreeSize (t : Nat) : Queries (Avl.size t)
  | avlTreeEmpty (t : Nat) : Queries (Avl.empty t)
  | avlElemGetKey (e : Nat) : Queries (Avl.getKey e)
  | avlElemGetValue (e : Nat) : Queries (Avl.getValue e)
  | hashTableGet (F : Funs) (t k : Nat) : Queries (do Hash.get (← Hash.storedHash F t) (← Hash.storedCmp F t) t k)
  | hashTableGetAny (t : Nat) : Queries (Hash.getAny t)
  | hashTableGetOther (e : Nat) : Queries (Hash.getOther e)
  | hashTableSize (t : Nat) : Queries (Hash.size t)
  | hashTableEmpty (t : Nat) : Queries (Hash.empty t)
  | hashElemGetKey (e : Nat) : Queries (Hash.getKey e)
  | hashElemGetValue (e : Nat) : Queries (Hash.getValue e)
  | byteArrayData (a : Nat) : Queries (Objects.dataM a)
  | byteArraySize (a : Nat) : Queries (Objects.sizeM a)

/-- A program that only asks leaves memory exactly as it was, whatever state it starts in. -/
theorem queries_change_nothing {α : Type} {x : M α} (hx : Queries x) {m m' : Mem} {a : α} (h : Run x m a m') : m' = m := by
  suffices ReadOnly x from this m a m' h
  clear h a
  induction hx with
  | pure a => exact .pure a
  | bind _ _ h1 h2 => exact h1.bind h2
  | listGet l v => exact CList.ro_get l v
  | listGetByIndex l i => exact CList.ro_getByIndex l i
  | listGetFirst l => exact CList.ro_getFirst l
  | listGetLast l => exact CList.ro_getLast l
  | listNext e => exact CList.ro_next e
  | listPrevious e => exact CList.ro_previous e
  | listElemGetValue e => exact CList.ro_getValue e
  | listEmpty l => exact CList.ro_empty l
  | listSize l => exact CList.ro_size l
  | listForeach l f _ h => exact CList.ro_foreach l f h
  | avlTreeGet F t k => exact (Avl.ro_stored F t).bind fun _ => Avl.ro_get _ t k
  | avlTreeGetBefore F t k => exact (Avl.ro_stored F t).bind fun _ => Avl.ro_getBefore _ t k
  | avlTreeGetOnOrBefore F t k => exact (Avl.ro_stored F t).bind fun _ => Avl.ro_getOnOrBefore _ t k
  | avlTreeGetAfter F t k => exact (Avl.ro_stored F t).bind fun _ => Avl.ro_getAfter _ t k
  | avlTreeGetOnOrAfter F t k => exact (Avl.ro_stored F t).bind fun _ => Avl.ro_getOnOrAfter _ t k
  | avlTreeGetFirst t => exact Avl.ro_getFirst t
  | avlTreeGetLast t => exact Avl.ro_getLast t
  | avlTreeNext e => exact Avl.ro_next e
  | avlTreePrevious e => exact Avl.ro_previous e
  | avlTreeSize t => exact Avl.ro_size t
  | avlTreeEmpty t => exact Avl.ro_empty t
  | avlElemGetKey e => exact Avl.ro_getKey e
  | avlElemGetValue e => exact Avl.ro_getValue e
  | hashTableGet F t k => exact (Hash.ro_storedHash F t).bind fun _ => (Hash.ro_storedCmp F t).bind fun _ => Hash.ro_get _ _ t k
  | hashTableGetAny t => exact Hash.ro_getAny t
  | hashTableGetOther e => exact Hash.ro_getOther e
  | hashTableSize t => exact Hash.ro_size t
  | hashTableEmpty t => exact Hash.ro_empty t
  | hashElemGetKey e => exact Hash.ro_getKey e
  | hashElemGetValue e => exact Hash.ro_getValue e
  | byteArrayData a => exact (ReadOnly.readBA a).bind fun _ => .pure _
  | byteArraySize a => exact (ReadOnly.readBA a).bind fun _ => .pure _

/-- What two such programs find does not depend on which of them runs first, and neither of them disturbs the other. -/
theorem queries_commute {α β : Type} {x : M α} {y : M β} (hx : Queries x) (hy : Queries y) {m m' : Mem} {a : α} {b : β}
    (h : Run (do let a ← x; let b ← y; pure (a, b)) m (a, b) m') : Run (do let b ← y; let a ← x; pure (a, b)) m (a, b) m' := by
  have bnd : ∀ {α β : Type} {x : M α} {f : α → M β} {m : Mem} {b : β} {m' : Mem}, Run (x >>= f) m b m' → ∃ a m1, Run x m a m1 ∧ Run (f a) m1 b m' := by
    intro α β x f m b m' h
    have e : (x >>= f) m = (x m >>= fun p => f p.1 p.2) := rfl
    unfold Run at h
    rw [e] at h
    rcases hm : x m with _ | ⟨_ | ⟨a, m1⟩⟩
    · rw [hm] at h; exact absurd h (by intro h'; cases h')
    · rw [hm] at h; exact absurd h (by intro h'; cases h')
    · rw [hm] at h; exact ⟨a, m1, hm, h⟩
  obtain ⟨a', m1, h1, hr⟩ := bnd h
  obtain ⟨b', m2, h2, hq⟩ := bnd hr
  have e1 := queries_change_nothing hx h1
  have e2 := queries_change_nothing hy h2
  subst e1 e2
  have h' : some (Except.ok ((a', b'), m2)) = some (Except.ok (ε := Err) ((a, b), m')) := hq
  injection h' with h'
  injection h' with h'
  injection h' with h' h''
  injection h' with ha hb
  subst ha hb h''
  exact h2.bind (h1.bind rfl)

/-- A list of the values 7 and 9 at address 1. -/
def pairMem : Mem := [(1, .list ⟨2, 3, 2⟩), (2, .lelem ⟨7, 3, 0⟩), (3, .lelem ⟨9, 0, 2⟩)]

unseal Mem.get in
example : Queries (do let e ← CList.getByIndex 1 1; CList.getValue e) ∧ Run (do let e ← CList.getByIndex 1 1; CList.getValue e) pairMem 9 pairMem := by
  have g1 : pairMem.get 1 = some (.list ⟨2, 3, 2⟩) := rfl
  have g2 : pairMem.get 2 = some (.lelem ⟨7, 3, 0⟩) := rfl
  have g3 : pairMem.get 3 = some (.lelem ⟨9, 0, 2⟩) := rfl
  refine ⟨.bind (.listGetByIndex 1 1) fun _ => .listElemGetValue _, ?_⟩
  have h1 : Run (CList.getByIndex 1 1) pairMem 3 pairMem := by
    unfold CList.getByIndex
    refine (run_readL (by decide) g1).bind ?_
    rw [CList.getByIndexLoop]
    rw [if_pos (by decide)]
    refine (run_readLE (by decide) g2).bind ?_
    rw [if_pos (by decide), CList.getByIndexLoop, if_neg (by decide)]
    rfl
  exact h1.bind ((run_readLE (by decide) g3).bind rfl)

end Verif
