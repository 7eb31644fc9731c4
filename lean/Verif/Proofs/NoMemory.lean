import Verif.Proofs.Whole

/-!
Allocators that run out of memory. `A.roomy` is the allocator that picks the same addresses as `A` and always has room; what a function does with
`A` is what it does with `A.roomy`, or it aborts.
-/

namespace Verif
set_option autoImplicit false

/-- The same allocator with room for every block. -/
abbrev Alloc.roomy (A : Alloc) : Alloc := { A with full := fun _ _ => false }

/-- `x` run on `m` aborts. -/
def Aborts {α : Type} (x : M α) (m : Mem) : Prop := x m = liftC (.error .abort)

/-- `x` does what `y` does, or aborts; nothing is said where `y` does not return. -/
def Sub {α : Type} (x y : M α) : Prop := ∀ m, y m = none ∨ x m = y m ∨ Aborts x m

namespace Sub
variable {α β : Type}

theorem refl (x : M α) : Sub x x := fun _ => .inr (.inl rfl)

theorem bind {x y : M α} {f g : α → M β} (h : Sub x y) (hf : ∀ a, Sub (f a) (g a)) : Sub (x >>= f) (y >>= g) := by
  intro m
  have ex : (x >>= f) m = (x m >>= fun p => f p.1 p.2) := rfl
  have ey : (y >>= g) m = (y m >>= fun p => g p.1 p.2) := rfl
  unfold Aborts
  rw [ex, ey]
  rcases h m with h | h | h
  · left; rw [h]; rfl
  · rw [h]
    rcases y m with _ | ⟨e⟩ | ⟨a, m'⟩
    · left; rfl
    · right; left; rfl
    · exact hf a m'
  · right; right; rw [h]; rfl

theorem ite {c : Prop} [Decidable c] {x y x' y' : M α} (h : Sub x x') (h' : Sub y y') : Sub (if c then x else y) (if c then x' else y') := by
  split <;> assumption

unseal M.alloc in
theorem alloc (A : Alloc) (c : Cell) : Sub (M.alloc A c) (M.alloc A.roomy c) := by
  intro m
  by_cases h : A.full m c
  · right; right; simp [Aborts, M.alloc, h]
  · right; left; simp [M.alloc, h]

/-- For fixed points. -/
theorem admissible {ι : Type} (f : ι → M α) : Lean.Order.admissible (fun h : ι → M α => ∀ i, Sub (f i) (h i)) := by
  apply Lean.Order.admissible_pi_apply (P := fun i (y : M α) => Sub (f i) y)
  intro i
  apply Lean.Order.admissible_pi_apply (P := fun m (y : D (α × Mem)) => y = none ∨ f i m = y ∨ Aborts (f i) m)
  intro m
  exact Lean.Order.admissible_flatOrder (b := (none : Option (Except Err (α × Mem)))) _ (.inl rfl)

end Sub

/-- Close or reduce a goal `Sub x y`. -/
syntax "sub" ("[" term,* "]")? : tactic
macro_rules
  | `(tactic| sub) => `(tactic| sub [])
  | `(tactic| sub [$ts,*]) => do
    let alts ← ts.getElems.mapM fun t => `(Lean.Parser.Tactic.tacticSeq| with_reducible exact $t)
    `(tactic| repeat' first
      | with_reducible exact Sub.refl _
      | exact Sub.alloc _ _
      | first $[| $alts]* | fail
      | refine Sub.bind ?_ (fun _ => ?_)
      | refine Sub.ite ?_ ?_
      | split)

/-! ### Lists -/

namespace CList
variable (A : Alloc)

theorem sub_make : Sub (make A) (make A.roomy) := by unfold make; sub
theorem sub_append (l v : Nat) : Sub (append A l v) (append A.roomy l v) := by unfold append; sub
theorem sub_prepend (l v : Nat) : Sub (prepend A l v) (prepend A.roomy l v) := by unfold prepend; sub
theorem sub_insertBefore (l v e : Nat) : Sub (insertBefore A l v e) (insertBefore A.roomy l v e) := by unfold insertBefore; sub

theorem sub_foreachLoop {f g : Nat → M Unit} (h : ∀ v, Sub (f v) (g v)) : ∀ e, Sub (foreachLoop f e) (foreachLoop g e) := by
  apply foreachLoop.fixpoint_induct (f := g) (motive := fun k => ∀ e, Sub (foreachLoop f e) (k e))
  · exact Sub.admissible _
  · intro k ih e
    rw [foreachLoop]
    sub [h _, ih _]

theorem sub_foreach {f g : Nat → M Unit} (h : ∀ v, Sub (f v) (g v)) (l : Nat) : Sub (foreach l f) (foreach l g) := by
  unfold foreach
  sub [sub_foreachLoop h _]

theorem sub_copy (l : Nat) : Sub (copy A l) (copy A.roomy l) := by
  unfold copy
  sub [sub_make A, sub_foreach (fun v => Sub.bind (sub_append A _ v) fun _ => Sub.refl _) _]

theorem sub_callPtr (op : Spec.Lists.Op) : Sub (callPtr A op) (callPtr A.roomy op) := by
  cases op <;> unfold callPtr <;> sub [sub_make A, sub_copy A _, sub_append A _ _, sub_prepend A _ _, sub_insertBefore A _ _ _]

end CList

/-! ### Hash tables -/

namespace Hash
variable (A : Alloc)

theorem sub_make (n h c : Nat) : Sub (make A n h c) (make A.roomy n h c) := by
  unfold make
  sub

theorem sub_addElement (t i k v : Nat) : Sub (addElement A t i k v) (addElement A.roomy t i k v) := by
  unfold addElement
  sub [CList.sub_append A _ _]

theorem sub_putLoop (cmp : Nat → Nat → Int) (t i l k v : Nat) : ∀ e, Sub (putLoop A cmp t i l k v e) (putLoop A.roomy cmp t i l k v e) := by
  apply putLoop.fixpoint_induct (A := A.roomy) (motive := fun g => ∀ e, Sub (putLoop A cmp t i l k v e) (g e))
  · exact Sub.admissible _
  · intro g ih e
    rw [putLoop]
    sub [sub_addElement A _ _ _ _, ih _]

theorem sub_put (hash : Nat → Nat) (cmp : Nat → Nat → Int) (t k v : Nat) : Sub (put A hash cmp t k v) (put A.roomy hash cmp t k v) := by
  unfold put
  sub [CList.sub_make A, sub_addElement A _ _ _ _, sub_putLoop A _ _ _ _ _ _ _]

theorem sub_call (F : Funs) (t : Nat) (op : Spec.Hash.Op) : Sub (call A F t op) (call A.roomy F t op) := by
  cases op <;> unfold call <;> sub [sub_put A _ _ _ _ _]

end Hash

/-! ### Trees -/

namespace Avl
variable (A : Alloc)

theorem sub_make (c o : Nat) : Sub (make A c o) (make A.roomy c o) := by unfold make; sub
theorem sub_makeElement (k v : Nat) : Sub (makeElement A k v) (makeElement A.roomy k v) := by unfold makeElement; sub
theorem sub_treePut (cmp : Nat → Nat → Int) (t k v : Nat) : Sub (treePut A cmp t k v) (treePut A.roomy cmp t k v) := by
  unfold treePut
  sub [sub_makeElement A _ _]

theorem sub_copyTree : ∀ e, Sub (copyTree A e) (copyTree A.roomy e) := by
  apply copyTree.fixpoint_induct (A := A.roomy) (motive := fun g => ∀ e, Sub (copyTree A e) (g e))
  · exact Sub.admissible _
  · intro g ih e
    rw [copyTree]
    sub [sub_makeElement A _ _, ih _]

theorem sub_copy (t : Nat) : Sub (copy A t) (copy A.roomy t) := by
  unfold copy
  sub [sub_make A _ _, sub_copyTree A _]

theorem sub_call (F : Funs) (f o : Nat) (op : Spec.Avl.Op) : Sub (call A F f o op) (call A.roomy F f o op) := by
  cases op <;> unfold call <;> sub [sub_make A _ _, sub_copy A _, sub_treePut A _ _ _ _]

end Avl

/-! ### Sets, queues and byte arrays -/

namespace Objects
variable (A : Alloc)

theorem sub_callocWords (null : Bool) (n : Nat) : Sub (callocWords A null n) (callocWords A.roomy null n) := by unfold callocWords; sub
theorem sub_makeIntset (null : Bool) (n : UInt64) : Sub (makeIntset A null n) (makeIntset A.roomy null n) := by
  unfold makeIntset
  sub [sub_callocWords A _ _]
theorem sub_makePrioq (F : Funs) (c r o : Nat) : Sub (makePrioq A F c r o) (makePrioq A.roomy F c r o) := by unfold makePrioq; sub
theorem sub_reallocSlots (old n : Nat) : Sub (reallocSlots A old n) (reallocSlots A.roomy old n) := by unfold reallocSlots; sub
theorem sub_growPrioq (q : Nat) : Sub (growPrioq A q) (growPrioq A.roomy q) := by
  unfold growPrioq
  sub [sub_reallocSlots A _ _]
theorem sub_enqueueM (cmp : Nat → Nat → Int) (q v : Nat) : Sub (enqueueM A cmp q v) (enqueueM A.roomy cmp q v) := by
  unfold enqueueM
  sub [sub_growPrioq A _]
theorem sub_makeByteArray (junk : BA.Junk) (n : Nat) : Sub (makeByteArray A junk n) (makeByteArray A.roomy junk n) := by unfold makeByteArray; sub
theorem sub_reallocBytes (junk : BA.Junk) (old n : Nat) : Sub (reallocBytes A junk old n) (reallocBytes A.roomy junk old n) := by unfold reallocBytes; sub
theorem sub_ensureSpaceM (junk : BA.Junk) (a n : Nat) : Sub (ensureSpaceM A junk a n) (ensureSpaceM A.roomy junk a n) := by
  unfold ensureSpaceM
  sub [sub_reallocBytes A _ _ _]
theorem sub_copyM (junk : BA.Junk) (a p s o n : Nat) : Sub (copyM A junk a p s o n) (copyM A.roomy junk a p s o n) := by
  unfold copyM
  sub [sub_ensureSpaceM A _ _ _]
theorem sub_copyStringM (junk : BA.Junk) (a p s o : Nat) : Sub (copyStringM A junk a p s o) (copyStringM A.roomy junk a p s o) := by
  unfold copyStringM
  sub [sub_copyM A _ _ _ _ _ _]
theorem sub_appendM (junk : BA.Junk) (a s o n : Nat) : Sub (appendM A junk a s o n) (appendM A.roomy junk a s o n) := by
  unfold appendM
  sub [sub_ensureSpaceM A _ _ _]
theorem sub_appendStringM (junk : BA.Junk) (a s o : Nat) : Sub (appendStringM A junk a s o) (appendStringM A.roomy junk a s o) := by
  unfold appendStringM
  sub [sub_appendM A _ _ _ _ _]
theorem sub_streamTailM (junk : BA.Junk) (a : Nat) (cb : BA.ReadCb) (n : Nat) : Sub (streamTailM A junk a cb n) (streamTailM A.roomy junk a cb n) := by
  unfold streamTailM
  sub [sub_ensureSpaceM A _ _ _]
theorem sub_appendStreamM (junk : BA.Junk) (a : Nat) (cb : BA.ReadCb) (n : Nat) : Sub (appendStreamM A junk a cb n) (appendStreamM A.roomy junk a cb n) := by
  unfold appendStreamM
  sub [sub_streamTailM A _ _ _ _]
theorem sub_resizeM (junk : BA.Junk) (a n : Nat) (c : UInt8) : Sub (resizeM A junk a n c) (resizeM A.roomy junk a n c) := by
  unfold resizeM
  sub [sub_ensureSpaceM A _ _ _]

theorem sub_bytesM (env : Env) (a : Nat) (junk : BA.Junk) (op : Spec.Objects.BytesOp) : Sub (bytesM A env a junk op) (bytesM A.roomy env a junk op) := by
  cases op <;> unfold bytesM <;>
    sub [sub_copyM A _ _ _ _ _ _, sub_copyStringM A _ _ _ _ _, sub_appendM A _ _ _ _ _, sub_appendStringM A _ _ _ _, sub_appendStreamM A _ _ _ _,
      sub_resizeM A _ _ _ _]

theorem sub_queueM (cmp : Nat → Nat → Int) (a : Nat) (op : Spec.Objects.QueueOp) : Sub (queueM A cmp a op) (queueM A.roomy cmp a op) := by
  cases op <;> unfold queueM <;> sub [sub_enqueueM A _ _ _]

theorem sub_stepM (F : Funs) (c r o : Nat) (env : Env) (x : Spec.Objects.Cmd) : Sub (stepM A F c r o env x) (stepM A.roomy F c r o env x) := by
  cases x <;> unfold stepM <;>
    sub [sub_makeIntset A _ _, sub_makePrioq A _ _ _ _, sub_makeByteArray A _ _, sub_bytesM A _ _ _ _, sub_queueM A _ _ _]

end Objects

/-! ### Strings -/

namespace Owned
variable (A : Alloc)

theorem sub_dupsubstrM (a o n : Nat) : Sub (dupsubstrM A a o n) (dupsubstrM A.roomy a o n) := by unfold dupsubstrM; sub
theorem sub_dupstrM (a o : Nat) : Sub (dupstrM A a o) (dupstrM A.roomy a o) := by
  unfold dupstrM
  sub [sub_dupsubstrM A _ _ _]

theorem sub_splitLoopM (d : UInt8) (a l : Nat) : ∀ n o, Sub (splitLoopM A d a l n o) (splitLoopM A.roomy d a l n o)
  | 0, o => by
    unfold splitLoopM
    sub [sub_dupstrM A _ _, CList.sub_append A _ _]
  | n + 1, o => by
    unfold splitLoopM
    sub [sub_dupstrM A _ _, sub_dupsubstrM A _ _ _, CList.sub_append A _ _, sub_splitLoopM d a l n _]

theorem sub_splitM (a o : Nat) (d : UInt8) (n : Nat) : Sub (splitM A a o d n) (splitM A.roomy a o d n) := by
  unfold splitM
  sub [CList.sub_make A, sub_splitLoopM A _ _ _ _ _]

theorem sub_splitArrayLoopM (d : UInt8) (a l : Nat) : ∀ n o i, Sub (splitArrayLoopM A d a l n o i) (splitArrayLoopM A.roomy d a l n o i)
  | 0, o, i => by
    unfold splitArrayLoopM
    sub [sub_dupstrM A _ _]
  | n + 1, o, i => by
    unfold splitArrayLoopM
    sub [sub_dupstrM A _ _, sub_dupsubstrM A _ _ _, sub_splitArrayLoopM d a l n _ _]

theorem sub_splitIntoArrayM (a o : Nat) (d : UInt8) (l n : Nat) : Sub (splitIntoArrayM A a o d l n) (splitIntoArrayM A.roomy a o d l n) := by
  unfold splitIntoArrayM
  sub [sub_splitArrayLoopM A _ _ _ _ _ _]

theorem sub_splitAtomsLoopM (a l : Nat) : ∀ o, Sub (splitAtomsLoopM A a l o) (splitAtomsLoopM A.roomy a l o) := by
  apply splitAtomsLoopM.fixpoint_induct (A := A.roomy) (motive := fun g => ∀ o, Sub (splitAtomsLoopM A a l o) (g o))
  · exact Sub.admissible _
  · intro g ih e
    rw [splitAtomsLoopM]
    sub [sub_dupsubstrM A _ _ _, CList.sub_append A _ _, ih _]

theorem sub_splitAtomsM (a o : Nat) : Sub (splitAtomsM A a o) (splitAtomsM A.roomy a o) := by
  unfold splitAtomsM
  sub [CList.sub_make A, sub_splitAtomsLoopM A _ _ _]

theorem sub_splitStrLoopM (a ad od k l : Nat) : ∀ n o, Sub (splitStrLoopM A a ad od k l n o) (splitStrLoopM A.roomy a ad od k l n o)
  | 0, o => by
    unfold splitStrLoopM
    sub [sub_dupstrM A _ _, CList.sub_append A _ _]
  | n + 1, o => by
    unfold splitStrLoopM
    sub [sub_dupstrM A _ _, sub_dupsubstrM A _ _ _, CList.sub_append A _ _, sub_splitStrLoopM a ad od k l n _]

theorem sub_splitStrM (a o ad od n : Nat) : Sub (splitStrM A a o ad od n) (splitStrM A.roomy a o ad od n) := by
  unfold splitStrM
  sub [CList.sub_make A, sub_splitStrLoopM A _ _ _ _ _ _ _]

theorem sub_vprintfM (fresh : Nat → List UInt8) (fmt : Mem → Option (List UInt8)) : Sub (vprintfM A fresh fmt) (vprintfM A.roomy fresh fmt) := by
  unfold vprintfM
  sub

theorem sub_encodeNfcM (id : Puny.Idna) (fresh : Nat → List UInt8) (a n : Nat) : Sub (encodeNfcM A id fresh a n) (encodeNfcM A.roomy id fresh a n) := by
  unfold encodeNfcM
  sub

theorem sub_encodeNfdM (u : Unicode.Ucd) (id : Puny.Idna) (fresh : Nat → List UInt8) (a n : Nat) :
    Sub (encodeNfdM A u id fresh a n) (encodeNfdM A.roomy u id fresh a n) := by
  unfold encodeNfdM
  sub [sub_encodeNfcM A _ _ _ _]

theorem sub_idnaEncodeM (u : Unicode.Ucd) (id : Puny.Idna) (fresh : Nat → List UInt8) (a : Nat) :
    Sub (idnaEncodeM A u id fresh a) (idnaEncodeM A.roomy u id fresh a) := by
  unfold idnaEncodeM
  sub [sub_dupstrM A _ _, sub_encodeNfcM A _ _ _ _, sub_encodeNfdM A _ _ _ _ _]

end Owned

namespace Strings
variable (A : Alloc)

theorem sub_makeM (junk : Nat → UInt8) (fn : Spec.Strings.Fn) (a o : Nat) : Sub (makeM A junk fn a o) (makeM A.roomy junk fn a o) := by
  unfold makeM
  sub

theorem sub_splitM (fn : Spec.Strings.SplitFn) (a o : Nat) : Sub (splitM A fn a o) (splitM A.roomy fn a o) := by
  cases fn <;> unfold splitM <;>
    sub [Owned.sub_splitM A _ _ _ _, Owned.sub_splitAtomsM A _ _, Owned.sub_splitStrM A _ _ _ _ _, Owned.sub_splitIntoArrayM A _ _ _ _ _]

theorem sub_printfM (junk : Nat → UInt8) (parts : List Spec.Strings.Part) : Sub (printfM A junk parts) (printfM A.roomy junk parts) := by
  unfold printfM
  sub [Owned.sub_vprintfM A _ _]

theorem sub_makeEncoderM (r ro u uo : Nat) : Sub (makeEncoderM A r ro u uo) (makeEncoderM A.roomy r ro u uo) := by
  unfold makeEncoderM
  sub

theorem sub_customEncodeM (junk : Nat → UInt8) (e a o : Nat) : Sub (customEncodeM A junk e a o) (customEncodeM A.roomy junk e a o) := by
  unfold customEncodeM
  sub

theorem sub_callM (op : Spec.Strings.Op) : Sub (callM A op) (callM A.roomy op) := by
  cases op <;> unfold callM <;>
    sub [sub_makeM A _ _ _ _, sub_splitM A _ _ _, sub_printfM A _ _, sub_makeEncoderM A _ _ _ _, sub_customEncodeM A _ _ _ _]

end Strings

/-! ### The whole library -/

namespace Whole
open Spec.Whole (Api Kind Prog)

theorem sub_tableCall (A : Alloc) (F : Funs) (h c t : Nat) (op : Spec.Whole.TableOp) : Sub (tableCall A F h c t op) (tableCall A.roomy F h c t op) := by
  cases op <;> unfold tableCall <;> sub [Hash.sub_make A _ _ _, Hash.sub_call A _ _ _]

/-- The calls of a part with an allocator that has room for everything. -/
theorem sub_code (A : Alloc) (F : Funs) (ext : Nat → Option (List UInt8)) (k : Kind) :
    ∃ f, code F ext A.roomy k = ⟨(code F ext A k).Loc, (code F ext A k).init, f⟩ ∧ ∀ l op, Sub ((code F ext A k).call l op) (f l op) := by
  cases k with
  | trees c o => exact ⟨_, rfl, fun _ op => Sub.bind (Avl.sub_call A F c o op) fun _ => Sub.refl _⟩
  | lists => exact ⟨_, rfl, fun _ op => Sub.bind (CList.sub_callPtr A op) fun _ => Sub.refl _⟩
  | table h c => exact ⟨_, rfl, fun t op => sub_tableCall A F h c t op⟩
  | objects c r o => exact ⟨_, rfl, fun env op => Objects.sub_stepM A F c r o env op⟩
  | strings => exact ⟨_, rfl, fun _ op => Sub.bind (Strings.sub_callM A op) fun _ => Sub.refl _⟩

theorem sub_exec {ι : Type} [DecidableEq ι] {I : ι → Api} {Loc : ι → Type} {init : (i : ι) → Loc i} {f g : (i : ι) → Loc i → (I i).Op → M ((I i).Res × Loc i)}
    (h : ∀ i l op, Sub (f i l op) (g i l op)) : ∀ (p : Prog I) (l : (i : ι) → Loc i),
    Sub (exec (fun i => ⟨Loc i, init i, f i⟩) p l) (exec (fun i => ⟨Loc i, init i, g i⟩) p l)
  | .done, _ => Sub.refl _
  | .call i op next, l => Sub.bind (h i (l i) op) fun x => Sub.bind (sub_exec h (next x.1) _) fun _ => Sub.refl _

end Whole

end Verif
