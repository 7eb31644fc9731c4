import Verif.Proofs.Objects
import Verif.Spec.Objects

/-! Programs on many sets, priority queues and byte arrays. -/

namespace Verif.Objects
open Verif.Owned (returns_bind_inv returns_bind_of)
open Verif.Spec.Objects (Res SetOp QueueOp Src BytesOp Cmd)
set_option autoImplicit false

/-- An object, as the functional models have it. -/
inductive Obj
  | set (s : IntSet.IntSet)
  | queue (q : Prioq.PQ Nat)
  | bytes (b : BA.BA) (rc : UInt32)

/-! The commands on functional objects. -/

def _root_.Verif.Spec.Objects.SetOp.fn (s : IntSet.IntSet) : SetOp → D (Res × IntSet.IntSet)
  | .add e => do pure (.unit, ← liftC (IntSet.add s e))
  | .remove e => do pure (.unit, ← liftC (IntSet.remove s e))
  | .fill => do pure (.unit, ← IntSet.fill s)
  | .has e => do pure (.int (if ← liftC (IntSet.has s e) then 1 else 0), s)
  | .nextHit e => do pure (.int (← IntSet.findNextHit s e), s)
  | .nextMiss e => do pure (.int (← IntSet.findNextMiss s e), s)
  | .empty => do pure (.int (if ← IntSet.empty s then 1 else 0), s)

def _root_.Verif.Spec.Objects.QueueOp.fn (cmp : Nat → Nat → Int) (q : Prioq.PQ Nat) : QueueOp → D (Res × Prioq.PQ Nat)
  | .enqueue v => do pure (.unit, ← Prioq.enqueue cmp q v)
  | .dequeue => do let r ← Prioq.dequeue cmp q; pure (.elem r.1, r.2)
  | .peek => do pure (.elem (← liftC (Prioq.peek q)), q)
  | .pop => do let r ← liftC (Prioq.pop q); pure (.elem r.1, r.2)
  | .remove slot => do let r ← Prioq.remove cmp q slot; pure (.elem (some r.1), r.2)
  | .size => pure (.int (Prioq.size q), q)

abbrev World := List (Option Obj)

/-- A live byte array. -/
def bytesOf (w : World) (i : Nat) : C (BA.BA × UInt32) := match w[i]? with
  | some (some (.bytes b rc)) => .ok (b, rc)
  | _ => .error .ub

/-- The bytes from a pointer on, to the end of the block. -/
def source (ext : Nat → Option (List UInt8)) (w : World) : Src → C (List UInt8)
  | .ext a off => match ext a with
    | some c => if off ≤ c.length then .ok (c.drop off) else .error .ub
    | none => .error .ub
  | .own j off => match bytesOf w j with
    | .ok x => if off ≤ x.1.data.length then .ok (x.1.data.drop off) else .error .ub
    | .error e => .error e

/-- The first `len` bytes from a pointer on. -/
def firstBytes (ext : Nat → Option (List UInt8)) (w : World) (src : Src) (len : Nat) : C (List UInt8) := match source ext w src with
  | .error e => .error e
  | .ok c => if len ≤ c.length then .ok (c.take len) else .error .ub

/-- The source of `byte_array_append` may point into the array itself only if the array does not grow and the source is in use. -/
def appendOk (b : BA.BA) (i : Nat) (src : Src) (len : Nat) : Bool := match src with
  | .ext _ _ => true
  | .own j off => j != i || len == 0 || (decide (len < BA.sub64 b.size b.cursor) && decide (off + len ≤ b.cursor))

/-- The source of `byte_array_copy` may point into the array itself only if the array does not grow. -/
def copyOk (b : BA.BA) (i pos : Nat) (src : Src) (len : Nat) : Bool := match src with
  | .ext _ _ => true
  | .own j _ => j != i || decide (BA.sub64 (BA.add64 pos len) b.cursor < BA.sub64 b.size b.cursor) || decide (len ≤ BA.sub64 b.cursor pos)

def truth (r : Bool × BA.BA) (rc : UInt32) : Res × BA.BA × UInt32 := (.int (if r.1 then 1 else 0), r.2, rc)

def appendF (ext : Nat → Option (List UInt8)) (w : World) (i : Nat) (junk : BA.Junk) (b : BA.BA) (rc : UInt32) (src : Src) (len : Nat) :
    C (Res × BA.BA × UInt32) := match firstBytes ext w src len with
  | .error e => .error e
  | .ok bs => if appendOk b i src len then (BA.append junk b bs).map (truth · rc) else .error .ub

def copyF (ext : Nat → Option (List UInt8)) (w : World) (i : Nat) (junk : BA.Junk) (b : BA.BA) (rc : UInt32) (pos : Nat) (src : Src) (len : Nat) :
    C (Res × BA.BA × UInt32) := match firstBytes ext w src len with
  | .error e => .error e
  | .ok bs => if copyOk b i pos src len then (BA.copy junk b pos bs).map (truth · rc) else .error .ub

def _root_.Verif.Spec.Objects.BytesOp.fn (ext : Nat → Option (List UInt8)) (w : World) (i : Nat) (junk : BA.Junk) (b : BA.BA) (rc : UInt32) : BytesOp → C (Res × BA.BA × UInt32)
  | .append src len => appendF ext w i junk b rc src len
  | .appendString src => match source ext w src with
    | .error e => .error e
    | .ok c => match BA.strlen c with
      | .error e => .error e
      | .ok n => appendF ext w i junk b rc src n
  | .copy pos src len => copyF ext w i junk b rc pos src len
  | .copyString pos src => match source ext w src with
    | .error e => .error e
    | .ok c => match BA.strlen c with
      | .error e => .error e
      | .ok n => copyF ext w i junk b rc pos src n
  | .stream cb len => (BA.appendStream junk b cb len).map fun r => (.int r.1, r.2, rc)
  | .resize n c => (BA.resize junk b n c).map (truth · rc)
  | .clear => (BA.clear b).map fun r => (.unit, r, rc)
  | .view => if b.cursor + 1 ≤ b.data.length then .ok (.content (b.data.take (b.cursor + 1)), b, rc) else .error .ub
  | .share => .ok (.unit, b, rc + 1)

/-- One command on functional objects. -/
def stepF (ext : Nat → Option (List UInt8)) (cmp : Nat → Nat → Int) (w : World) : Cmd → D (Res × World)
  | .makeSet _ n => pure (.unit, w ++ [some (.set (IntSet.make n))])
  | .makeQueue => pure (.unit, w ++ [some (.queue Prioq.make)])
  | .makeBytes junk max => do
    let b ← liftC (BA.make junk max)
    pure (.unit, w ++ [some (.bytes b 1)])
  | .onSet i op => match w[i]? with
    | some (some (.set s)) => do
      let r ← op.fn s
      pure (r.1, w.set i (some (.set r.2)))
    | _ => liftC (.error .ub)
  | .onQueue i op => match w[i]? with
    | some (some (.queue q)) => do
      let r ← op.fn cmp q
      pure (r.1, w.set i (some (.queue r.2)))
    | _ => liftC (.error .ub)
  | .onBytes i junk op => match w[i]? with
    | some (some (.bytes b rc)) => do
      let r ← liftC (op.fn ext w i junk b rc)
      pure (r.1, w.set i (some (.bytes r.2.1 r.2.2)))
    | _ => liftC (.error .ub)
  | .destroy i => match w[i]? with
    | some (some (.set _)) => pure (.unit, w.set i none)
    | some (some (.queue _)) => pure (.unit, w.set i none)
    | some (some (.bytes b rc)) => pure (.unit, w.set i (if rc - 1 ≠ 0 then some (.bytes b (rc - 1)) else none))
    | _ => liftC (.error .ub)

/-- A program on functional objects. -/
def progF (ext : Nat → Option (List UInt8)) (cmp : Nat → Nat → Int) : World → List Cmd → D (List Res × World)
  | w, [] => pure ([], w)
  | w, c :: cs => do
    let r ← stepF ext cmp w c
    let q ← progF ext cmp r.2 cs
    pure (r.1 :: q.1, q.2)

/-! The commands on memory. The kind of each object is known to the user, `none` is an object no longer used. -/

inductive Kind
  | set
  | queue
  | bytes

abbrev Env := List (Nat × Kind)

/-- The pointer of an object. -/
def known (env : Env) (i : Nat) : M (Nat × Kind) := match env[i]? with
  | some x => pure x
  | none => ub

/-- The block and the offset of a source. -/
def resolve (env : Env) : Src → M (Nat × Nat)
  | .ext a off => pure (a, off)
  | .own j off => do
    let x ← known env j
    let d ← dataM x.1
    pure (d, off)

def truthM (x : M Bool) : M Res := do
  let r ← x
  pure (.int (if r then 1 else 0))

def bytesM (A : Alloc) (env : Env) (a : Nat) (junk : BA.Junk) : BytesOp → M Res
  | .append src len => do
    let p ← resolve env src
    truthM (appendM A junk a p.1 p.2 len)
  | .appendString src => do
    let p ← resolve env src
    truthM (appendStringM A junk a p.1 p.2)
  | .copy pos src len => do
    let p ← resolve env src
    truthM (copyM A junk a pos p.1 p.2 len)
  | .copyString pos src => do
    let p ← resolve env src
    truthM (copyStringM A junk a pos p.1 p.2)
  | .stream cb len => do
    let r ← appendStreamM A junk a cb len
    pure (.int r)
  | .resize n c => truthM (resizeM A junk a n c)
  | .clear => do
    clearM a
    pure .unit
  | .view => do
    let d ← dataM a
    let n ← sizeM a
    let c ← fetch d 0 (n + 1)
    pure (.content c)
  | .share => do
    let _ ← shareByteArray a
    pure .unit

def queueM (A : Alloc) (cmp : Nat → Nat → Int) (a : Nat) : QueueOp → M Res
  | .enqueue v => do
    enqueueM A cmp a v
    pure .unit
  | op => prioqCall (fun q => op.fn cmp q) a

/-- One command on memory. Queues are made with the comparator `c`, the callback `r` and the context `o`. -/
def stepM (A : Alloc) (F : Funs) (c r o : Nat) (env : Env) : Cmd → M (Res × Env)
  | .makeSet null n => do
    let a ← makeIntset A null n
    pure (.unit, env ++ [(a, .set)])
  | .makeQueue => do
    let a ← makePrioq A F c r o
    pure (.unit, env ++ [(a, .queue)])
  | .makeBytes junk max => do
    let a ← makeByteArray A junk max
    pure (.unit, env ++ [(a, .bytes)])
  | .onSet i op => do
    let x ← known env i
    let r ← intsetCall (fun s => op.fn s) x.1
    pure (r, env)
  | .onQueue i op => do
    let x ← known env i
    let r ← queueM A (← storedCmp F x.1) x.1 op
    pure (r, env)
  | .onBytes i junk op => do
    let x ← known env i
    let r ← bytesM A env x.1 junk op
    pure (r, env)
  | .destroy i => do
    let x ← known env i
    match x.2 with
    | .set => destroyIntset x.1
    | .queue => destroyPrioq x.1
    | .bytes => destroyByteArray x.1
    pure (.unit, env)

/-- A program on memory. -/
def progM (A : Alloc) (F : Funs) (c r o : Nat) : Env → List Cmd → M (List Res × Env)
  | env, [] => pure ([], env)
  | env, x :: cs => do
    let y ← stepM A F c r o env x
    let q ← progM A F c r o y.2 cs
    pure (y.1 :: q.1, q.2)

/-! The objects in memory. -/

variable [Ptrs]

/-- An object in memory, and the blocks it occupies. -/
def At (m : Mem) (x : Nat × Kind) (F : List Nat) : Obj → Prop
  | .set s => x.2 = .set ∧ ∃ d, SetAt m x.1 d s ∧ F = foot x.1 d
  | .queue q => x.2 = .queue ∧ ∃ d, QueueAt m x.1 d q ∧ F = foot x.1 d
  | .bytes b rc => x.2 = .bytes ∧ ∃ d, BytesAt m x.1 d b rc ∧ F = [x.1, d]

variable {m m' m0 : Mem} {x : Nat × Kind} {F : List Nat} {o : Obj}

theorem At.congr (h : At m x F o) (hm : ∀ y ∈ F, m'.get y = m.get y) : At m' x F o := by
  cases o with
  | set s =>
    obtain ⟨k, d, h, rfl⟩ := h
    have ha := hm x.1 (by unfold foot; split <;> simp)
    refine ⟨k, d, ⟨h.nonnull, by rw [ha]; exact h.header, ?_⟩, rfl⟩
    rcases h.array with h1 | ⟨h1, h2, h3⟩
    · exact .inl h1
    · exact .inr ⟨h1, h2, by rw [hm d (by simp [foot, h1])]; exact h3⟩
  | queue q =>
    obtain ⟨k, d, h, rfl⟩ := h
    have ha := hm x.1 (by unfold foot; split <;> simp)
    refine ⟨k, d, ⟨h.nonnull, by rw [ha]; exact h.header, ?_⟩, rfl⟩
    rcases h.array with h1 | ⟨h1, h2, h3⟩
    · exact .inl h1
    · exact .inr ⟨h1, h2, by rw [hm d (by simp [foot, h1])]; exact h3⟩
  | bytes b rc =>
    obtain ⟨k, d, h, rfl⟩ := h
    exact ⟨k, d, ⟨h.nonnull, by rw [hm _ (by simp)]; exact h.header, h.data0, h.apart, by rw [hm _ (by simp)]; exact h.array⟩, rfl⟩

theorem At.live (h : At m x F o) : ∀ y ∈ F, m.get y ≠ none := by
  have key : ∀ d c, m.get x.1 = some c → (d = 0 ∨ ∃ c', m.get d = some c') → ∀ y ∈ foot x.1 d, m.get y ≠ none := by
    intro d c h1 h2 y hy
    unfold foot at hy
    split at hy
    · simp only [List.mem_singleton] at hy; subst hy; rw [h1]; simp
    · rename_i hd
      simp only [List.mem_cons, List.not_mem_nil, or_false] at hy
      rcases hy with rfl | rfl
      · rw [h1]; simp
      · rcases h2 with h2 | ⟨c', h2⟩
        · exact absurd h2 hd
        · rw [h2]; simp
  cases o with
  | set s =>
    obtain ⟨k, d, h, rfl⟩ := h
    exact key d _ h.header (h.array.imp (·.1) fun g => ⟨_, g.2.2⟩)
  | queue q =>
    obtain ⟨k, d, h, rfl⟩ := h
    exact key d _ h.header (h.array.imp (·.1) fun g => ⟨_, g.2.2⟩)
  | bytes b rc =>
    obtain ⟨k, d, h, rfl⟩ := h
    have := key d _ h.header (.inr ⟨_, h.array⟩)
    rwa [show foot x.1 d = [x.1, d] by simp [foot, h.data0]] at this

/-- The live objects are in memory, apart from each other and from what was in `m0`; all other memory is as in `m0`. -/
structure WInv (m0 : Mem) (w : World) (env : Env) (fp : Nat → List Nat) (m : Mem) : Prop where
  len : env.length = w.length
  each : ∀ i o, w[i]? = some (some o) → ∃ x, env[i]? = some x ∧ At m x (fp i) o
  dead : ∀ i, (∀ o, w[i]? ≠ some (some o)) → fp i = []
  disj : ∀ i j, i ≠ j → ∀ y ∈ fp i, y ∉ fp j
  fresh : ∀ i, ∀ y ∈ fp i, m0.get y = none
  frame : ∀ y, (∀ i, y ∉ fp i) → m.get y = m0.get y

variable {w w' : World} {env env' : Env} {fp : Nat → List Nat}

theorem WInv.live (h : WInv m0 w env fp m) (i : Nat) : ∀ y ∈ fp i, m.get y ≠ none := by
  intro y hy
  by_cases ho : ∃ o, w[i]? = some (some o)
  · obtain ⟨o, ho⟩ := ho
    obtain ⟨x, _, hx⟩ := h.each i o ho
    exact hx.live y hy
  · rw [h.dead i fun o e => ho ⟨o, e⟩] at hy
    cases hy

theorem WInv.update (h : WInv m0 w env fp m) (i : Nat) (hlen : env'.length = w'.length) (hw : ∀ j, j ≠ i → w'[j]? = w[j]?) (he : ∀ j, j ≠ i → env'[j]? = env[j]?)
    {F' : List Nat} (hu : Upd m m' (fp i) F') (hnew : ∀ o, w'[i]? = some (some o) → ∃ x, env'[i]? = some x ∧ At m' x F' o)
    (hdead : (∀ o, w'[i]? ≠ some (some o)) → F' = []) : WInv m0 w' env' (Function.update fp i F') m' := by
  have hsep : ∀ j, j ≠ i → ∀ y ∈ fp j, y ∉ F' ∧ m'.get y = m.get y := by
    intro j hj y hy
    have h1 : y ∉ fp i := h.disj j i hj y hy
    have h2 : y ∉ F' := by
      intro hm
      rcases hu.grow y hm with h3 | h3
      · exact h1 h3
      · exact h.live j y hy h3
    exact ⟨h2, by rw [hu.frame y h2, if_neg h1]⟩
  refine ⟨hlen, ?_, ?_, ?_, ?_, ?_⟩
  · intro j o hj
    by_cases e : j = i
    · subst e; rw [Function.update_self]; exact hnew o hj
    · rw [Function.update_of_ne e]
      rw [hw j e] at hj
      obtain ⟨x, h1, h2⟩ := h.each j o hj
      exact ⟨x, by rw [he j e]; exact h1, h2.congr fun y hy => (hsep j e y hy).2⟩
  · intro j hj
    by_cases e : j = i
    · subst e; rw [Function.update_self]; exact hdead hj
    · rw [Function.update_of_ne e]
      exact h.dead j (by rw [← hw j e]; exact hj)
  · intro j k hjk y hy
    by_cases ej : j = i
    · subst ej
      rw [Function.update_self] at hy
      rw [Function.update_of_ne (Ne.symm hjk)]
      intro hk
      exact (hsep k (Ne.symm hjk) y hk).1 hy
    · rw [Function.update_of_ne ej] at hy
      by_cases ek : k = i
      · subst ek; rw [Function.update_self]; exact (hsep j ej y hy).1
      · rw [Function.update_of_ne ek]; exact h.disj j k hjk y hy
  · intro j y hy
    by_cases ej : j = i
    · subst ej
      rw [Function.update_self] at hy
      by_cases hin : y ∈ fp j
      · exact h.fresh j y hin
      · rcases hu.grow y hy with h3 | h3
        · exact absurd h3 hin
        · rw [← h.frame y fun k hk => h.live k y hk h3]; exact h3
    · rw [Function.update_of_ne ej] at hy; exact h.fresh j y hy
  · intro y hy
    have hi := hy i
    rw [Function.update_self] at hi
    rw [hu.frame y hi]
    split
    · rename_i hin; exact (h.fresh i y hin).symm
    · rename_i hin
      refine h.frame y fun j => ?_
      by_cases ej : j = i
      · rw [ej]; exact hin
      · have := hy j; rwa [Function.update_of_ne ej] at this

/-- A new object. -/
theorem WInv.add (h : WInv m0 w env fp m) {F' : List Nat} (hu : Upd m m' [] F') (hnew : At m' x F' o) :
    WInv m0 (w ++ [some o]) (env ++ [x]) (Function.update fp w.length F') m' := by
  refine h.update w.length (by simp [h.len]) (fun j hj => ?_) (fun j hj => ?_) ?_ (fun o' ho => ?_) (fun hd => ?_)
  · rcases Nat.lt_or_gt_of_ne hj with hj | hj
    · exact List.getElem?_append_left hj
    · rw [List.getElem?_eq_none (by simp; omega), List.getElem?_eq_none (by omega)]
  · rcases Nat.lt_or_gt_of_ne hj with hj | hj
    · exact List.getElem?_append_left (by rw [h.len]; exact hj)
    · rw [List.getElem?_eq_none (by simp [h.len]; omega), List.getElem?_eq_none (by rw [h.len]; omega)]
  · rw [h.dead w.length (by intro o; simp)]; exact hu
  · simp at ho; subst ho
    exact ⟨x, by rw [← h.len]; simp, hnew⟩
  · exact absurd (by simp) (hd o)

/-- An object that is changed. -/
theorem WInv.change (h : WInv m0 w env fp m) {i : Nat} (hx : env[i]? = some x) {F' : List Nat} (hu : Upd m m' (fp i) F') (hnew : At m' x F' o) :
    WInv m0 (w.set i (some o)) env (Function.update fp i F') m' := by
  have hi : i < w.length := by rw [← h.len]; exact (List.getElem?_eq_some_iff.1 hx).1
  refine h.update i (by simp [h.len]) (fun j hj => List.getElem?_set_ne (Ne.symm hj)) (fun _ _ => rfl) hu (fun o' ho => ?_) (fun hd => ?_)
  · rw [List.getElem?_set_self hi] at ho; cases ho; exact ⟨x, hx, hnew⟩
  · exact absurd (List.getElem?_set_self hi) (hd o)

/-- An object that is destroyed. -/
theorem WInv.remove (h : WInv m0 w env fp m) {i : Nat} (hi : i < w.length) (hu : Upd m m' (fp i) []) :
    WInv m0 (w.set i none) env (Function.update fp i []) m' := by
  refine h.update i (by simp [h.len]) (fun j hj => List.getElem?_set_ne (Ne.symm hj)) (fun _ _ => rfl) hu (fun o' ho => ?_) (fun _ => rfl)
  rw [List.getElem?_set_self hi] at ho; cases ho

/-- The blocks of the user. -/
def external (m0 : Mem) (a : Nat) : Option (List UInt8) := if a = 0 then none else match m0.get a with
  | some (.bytes c) => some c
  | _ => none

omit [Ptrs] in
theorem does_known {i : Nat} {Q : Nat × Kind → Mem → Prop} (h : env[i]? = some x) (q : Q x m) : Does (known env i) m Q := by
  unfold known
  rw [h]
  exact Does.pure q

/-- A source pointer resolved: a block that holds the bytes from the offset on; it is the block of array `i` only if the source says so. -/
theorem resolve_spec (h : WInv m0 w env fp m) {src : Src} {c : List UInt8} (hs : source (external m0) w src = .ok c) :
    Does (resolve env src) m (fun p m' => m' = m ∧ p.1 ≠ 0 ∧ (∃ c', m.get p.1 = some (.bytes c') ∧ p.2 ≤ c'.length ∧ c = c'.drop p.2) ∧
      ∀ i, p.1 ∈ fp i → src = .own i p.2) := by
  cases src with
  | ext a off =>
    refine Does.pure ?_
    simp only [source, external] at hs
    by_cases ha : a = 0
    · rw [if_pos ha] at hs; cases hs
    · rw [if_neg ha] at hs
      cases hc : m0.get a with
      | none => rw [hc] at hs; cases hs
      | some cc =>
        rw [hc] at hs
        cases cc with
        | bytes c' =>
          dsimp only at hs
          split at hs
          · rename_i hl
            cases hs
            refine ⟨rfl, ha, ⟨c', ?_, hl, rfl⟩, fun i hi => ?_⟩
            · rw [h.frame a fun i hi => by rw [h.fresh i a hi] at hc; cases hc]; exact hc
            · have := h.fresh i a hi
              rw [hc] at this; cases this
          · cases hs
        | _ => cases hs
  | own j off =>
    simp only [source, bytesOf] at hs
    cases hj : w[j]? with
    | none => rw [hj] at hs; cases hs
    | some oo =>
      rw [hj] at hs
      cases oo with
      | none => cases hs
      | some o =>
        cases o with
        | set s => cases hs
        | queue q => cases hs
        | bytes b rc =>
          dsimp only at hs
          split at hs
          · rename_i hl
            cases hs
            obtain ⟨x, h1, -, d, h2, h3⟩ := h.each j _ hj
            refine Does.bind (does_known h1 (Does.bind (Does.bind (does_readBA h2.nonnull h2.header (Does.pure (Does.pure
              ⟨rfl, h2.data0, ⟨b.data, h2.array, hl, rfl⟩, fun i hi => ?_⟩))))))
            by_cases e : i = j
            · rw [e]
            · exact absurd (by rw [h3]; simp) (h.disj i j e d hi)
          · cases hs

omit [Ptrs] in
theorem setOp_nil {s s' : IntSet.IntSet} {op : SetOp} {r : Res} (hs : s.data = []) (h : Returns (op.fn s) (r, s')) : s'.data = [] := by
  have hset : ∀ {s1 : IntSet.IntSet} {i : Nat} {v : UInt64} {s2 : IntSet.IntSet}, s1.data = [] → IntSet.setWord s1 i v ≠ .ok s2 := by
    intro s1 i v s2 h1; simp [IntSet.setWord, h1]
  have hword : ∀ {s1 : IntSet.IntSet} {i : Nat} , s1.data = [] → IntSet.word s1 i = .error .ub := by
    intro s1 i h1; simp [IntSet.word, h1]
  cases op with
  | add e =>
    obtain ⟨s1, h1, h2⟩ := returns_bind_inv h
    rw [returns_pure] at h2
    cases h2
    rw [returns_liftC] at h1
    unfold IntSet.add at h1
    split at h1
    · rw [hword hs] at h1; cases h1
    · cases h1; exact hs
  | remove e =>
    obtain ⟨s1, h1, h2⟩ := returns_bind_inv h
    rw [returns_pure] at h2
    cases h2
    rw [returns_liftC] at h1
    unfold IntSet.remove at h1
    split at h1
    · rw [hword hs] at h1; cases h1
    · cases h1; exact hs
  | fill =>
    obtain ⟨s1, h1, h2⟩ := returns_bind_inv h
    rw [returns_pure] at h2
    cases h2
    unfold IntSet.fill IntSet.fillLoop at h1
    split at h1
    · obtain ⟨s2, h3, _⟩ := returns_bind_inv h1
      rw [returns_liftC] at h3
      exact absurd h3 (hset hs)
    · rw [returns_pure] at h1; subst h1; exact hs
  | has e => obtain ⟨_, _, h2⟩ := returns_bind_inv h; rw [returns_pure] at h2; cases h2; exact hs
  | nextHit e => obtain ⟨_, _, h2⟩ := returns_bind_inv h; rw [returns_pure] at h2; cases h2; exact hs
  | nextMiss e => obtain ⟨_, _, h2⟩ := returns_bind_inv h; rw [returns_pure] at h2; cases h2; exact hs
  | empty => obtain ⟨_, _, h2⟩ := returns_bind_inv h; rw [returns_pure] at h2; cases h2; exact hs

variable {A : Alloc} {cmp : Nat → Nat → Int} {a d : Nat}

theorem queueM_spec (hA : A.Good) {q q' : Prioq.PQ Nat} {op : QueueOp} {r : Res} (h : QueueAt m a d q) (hq : Returns (op.fn cmp q) (r, q')) :
    Does (queueM A cmp a op) m (fun r' m' => r' = r ∧ ∃ d', QueueAt m' a d' q' ∧ Upd m m' (foot a d) (foot a d')) := by
  have call : (d = 0 → q'.storage = []) → Does (prioqCall (fun q => op.fn cmp q) a) m (fun r' m' => r' = r ∧ ∃ d', QueueAt m' a d' q' ∧ Upd m m' (foot a d) (foot a d')) :=
    fun he => (prioqCall_spec h hq he).mono fun _ _ ⟨g1, g2, g3⟩ => ⟨g1, d, g2, g3⟩
  have nil : d = 0 → q.storage = [] := by
    intro hd
    rcases h.array with g | g
    · exact g.2
    · exact absurd hd g.1
  cases op with
  | enqueue v =>
    obtain ⟨q1, h1, h2⟩ := returns_bind_inv hq
    rw [returns_pure] at h2
    cases h2
    exact Does.bind ((enqueueM_spec hA cmp h h1).mono fun _ _ g => Does.pure ⟨rfl, g⟩)
  | dequeue =>
    refine call fun hd => ?_
    obtain ⟨⟨_, _⟩, h1, h2⟩ := returns_bind_inv hq
    rw [returns_pure] at h2
    cases h2
    exact dequeue_nil (nil hd) h1
  | peek =>
    refine call fun hd => ?_
    obtain ⟨_, h1, h2⟩ := returns_bind_inv hq
    rw [returns_pure] at h2
    cases h2
    exact nil hd
  | pop =>
    refine call fun hd => ?_
    obtain ⟨⟨_, _⟩, h1, h2⟩ := returns_bind_inv hq
    rw [returns_pure] at h2
    cases h2
    rw [returns_liftC] at h1
    exact pop_nil (nil hd) h1
  | remove slot =>
    refine call fun hd => ?_
    obtain ⟨⟨_, _⟩, h1, h2⟩ := returns_bind_inv hq
    rw [returns_pure] at h2
    cases h2
    exact remove_nil (nil hd) h1
  | size =>
    refine call fun hd => ?_
    simp only [Spec.Objects.QueueOp.fn, returns_pure] at hq
    cases hq
    exact nil hd

variable {junk : BA.Junk} {b : BA.BA} {rc : UInt32} {i : Nat}

omit [Ptrs] in
theorem truthM_spec {y : M Bool} {z : C (Bool × BA.BA)} {r : Res} {b' : BA.BA} {rc' : UInt32} (hz : z.map (truth · rc) = .ok (r, b', rc'))
    (hy : ∀ t, z = .ok t → Does y m (Done a d rc m t)) :
    Does (truthM y) m (fun r' m' => r' = r ∧ ∃ d', BytesAt m' a d' b' rc' ∧ Upd m m' [a, d] [a, d']) := by
  cases z with
  | error e => cases hz
  | ok t =>
    cases hz
    exact Does.bind ((hy t rfl).mono fun _ _ g => Does.pure ⟨by rw [g.1], g.2⟩)

theorem appendF_spec (hA : A.Good) (h : WInv m0 w env fp m) (hb : BytesAt m a d b rc) (hF : fp i = [a, d]) {src : Src} {len : Nat} {r : Res} {b' : BA.BA} {rc' : UInt32}
    (hf : appendF (external m0) w i junk b rc src len = .ok (r, b', rc')) :
    Does (do let p ← resolve env src; truthM (appendM A junk a p.1 p.2 len)) m
      (fun r' m' => r' = r ∧ ∃ d', BytesAt m' a d' b' rc' ∧ Upd m m' [a, d] [a, d']) := by
  unfold appendF firstBytes at hf
  cases hs : source (external m0) w src with
  | error e => rw [hs] at hf; cases hf
  | ok c =>
    rw [hs] at hf
    dsimp only at hf
    by_cases hl : len ≤ c.length
    · rw [if_pos hl] at hf
      dsimp only at hf
      by_cases hk : appendOk b i src len = true
      · rw [if_pos hk] at hf
        refine Does.bind ((resolve_spec h hs).mono ?_)
        rintro ⟨p, off⟩ _ ⟨rfl, hp0, ⟨c', hp, ho, rfl⟩, hown⟩
        dsimp only at *
        have hlen : ((c'.drop off).take len).length = len := by rw [List.length_take]; omega
        refine truthM_spec hf fun t ht => ?_
        have key := appendM_spec (junk := junk) hA hb (src := p) (off := off) (bs := (c'.drop off).take len) (r := t)
          (.inr ⟨c', hp0, hp, by rw [hlen, ← Nat.sub_add_cancel ho]; simp only [List.length_drop] at hl; omega, by rw [hlen]⟩) ?_ ht
        · rwa [hlen] at key
        · rw [hlen]
          by_cases hpd : p = d
          · have := hown i (by rw [hF, hpd]; simp)
            subst this
            simp only [appendOk, bne_self_eq_false, Bool.false_or, Bool.or_eq_true, beq_iff_eq, Bool.and_eq_true, decide_eq_true_eq] at hk
            rcases hk with hk | hk
            · exact .inl (by rw [hk]; simp)
            · exact .inr (.inr hk)
          · exact .inr (.inl hpd)
      · rw [if_neg hk] at hf; cases hf
    · rw [if_neg hl] at hf; cases hf

theorem copyF_spec (hA : A.Good) (h : WInv m0 w env fp m) (hb : BytesAt m a d b rc) (hF : fp i = [a, d]) {src : Src} {pos len : Nat} {r : Res} {b' : BA.BA} {rc' : UInt32}
    (hf : copyF (external m0) w i junk b rc pos src len = .ok (r, b', rc')) :
    Does (do let p ← resolve env src; truthM (copyM A junk a pos p.1 p.2 len)) m
      (fun r' m' => r' = r ∧ ∃ d', BytesAt m' a d' b' rc' ∧ Upd m m' [a, d] [a, d']) := by
  unfold copyF firstBytes at hf
  cases hs : source (external m0) w src with
  | error e => rw [hs] at hf; cases hf
  | ok c =>
    rw [hs] at hf
    dsimp only at hf
    by_cases hl : len ≤ c.length
    · rw [if_pos hl] at hf
      dsimp only at hf
      by_cases hk : copyOk b i pos src len = true
      · rw [if_pos hk] at hf
        refine Does.bind ((resolve_spec h hs).mono ?_)
        rintro ⟨p, off⟩ _ ⟨rfl, hp0, ⟨c', hp, ho, rfl⟩, hown⟩
        dsimp only at *
        have hlen : ((c'.drop off).take len).length = len := by rw [List.length_take]; omega
        refine truthM_spec hf fun t ht => ?_
        have key := copyM_spec (junk := junk) hA hb (pos := pos) (src := p) (off := off) (bs := (c'.drop off).take len) (r := t)
          (.inr ⟨c', hp0, hp, by rw [hlen]; simp only [List.length_drop] at hl; omega, by rw [hlen]⟩) ?_ ht
        · rwa [hlen] at key
        · rw [hlen]
          by_cases hpd : p = d
          · have := hown i (by rw [hF, hpd]; simp)
            subst this
            simp only [copyOk, bne_self_eq_false, Bool.false_or, Bool.or_eq_true, decide_eq_true_eq] at hk
            exact .inr hk
          · exact .inl hpd
      · rw [if_neg hk] at hf; cases hf
    · rw [if_neg hl] at hf; cases hf

theorem bytesM_spec (hA : A.Good) (h : WInv m0 w env fp m) (hb : BytesAt m a d b rc) (hF : fp i = [a, d]) {op : BytesOp} {r : Res} {b' : BA.BA} {rc' : UInt32}
    (hf : op.fn (external m0) w i junk b rc = .ok (r, b', rc')) :
    Does (bytesM A env a junk op) m (fun r' m' => r' = r ∧ ∃ d', BytesAt m' a d' b' rc' ∧ Upd m m' [a, d] [a, d']) := by
  cases op with
  | append src len => exact appendF_spec hA h hb hF hf
  | appendString src =>
    simp only [Spec.Objects.BytesOp.fn] at hf
    cases hs : source (external m0) w src with
    | error e => rw [hs] at hf; cases hf
    | ok c =>
      rw [hs] at hf
      dsimp only at hf
      cases hn : BA.strlen c with
      | error e => rw [hn] at hf; cases hf
      | ok n =>
        rw [hn] at hf
        have key := appendF_spec hA h hb hF hf
        obtain ⟨p, m1, hr, rfl, hp0, ⟨c', hp, -, rfl⟩, -⟩ := resolve_spec h hs
        refine Does.bind (hr.does (Does.bind (Does.bind (does_readBytes hp0 hp (Does.bind (does_lift ((returns_liftC _ _).2 hn) ?_))))))
        obtain ⟨r1, m2, k1, k2⟩ := key
        have k1 := Owned.run_past k1 hr
        obtain ⟨t, m3, k3, k4⟩ := Owned.run_bind_inv k1
        exact ⟨t, m3, k3, ⟨r1, m2, k4, k2⟩⟩
  | copy pos src len => exact copyF_spec hA h hb hF hf
  | copyString pos src =>
    simp only [Spec.Objects.BytesOp.fn] at hf
    cases hs : source (external m0) w src with
    | error e => rw [hs] at hf; cases hf
    | ok c =>
      rw [hs] at hf
      dsimp only at hf
      cases hn : BA.strlen c with
      | error e => rw [hn] at hf; cases hf
      | ok n =>
        rw [hn] at hf
        have key := copyF_spec hA h hb hF hf
        obtain ⟨p, m1, hr, rfl, hp0, ⟨c', hp, -, rfl⟩, -⟩ := resolve_spec h hs
        refine Does.bind (hr.does (Does.bind (Does.bind (does_readBytes hp0 hp (Does.bind (does_lift ((returns_liftC _ _).2 hn) ?_))))))
        obtain ⟨r1, m2, k1, k2⟩ := key
        have k1 := Owned.run_past k1 hr
        obtain ⟨t, m3, k3, k4⟩ := Owned.run_bind_inv k1
        exact ⟨t, m3, k3, ⟨r1, m2, k4, k2⟩⟩
  | stream cb len =>
    simp only [Spec.Objects.BytesOp.fn] at hf
    cases hs : BA.appendStream junk b cb len with
    | error e => rw [hs] at hf; cases hf
    | ok t =>
      rw [hs] at hf
      cases hf
      exact Does.bind ((appendStreamM_spec hA hb hs).mono fun _ _ g => Does.pure ⟨by rw [g.1], g.2⟩)
  | resize n c => exact truthM_spec hf fun t ht => resizeM_spec hA hb ht
  | clear =>
    simp only [Spec.Objects.BytesOp.fn] at hf
    cases hs : BA.clear b with
    | error e => rw [hs] at hf; cases hf
    | ok t =>
      rw [hs] at hf
      cases hf
      exact Does.bind ((clearM_spec hb hs).mono fun _ _ g => Does.pure ⟨rfl, g.2⟩)
  | view =>
    simp only [Spec.Objects.BytesOp.fn] at hf
    split at hf
    · rename_i hl
      cases hf
      have hlen : (b.data.take (b.cursor + 1)).length = b.cursor + 1 := by rw [List.length_take]; omega
      have key := fetch_spec (m := m) (src := d) (off := 0) (bs := b.data.take (b.cursor + 1))
        (.inr ⟨b.data, hb.data0, hb.array, by rw [hlen]; omega, by rw [hlen]; rfl⟩)
      rw [hlen] at key
      exact Does.bind (Does.bind (does_readBA hb.nonnull hb.header (Does.pure (Does.bind (Does.bind (does_readBA hb.nonnull hb.header (Does.pure
        (Does.bind (key.mono fun _ _ ⟨g1, g2⟩ => Does.pure ⟨by rw [g1], d, by rw [g2]; exact hb, by rw [g2]; exact Upd.refl _ _⟩)))))))))
    · cases hf
  | share =>
    cases hf
    exact Does.bind ((shareByteArray_spec hb).mono fun _ _ g => Does.pure ⟨rfl, d, g.2⟩)

/-- One command does in memory what it does to the functional objects. -/
theorem stepM_spec (hA : A.Good) {F : Funs} {rl : Nat} (hr : Ptrs.reloc = if rl ≠ 0 then rl else F.dummyReloc) (h : WInv m0 w env fp m) {c : Cmd} {r : Res}
    (hf : Returns (stepF (external m0) (F.cmp Ptrs.cmp Ptrs.obj) w c) (r, w')) :
    Does (stepM A F Ptrs.cmp rl Ptrs.obj env c) m (fun r' m' => r'.1 = r ∧ ∃ fp', WInv m0 w' r'.2 fp' m') := by
  cases c with
  | makeSet null n =>
    simp only [stepF, returns_pure] at hf
    cases hf
    exact Does.bind ((makeIntset_spec hA m null n).mono fun a _ ⟨d, g1, g2⟩ => Does.pure ⟨rfl, _, h.add (x := (a, .set)) g2 ⟨rfl, d, g1, rfl⟩⟩)
  | makeQueue =>
    simp only [stepF, returns_pure] at hf
    cases hf
    exact Does.bind ((makePrioq_spec hA m hr).mono fun a _ ⟨g1, g2⟩ => Does.pure ⟨rfl, _, h.add (x := (a, .queue)) g2 ⟨rfl, 0, g1, rfl⟩⟩)
  | makeBytes junk max =>
    obtain ⟨b, h1, h2⟩ := returns_bind_inv hf
    rw [returns_pure] at h2
    cases h2
    rw [returns_liftC] at h1
    exact Does.bind ((makeByteArray_spec hA m h1).mono fun a _ ⟨d, g1, g2⟩ => Does.pure ⟨rfl, _, h.add (x := (a, .bytes)) g2 ⟨rfl, d, g1, rfl⟩⟩)
  | onSet i op =>
    simp only [stepF] at hf
    split at hf
    · rename_i s hw
      obtain ⟨⟨r1, s1⟩, h1, h2⟩ := returns_bind_inv hf
      rw [returns_pure] at h2
      cases h2
      obtain ⟨x, hx, hk, d, hs, hF⟩ := h.each i _ hw
      refine Does.bind (does_known hx (Does.bind ((intsetCall_spec hs h1 fun hd => ?_).mono fun _ _ ⟨g1, g2, g3⟩ =>
        Does.pure ⟨g1, _, h.change hx (F' := foot x.1 d) (by rw [hF]; exact g3) ⟨hk, d, g2, rfl⟩⟩)))
      rcases hs.array with g | g
      · exact setOp_nil g.2 h1
      · exact absurd hd g.1
    · rw [returns_liftC] at hf; cases hf
  | onQueue i op =>
    simp only [stepF] at hf
    split at hf
    · rename_i s hw
      obtain ⟨⟨r1, s1⟩, h1, h2⟩ := returns_bind_inv hf
      rw [returns_pure] at h2
      cases h2
      obtain ⟨x, hx, hk, d, hs, hF⟩ := h.each i _ hw
      have hc : Run (storedCmp F x.1) m (F.cmp Ptrs.cmp Ptrs.obj) m := (run_readPQ hs.nonnull hs.header).bind (Run.pure _ _)
      exact Does.bind (does_known hx (Does.bind (hc.does <| Does.bind ((queueM_spec hA hs h1).mono fun _ _ ⟨g1, d', g2, g3⟩ =>
        Does.pure ⟨g1, _, h.change hx (F' := foot x.1 d') (by rw [hF]; exact g3) ⟨hk, d', g2, rfl⟩⟩))))
    · rw [returns_liftC] at hf; cases hf
  | onBytes i junk op =>
    simp only [stepF] at hf
    split at hf
    · rename_i b rc hw
      obtain ⟨⟨r1, b1, rc1⟩, h1, h2⟩ := returns_bind_inv hf
      rw [returns_pure] at h2
      cases h2
      rw [returns_liftC] at h1
      obtain ⟨x, hx, hk, d, hs, hF⟩ := h.each i _ hw
      exact Does.bind (does_known hx (Does.bind ((bytesM_spec hA h hs hF h1).mono fun _ _ ⟨g1, d', g2, g3⟩ =>
        Does.pure ⟨g1, _, h.change hx (F' := [x.1, d']) (by rw [hF]; exact g3) ⟨hk, d', g2, rfl⟩⟩)))
    · rw [returns_liftC] at hf; cases hf
  | destroy i =>
    simp only [stepF] at hf
    split at hf
    · rename_i s hw
      rw [returns_pure] at hf
      cases hf
      obtain ⟨x, hx, hk, d, hs, hF⟩ := h.each i _ hw
      refine Does.bind (does_known hx ?_)
      rw [hk]
      exact Does.bind ((destroyIntset_spec hs).mono fun _ _ g => Does.pure ⟨rfl, _, h.remove (List.getElem?_eq_some_iff.1 hw).1 (by rw [hF]; exact g)⟩)
    · rename_i s hw
      rw [returns_pure] at hf
      cases hf
      obtain ⟨x, hx, hk, d, hs, hF⟩ := h.each i _ hw
      refine Does.bind (does_known hx ?_)
      rw [hk]
      exact Does.bind ((destroyPrioq_spec hs).mono fun _ _ g => Does.pure ⟨rfl, _, h.remove (List.getElem?_eq_some_iff.1 hw).1 (by rw [hF]; exact g)⟩)
    · rename_i b rc hw
      rw [returns_pure] at hf
      cases hf
      obtain ⟨x, hx, hk, d, hs, hF⟩ := h.each i _ hw
      refine Does.bind (does_known hx ?_)
      rw [hk]
      refine Does.bind ((destroyByteArray_spec hs).mono fun _ _ g => Does.pure ⟨rfl, ?_⟩)
      by_cases hr : rc - 1 ≠ 0
      · rw [if_pos hr] at g ⊢
        exact ⟨_, h.change hx (F' := [x.1, d]) (by rw [hF]; exact g.2) ⟨hk, d, g.1, rfl⟩⟩
      · rw [if_neg hr] at g ⊢
        exact ⟨_, h.remove (List.getElem?_eq_some_iff.1 hw).1 (by rw [hF]; exact g)⟩
    · rw [returns_liftC] at hf; cases hf

/-- A program does in memory what it does to the functional objects. -/
theorem progM_spec (hA : A.Good) {F : Funs} {rl : Nat} (hr : Ptrs.reloc = if rl ≠ 0 then rl else F.dummyReloc) : ∀ (cs : List Cmd) {w w' : World} {env : Env} {fp : Nat → List Nat} {m : Mem} {rs : List Res}, WInv m0 w env fp m →
    Returns (progF (external m0) (F.cmp Ptrs.cmp Ptrs.obj) w cs) (rs, w') → Does (progM A F Ptrs.cmp rl Ptrs.obj env cs) m (fun r' m' => r'.1 = rs ∧ ∃ fp', WInv m0 w' r'.2 fp' m') := by
  intro cs
  induction cs with
  | nil =>
    intro w w' env fp m rs h hf
    simp only [progF, returns_pure] at hf
    cases hf
    exact Does.pure ⟨rfl, fp, h⟩
  | cons c cs ih =>
    intro w w' env fp m rs h hf
    obtain ⟨⟨r1, w1⟩, h1, h2⟩ := returns_bind_inv hf
    obtain ⟨⟨rs1, w2⟩, h3, h4⟩ := returns_bind_inv h2
    rw [returns_pure] at h4
    cases h4
    refine Does.bind ((stepM_spec hA hr h h1).mono ?_)
    rintro ⟨r, env'⟩ m1 ⟨rfl, fp', g⟩
    refine Does.bind ((ih g h3).mono ?_)
    rintro ⟨rs', env''⟩ m2 ⟨rfl, g'⟩
    exact Does.pure ⟨rfl, g'⟩

theorem wInv_start (m : Mem) : WInv m [] [] (fun _ => []) m :=
  ⟨rfl, by simp, fun _ _ => rfl, by simp, by simp, fun _ _ => rfl⟩

end Verif.Objects
