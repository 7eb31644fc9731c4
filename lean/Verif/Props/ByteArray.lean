import Verif.Proofs.ByteArray

/-! Properties C29–C33 and C81 of `bytearray.c`. -/

namespace Verif.BA

/-- A call on a byte array with its arguments. `junk` is what fresh memory holds if the call allocates; strings are given by the
bytes before and after their NUL. -/
inductive Op
  | copy (junk : Junk) (pos : Nat) (bs : List UInt8)
  | copyString (junk : Junk) (pos : Nat) (s t : List UInt8)
  | append (junk : Junk) (bs : List UInt8)
  | appendString (junk : Junk) (s t : List UInt8)
  | stream (junk : Junk) (cb : ReadCb) (len : Nat)
  | resize (junk : Junk) (n : Nat) (c : UInt8)
  | clear

/-- The argument values a caller can pass: `size_t` values, objects smaller than the address space, real C strings, callbacks that
respect the room they are given and store nothing when they report no data. -/
def Op.Ok : Op → Prop
  | .copy _ _ bs => bs.length < 2 ^ 64
  | .copyString _ _ s _ => s.length < 2 ^ 64 ∧ 0 ∉ s
  | .append _ _ => True
  | .appendString _ s _ => 0 ∉ s
  | .stream _ cb _ => CbOk cb ∧ CbClean cb
  | .resize _ n _ => n < 2 ^ 64
  | .clear => True

/-- What the caller sees of a call: a truth value or a count. -/
inductive Res
  | bool (b : Bool)
  | int (n : Int)
  | unit
  deriving DecidableEq

/-- Run the modelled function. -/
def Op.run (a : BA) : Op → C (Res × BA)
  | .copy j pos bs => (BA.copy j a pos bs).map fun r => (.bool r.1, r.2)
  | .copyString j pos s t => (BA.copyString j a pos (s ++ 0 :: t)).map fun r => (.bool r.1, r.2)
  | .append j bs => (BA.append j a bs).map fun r => (.bool r.1, r.2)
  | .appendString j s t => (BA.appendString j a (s ++ 0 :: t)).map fun r => (.bool r.1, r.2)
  | .stream j cb len => (BA.appendStream j a cb len).map fun r => (.int r.1, r.2)
  | .resize j n c => (BA.resize j a n c).map fun r => (.bool r.1, r.2)
  | .clear => (BA.clear a).map fun r => (.unit, r)

/-- Stream room: the request cut down to what fits; no room at all is an error. -/
def Spec.stream (max : Nat) (c : List UInt8) (cb : ReadCb) (len : Nat) : Int × List UInt8 :=
  let room := max - 1 - c.length
  if 0 < len ∧ room = 0 then (-1, c)
  else ((cb (min len room)).2, c ++ (cb (min len room)).1.take (cb (min len room)).2.toNat)

/-- What the call does to an abstract byte sequence. -/
def Op.spec (max : Nat) (c : List UInt8) : Op → Res × List UInt8
  | .copy _ pos bs => let r := Verif.Spec.ByteArray.copy max c pos bs; (.bool r.1, r.2)
  | .copyString _ pos s _ => let r := Verif.Spec.ByteArray.copy max c pos s; (.bool r.1, r.2)
  | .append _ bs => let r := Verif.Spec.ByteArray.append max c bs; (.bool r.1, r.2)
  | .appendString _ s _ => let r := Verif.Spec.ByteArray.append max c s; (.bool r.1, r.2)
  | .stream _ cb len => let r := Spec.stream max c cb len; (.int r.1, r.2)
  | .resize _ n b => let r := Verif.Spec.ByteArray.resize max c n b; (.bool r.1, r.2)
  | .clear => (.unit, [])

/-- Run a history. -/
def runAll (a : BA) : List Op → C (List Res × BA)
  | [] => .ok ([], a)
  | op :: ops => match op.run a with
    | .error e => .error e
    | .ok (r, a) => match runAll a ops with
      | .error e => .error e
      | .ok (rs, a) => .ok (r :: rs, a)

/-- The same history on a byte sequence. -/
def specAll (max : Nat) (c : List UInt8) : List Op → List Res × List UInt8
  | [] => ([], c)
  | op :: ops =>
    let (r, c) := op.spec max c
    let (rs, c) := specAll max c ops
    (r :: rs, c)

/-- What `byte_array_data` and `byte_array_size` show: the block starts with the bytes `c` and a NUL, the size is that of `c`, and
bytes plus NUL are within the limit. -/
def Shows (a : BA) (max : Nat) (c : List UInt8) : Prop :=
  (∃ rest, (view a).1 = c ++ 0 :: rest) ∧ (view a).2 = c.length ∧ c.length + 1 ≤ max

theorem shows_of_inv {a : BA} (h : Inv a) : Shows a a.maxSize (contents a) := by
  have g1 := h.len; have g4 := h.curSize
  refine ⟨⟨a.data.drop (a.cursor + 1), ?_⟩, (contents_length h).symm, by rw [contents_length h]; exact h.curMax⟩
  have hn := h.nul
  rw [List.getElem?_eq_getElem (by omega)] at hn
  simp only [view, contents]
  have : a.data.drop a.cursor = 0 :: a.data.drop (a.cursor + 1) := by
    rw [List.drop_eq_getElem_cons (by omega), Option.some.inj hn]
  rw [← this, List.take_append_drop]

theorem stream_spec (j : Junk) {a : BA} (h : Inv a) (cb : ReadCb) (hcb : CbOk cb) (len : Nat) :
    ∃ a', appendStream j a cb len = .ok ((Spec.stream a.maxSize (contents a) cb len).1, a') ∧
      contents a' = (Spec.stream a.maxSize (contents a) cb len).2 ∧ a'.maxSize = a.maxSize ∧ (CbClean cb → Inv a') := by
  have g3 := h.max64; have g5 := h.curMax
  have fin : ∀ n, a.cursor + n < a.maxSize → n = min len (a.maxSize - 1 - a.cursor) → ∃ a',
      streamTail j a cb n = .ok ((cb (min len (a.maxSize - 1 - a.cursor))).2, a') ∧
      contents a' = contents a ++ (cb (min len (a.maxSize - 1 - a.cursor))).1.take (cb (min len (a.maxSize - 1 - a.cursor))).2.toNat ∧
      a'.maxSize = a.maxSize ∧ (CbClean cb → Inv a') := by
    intro n hn he
    obtain ⟨a', e1, e2, e3, e4⟩ := streamTail_spec j h cb hcb n hn
    rw [← he]
    refine ⟨a', e1, e2, e3, fun hc => ?_⟩
    by_cases hp : 0 < (cb n).2
    · rwa [if_pos hp] at e4
    · rwa [if_neg hp, hc n (by omega)] at e4
  unfold appendStream Spec.stream
  simp only
  rw [sub64_eq (by omega) g3, contents_length h]
  by_cases hl : len ≥ a.maxSize - a.cursor
  · rw [if_pos hl]
    by_cases h1 : a.maxSize - a.cursor = 1
    · rw [if_pos h1, if_pos (by omega)]
      exact ⟨a, rfl, rfl, rfl, fun _ => h⟩
    · rw [if_neg h1, if_neg (by omega), sub64_eq (by omega) (by omega)]
      exact fin _ (by omega) (by omega)
  · rw [if_neg hl, if_neg (by omega)]
    exact fin _ (by omega) (by omega)

theorem op_spec {a : BA} (h : Inv a) (op : Op) (hop : op.Ok) :
    ∃ a', op.run a = .ok ((op.spec a.maxSize (contents a)).1, a') ∧ Inv a' ∧
      contents a' = (op.spec a.maxSize (contents a)).2 ∧ a'.maxSize = a.maxSize := by
  cases op with
  | copy j pos bs =>
    obtain ⟨a', e, h1⟩ := copy_spec j h pos bs hop
    exact ⟨a', by simp only [Op.run, e]; rfl, h1⟩
  | copyString j pos s t =>
    obtain ⟨a', e, h1⟩ := copy_spec j h pos s hop.1
    exact ⟨a', by simp only [Op.run, copyString, strlen_spec s t hop.2, List.take_left, e]; rfl, h1⟩
  | append j bs =>
    obtain ⟨a', e, h1⟩ := append_spec j h bs
    exact ⟨a', by simp only [Op.run, e]; rfl, h1⟩
  | appendString j s t =>
    obtain ⟨a', e, h1⟩ := append_spec j h s
    exact ⟨a', by simp only [Op.run, appendString, strlen_spec s t hop, List.take_left, e]; rfl, h1⟩
  | stream j cb len =>
    obtain ⟨a', e, h1, h2, h3⟩ := stream_spec j h cb hop.1 len
    exact ⟨a', by simp only [Op.run, e]; rfl, h3 hop.2, h1, h2⟩
  | resize j n c =>
    obtain ⟨a', e, h1⟩ := resize_spec j h n c hop
    exact ⟨a', by simp only [Op.run, e]; rfl, h1⟩
  | clear =>
    obtain ⟨a', e, h1⟩ := clear_spec h
    exact ⟨a', by simp only [Op.run, e]; rfl, h1⟩

theorem run_spec (ops : List Op) : ∀ {a : BA}, Inv a → (∀ op ∈ ops, op.Ok) →
    ∃ a', runAll a ops = .ok ((specAll a.maxSize (contents a) ops).1, a') ∧ Inv a' ∧
      contents a' = (specAll a.maxSize (contents a) ops).2 ∧ a'.maxSize = a.maxSize := by
  induction ops with
  | nil => intro a h _; exact ⟨a, rfl, h, rfl, rfl⟩
  | cons op ops ih =>
    intro a h hok
    obtain ⟨a1, e1, i1, c1, m1⟩ := op_spec h op (hok op (List.mem_cons_self ..))
    obtain ⟨a2, e2, i2, c2, m2⟩ := ih i1 (fun o ho => hok o (List.mem_cons_of_mem _ ho))
    refine ⟨a2, ?_, i2, ?_, by rw [m2, m1]⟩
    · simp only [runAll, e1, e2, specAll]; rw [c1, m1]
    · rw [c2]; simp only [specAll]; rw [c1, m1]

/-- C29, C30. Whatever calls are made on an array with a limit of at least one byte, none touches memory outside the block, each
returns what the byte-sequence specification says (in particular a call over the limit fails and changes nothing), and at the end
data and size show exactly the specified bytes followed by a NUL within the limit. -/
theorem byte_array_refines (junk : Junk) (max : Nat) (h0 : 0 < max) (h64 : max < 2 ^ 64) (ops : List Op) (hops : ∀ op ∈ ops, op.Ok) :
    ∃ a a', make junk max = .ok a ∧ runAll a ops = .ok ((specAll max [] ops).1, a') ∧
      Shows a' max (specAll max [] ops).2 := by
  obtain ⟨a, e, hi, hc, hm⟩ := make_spec junk max h0 h64
  obtain ⟨a', e2, i2, c2, m2⟩ := run_spec ops hi hops
  rw [hc, hm] at e2 c2
  refine ⟨a, a', e, e2, ?_⟩
  have := shows_of_inv i2
  rwa [c2, m2, hm] at this

example : let ops := [Op.append (fun _ => 7) [1, 2, 3], .copy (fun _ => 7) 1 [9, 9, 9], .resize (fun _ => 7) 9 0,
    .copyString (fun _ => 7) 4 [5] [6]]
    (∀ op ∈ ops, op.Ok) ∧ specAll 8 [] ops = ([.bool true, .bool true, .bool false, .bool true], [1, 9, 9, 9, 5]) := by
  constructor
  · simp [Op.Ok]
  · decide

/-- C31. From any reachable array: if the callback respects the room it is given, `byte_array_append_stream` appends exactly the
bytes it reported and returns its count; with no room it returns -1 and changes nothing. The requested length is cut so that the NUL
still fits. -/
theorem byte_array_append_stream_partial (junk junk' : Junk) (max : Nat) (h0 : 0 < max) (h64 : max < 2 ^ 64) (ops : List Op)
    (hops : ∀ op ∈ ops, op.Ok) (cb : ReadCb) (hcb : CbOk cb) (len : Nat) (a b : BA) (rs : List Res)
    (ha : make junk max = .ok a) (hb : runAll a ops = .ok (rs, b)) :
    ∃ b' r, appendStream junk' b cb len = .ok (r, b') ∧
      (r, contents b') = Spec.stream max (contents b) cb len ∧ (CbClean cb → Shows b' max (contents b')) := by
  obtain ⟨a1, e, hi, hc, hm⟩ := make_spec junk max h0 h64
  rw [e] at ha; obtain rfl : a1 = a := by simpa using ha
  obtain ⟨a', e2, i2, c2, m2⟩ := run_spec ops hi hops
  rw [e2] at hb; obtain ⟨-, rfl⟩ : _ ∧ a' = b := by simpa using hb
  obtain ⟨b', f1, f2, f3, f4⟩ := stream_spec junk' i2 cb hcb len
  rw [m2, hm] at f1 f2 f3
  refine ⟨b', _, f1, by rw [f2], fun h => ?_⟩
  have := shows_of_inv (f4 h)
  rwa [f3] at this

/-- C31. A callback that stores bytes and then reports none, as a failing read may do, removes the terminating NUL: the array keeps
its size but is no longer NUL terminated. -/
theorem byte_array_append_stream_loses_nul :
    ∃ (a b : BA) (cb : ReadCb), make (fun _ => 1) 8 = .ok a ∧ CbOk cb ∧ appendStream (fun _ => 1) a cb 4 = .ok (-1, b) ∧
      (view b).2 = 0 ∧ (view b).1[0]? = some 65 ∧ ¬ ∃ c, Shows b 8 c := by
  refine ⟨⟨[0, 1, 1, 1, 1, 1, 1, 1], 0, 8, 8⟩, ⟨[65, 1, 1, 1, 1, 1, 1, 1], 0, 8, 8⟩,
    fun n => if n = 4 then ([65], -1) else ([], 0), by decide, ?_, by decide, by decide, by decide, ?_⟩
  · intro n
    by_cases h : n = 4 <;> simp [h]
  · rintro ⟨c, ⟨rest, h1⟩, h2, -⟩
    have : c = [] := by
      have : c.length = 0 := h2.symm
      exact List.eq_nil_of_length_eq_zero this
    subst this
    have := congrArg (fun l : List UInt8 => l[0]?) h1
    simp [view] at this

/-- C32. A limit of zero: creating the array already writes outside its (empty) block. -/
theorem make_byte_array_zero_ub (junk : Junk) : make junk 0 = .error .ub := rfl

/-- A reference operation. -/
inductive RcOp
  | share
  | destroy
  deriving DecidableEq

/-- Run reference operations on an array (`none` when freed). -/
def runRc (s : Option UInt32) : List RcOp → C (Option UInt32)
  | [] => .ok s
  | .share :: ops => match share s with
    | .error e => .error e
    | .ok s => runRc s ops
  | .destroy :: ops => match destroy s with
    | .error e => .error e
    | .ok s => runRc s ops

/-- References held after a history that started with `n`; `none` if the history uses the array without holding a reference or holds
2^32 references at once. -/
def owners (n : Nat) : List RcOp → Option Nat
  | [] => some n
  | .share :: ops => if n = 0 ∨ n + 1 ≥ 2 ^ 32 then none else owners (n + 1) ops
  | .destroy :: ops => if n = 0 then none else owners (n - 1) ops

theorem runRc_owners (ops : List RcOp) : ∀ n m, n < 2 ^ 32 → owners n ops = some m →
    ∃ s, runRc (if n = 0 then none else some (UInt32.ofNat n)) ops = .ok s ∧ (s = none ↔ m = 0) := by
  induction ops with
  | nil =>
    intro n m hn h
    obtain rfl : n = m := by simpa [owners] using h
    refine ⟨_, rfl, ?_⟩
    by_cases h0 : n = 0 <;> simp [h0]
  | cons op ops ih =>
    intro n m hn h
    cases op with
    | share =>
      simp only [owners] at h
      split at h
      · cases h
      · rename_i hc
        have := ih (n + 1) m (by omega) h
        rw [if_neg (by omega)] at this
        rw [if_neg (by omega)]
        simp only [runRc, share]
        have he : UInt32.ofNat n + 1 = UInt32.ofNat (n + 1) := by
          apply UInt32.toNat_inj.mp; simp
        rw [he]; exact this
    | destroy =>
      simp only [owners] at h
      split at h
      · cases h
      · rename_i hc
        have := ih (n - 1) m (by omega) h
        rw [if_neg (by omega)]
        simp only [runRc, destroy]
        have he : UInt32.ofNat n - 1 = UInt32.ofNat (n - 1) := by
          apply UInt32.toNat_inj.mp
          rw [UInt32.toNat_sub_of_le]
          · simp; omega
          · rw [UInt32.le_iff_toNat_le]; simp; omega
        rw [he]
        by_cases h1 : n - 1 = 0
        · rw [if_pos h1] at this
          rw [h1]; exact this
        · rw [if_neg h1] at this
          have : UInt32.ofNat (n - 1) ≠ 0 := by
            intro hx
            have := congrArg UInt32.toNat hx
            simp at this; omega
          rw [if_pos this]
          assumption

/-- C33. For every interleaving of shares and destroys in which each call is made by a holder of a reference and fewer than 2^32
references exist at once: no call touches freed memory, and the array is freed exactly when no reference is left. -/
theorem byte_array_refcount (ops : List RcOp) (m : Nat) (h : owners 1 ops = some m) :
    ∃ s, runRc (some 1) ops = .ok s ∧ (s = none ↔ m = 0) := by
  have := runRc_owners ops 1 m (by omega) h
  simpa using this

example : owners 1 [.share, .destroy, .share, .destroy, .destroy] = some 0 := by decide
example : runRc (some 1) [.share, .destroy, .share, .destroy, .destroy] = .ok none := by decide

theorem runRc_shares (n : Nat) : ∀ rc : UInt32, runRc (some rc) (List.replicate n .share) = .ok (some (rc + UInt32.ofNat n)) := by
  induction n with
  | zero => intro rc; simp [runRc]
  | succ n ih =>
    intro rc
    simp only [List.replicate_succ, runRc, share, ih]
    congr 2
    apply UInt32.toNat_inj.mp
    simp; omega

theorem runRc_append (xs ys : List RcOp) : ∀ s, runRc s (xs ++ ys) = match runRc s xs with
    | .error e => .error e
    | .ok s => runRc s ys := by
  induction xs with
  | nil => intro s; rfl
  | cons x xs ih =>
    intro s
    cases x <;> simp only [List.cons_append, runRc] <;> split <;> simp_all

/-- C81. The count is 32 bits and unchecked: after 2^32 further references the first release frees the array although 2^32
references remain. -/
theorem byte_array_refcount_wraps : runRc (some 1) (List.replicate (2 ^ 32) .share ++ [.destroy]) = .ok none := by
  rw [runRc_append, runRc_shares]
  have : (1 : UInt32) + UInt32.ofNat (2 ^ 32) = 1 := by decide
  rw [this]
  decide

end Verif.BA
