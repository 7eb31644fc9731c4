import Verif.Proofs.ObjectsSim

/-! Properties C105 and C106: sets, priority queues and byte arrays in memory. -/

namespace Verif.Objects
open Verif.Spec.Objects (Res Src Cmd Step Steps Legal)
set_option autoImplicit false

/-- No object is left. -/
def AllGone (v : Spec.Objects.World) : Prop := ∀ (i : Nat) o, v[i]? ≠ some (some o)

/-- C105. Every legal program on any number of sets, priority queues and byte arrays, with any allocator and from any memory, runs without
touching memory that is not its own; every call on every object returns what the specification allows for that object, as if the others did
not exist; whatever was in memory before stays as it was; the blocks in use besides are at most two for each object not yet destroyed, no
block serving two objects; and once all objects are destroyed, memory is as before. -/
theorem objects_refine {A : Alloc} (hA : A.Good) {F : Funs} {c r o : Nat} (hc : Spec.Prioq.Preorder (F.cmp c o)) (m : Mem) (cs : List Cmd)
    (hl : Legal (external m) (fun a b => F.cmp c o a b ≤ 0) [] cs) :
    ∃ rs env m' v, Run (progM A F c r o [] cs) m (rs, env) m' ∧ Steps (external m) (fun a b => F.cmp c o a b ≤ 0) [] cs rs v ∧
      (∀ x, m.get x ≠ none → m'.get x = m.get x) ∧
      (∃ blocks : Nat → List Nat, (∀ i, (blocks i).length ≤ 2) ∧ (∀ i, (∀ o, v[i]? ≠ some (some o)) → blocks i = []) ∧
        (∀ i j, i ≠ j → ∀ x ∈ blocks i, x ∉ blocks j) ∧ ∀ x, m.get x = none → (m'.get x ≠ none ↔ ∃ i, x ∈ blocks i)) ∧
      (AllGone v → ∀ x, m'.get x = m.get x) := by
  letI : Ptrs := ⟨0, c, o, if r ≠ 0 then r else F.dummyReloc⟩
  obtain ⟨rs, w, v, h1, h2, h3⟩ := prog_sim hc cs (Good.start (cmp := F.cmp c o)) hl
  obtain ⟨⟨rs', env⟩, m', g1, rfl, fp, g2⟩ := progM_spec hA (rl := r) rfl cs (wInv_start m) h1
  have hdead : ∀ i, (∀ o, v[i]? ≠ some (some o)) → fp i = [] := by
    intro i hi
    refine g2.dead i fun o ho => ?_
    cases hv : v[i]? with
    | none =>
      have := (List.getElem?_eq_some_iff.1 ho).1
      rw [h3.len] at this
      rw [List.getElem?_eq_none_iff] at hv
      omega
    | some s => cases s with
      | none => rw [h3.dead i hv] at ho; cases ho
      | some s => exact hi s hv
  have hframe : ∀ x, m.get x ≠ none → m'.get x = m.get x := fun x hx => g2.frame x fun i hi => hx (g2.fresh i x hi)
  refine ⟨rs', env, m', v, g1, h2, hframe, ⟨fp, fun i => ?_, hdead, g2.disj, fun x hx => ⟨fun hx' => ?_, fun ⟨i, hi⟩ => g2.live i x hi⟩⟩, ?_⟩
  · by_cases ho : ∃ o, w[i]? = some (some o)
    · obtain ⟨o, ho⟩ := ho
      obtain ⟨x, _, hx⟩ := g2.each i o ho
      cases o with
      | set s => obtain ⟨-, d, -, e⟩ := hx; rw [e]; unfold foot; split <;> simp
      | queue s => obtain ⟨-, d, -, e⟩ := hx; rw [e]; unfold foot; split <;> simp
      | bytes s k => obtain ⟨-, d, -, e⟩ := hx; rw [e]; simp
    · rw [g2.dead i fun o e => ho ⟨o, e⟩]; simp
  · by_contra hn
    exact hx' (by rw [g2.frame x fun i hi => hn ⟨i, hi⟩]; exact hx)
  · intro hg x
    exact g2.frame x fun i hi => by rw [hdead i (hg i)] at hi; cases hi

/-- A set, a queue and a shared byte array at work side by side. Block 7 belongs to the user. -/
def sampleMem : Mem := [(7, .bytes [104, 105, 0])]

def sampleProg : List Cmd :=
  [.makeSet false 70, .makeBytes (fun _ => 9) 10, .makeQueue, .onSet 0 (.add 65), .onBytes 1 (fun _ => 9) (.appendString (.ext 7 0)),
   .onQueue 2 (.enqueue 5), .onQueue 2 (.enqueue 3), .onBytes 1 (fun _ => 9) .share, .destroy 1, .onSet 0 (.nextHit 0),
   .onBytes 1 (fun _ => 9) (.copy 1 (.own 1 0) 1), .onBytes 1 (fun _ => 9) .view, .onQueue 2 .dequeue, .destroy 1, .destroy 0, .destroy 2]

theorem sample_legal : Legal (external sampleMem) (fun a b => (a : Int) - b ≤ 0) [] sampleProg := by
  have h7 : external sampleMem 7 = some [104, 105, 0] := by decide +kernel
  have hr : ∀ w, Spec.Objects.readable (external sampleMem) w (.ext 7 0) = some [104, 105, 0] := by
    intro w; simp [Spec.Objects.readable, h7]
  unfold sampleProg
  refine ⟨show (70 : UInt64).toNat ≤ 2 ^ 31 by decide, ?_⟩
  intro r w h; cases h
  refine ⟨show 0 < 10 ∧ 10 < 2 ^ 64 by decide, ?_⟩
  intro r w h; cases h
  refine ⟨trivial, ?_⟩
  intro r w h; cases h
  refine ⟨⟨_, _, rfl⟩, ?_⟩
  intro r w h; cases h with | onSet _ _ _ _ _ _ e h => _
  cases e; cases h
  refine ⟨⟨_, _, _, rfl, ⟨_, hr _, by decide, fun h => h.elim⟩⟩, ?_⟩
  intro r w h; cases h with | onBytes _ _ _ _ _ _ e => _
  cases e
  refine ⟨⟨_, rfl, by decide⟩, ?_⟩
  intro r w h; cases h with | onQueue _ _ _ _ _ e h => _
  cases e; cases h
  refine ⟨⟨_, rfl, by decide⟩, ?_⟩
  intro r w h; cases h with | onQueue _ _ _ _ _ e h => _
  cases e; cases h
  refine ⟨⟨_, _, _, rfl, by show 1 + 1 < 2 ^ 32; omega⟩, ?_⟩
  intro r w h; cases h with | onBytes _ _ _ _ _ _ e => _
  cases e
  refine ⟨⟨_, rfl⟩, ?_⟩
  intro r w h
  cases h with
  | destroySet _ _ _ e => cases e
  | destroyQueue _ _ e => cases e
  | destroyBytes _ _ _ e => cases e
  | release _ _ _ _ e => _
  cases e
  refine ⟨⟨_, _, rfl⟩, ?_⟩
  intro r w h; cases h with | onSet _ _ _ _ _ _ e h => _
  cases e; cases h with | nextHit _ _ _ => _
  refine ⟨⟨_, _, _, rfl, ⟨[104, 105, 0], ?_, by decide, by decide, fun _ => ?_⟩⟩, ?_⟩
  · simp [Spec.Objects.readable, Spec.Objects.bytesStep, Spec.Objects.text, Spec.Objects.truth, Spec.ByteArray.append, h7]
  · simp [Spec.Objects.readable, Spec.Objects.bytesStep, Spec.Objects.text, Spec.Objects.truth, Spec.ByteArray.append, h7]
  intro r w h; cases h with | onBytes _ _ _ _ _ _ e => _
  cases e
  refine ⟨⟨_, _, _, rfl, trivial⟩, ?_⟩
  intro r w h; cases h with | onBytes _ _ _ _ _ _ e => _
  cases e
  refine ⟨⟨_, rfl, trivial⟩, ?_⟩
  intro r w h; cases h with | onQueue _ _ _ _ _ e h => _
  cases e; cases h with | dequeue _ _ _ => _
  refine ⟨⟨_, rfl⟩, ?_⟩
  intro r w h
  cases h with
  | destroySet _ _ _ e => cases e
  | destroyQueue _ _ e => cases e
  | release _ _ _ _ e => cases e
  | destroyBytes _ _ _ e => _
  refine ⟨⟨_, rfl⟩, ?_⟩
  intro r w h
  cases h with
  | destroyBytes _ _ _ e => cases e
  | destroyQueue _ _ e => cases e
  | release _ _ _ _ e => cases e
  | destroySet _ _ _ e => _
  exact ⟨⟨_, rfl⟩, fun _ _ _ => trivial⟩

/-- A comparator of numbers. -/
def sampleFuns : Funs := ⟨fun _ _ a b => (a : Int) - b, fun _ k => k, 1⟩

example : ∃ rs env m' v, Run (progM Alloc.example sampleFuns 2 0 0 [] sampleProg) sampleMem (rs, env) m' ∧
    Steps (external sampleMem) (fun a b => (a : Int) - b ≤ 0) [] sampleProg rs v := by
  obtain ⟨rs, env, m', v, h1, h2, -⟩ := objects_refine Alloc.example_good (F := sampleFuns) (c := 2) (r := 0) (o := 0)
    ⟨fun a b => by simp only [sampleFuns]; omega, fun a b c => by simp only [sampleFuns]; omega⟩ sampleMem sampleProg sample_legal
  exact ⟨rs, env, m', v, h1, h2⟩

/-! ### Sources inside the array itself -/

variable {A : Alloc} {m : Mem} {a d : Nat} {b : BA.BA} {rc : UInt32}

theorem upd_frame {m' : Mem} {d' x : Nat} (h : Upd m m' [a, d] [a, d']) (ha : x ≠ a) (hd : x ≠ d) (hx : m.get x ≠ none) : m'.get x = m.get x := by
  have hin : x ∉ [a, d'] := by
    intro hm
    rcases h.grow x hm with h1 | h1
    · simp [ha, hd] at h1
    · exact hx h1
  rw [h.frame x hin, if_neg (by simp [ha, hd])]

/-- Growing that moves the block: the old one is free afterwards. -/
theorem ensureSpaceM_moves (hA : A.Good) (h : BytesAt m a d b rc) (hi : BA.Inv b) (junk : BA.Junk) (len : Nat) (hgrow : b.size ≤ b.cursor + len)
    (hmax : b.cursor + len < b.maxSize) (hmove : ∀ n, A.pick ((m.set a (.barray ⟨d, b.cursor, b.maxSize, n, rc⟩)).del d) ≠ d) :
    Does (ensureSpaceM A junk a len) m (fun r m' => r = true ∧ m'.get d = none ∧ ∃ d' n, d' ≠ d ∧ m'.get a = some (.barray ⟨d', b.cursor, b.maxSize, n, rc⟩)) := by
  have g1 := hi.max64; have g2 := hi.size64; have g3 := hi.curSize
  refine Does.bind (does_readBA h.nonnull h.header ?_)
  refine does_neg (by show ¬ len ≥ BA.sub64 b.maxSize b.cursor; rw [BA.sub64_eq (by omega) (by omega)]; omega) ?_
  refine does_pos (by show len ≥ BA.sub64 b.size b.cursor; rw [BA.sub64_eq (by omega) (by omega)]; omega) ?_
  generalize BA.roundUp 0 (BA.add64 (BA.add64 b.cursor len) 1) = n
  refine Does.bind (does_write h.nonnull h.header ?_)
  refine Does.bind (does_readBA h.nonnull (Mem.get_set_self _ _ _) ?_)
  have hd : (m.set a (.barray ⟨d, b.cursor, b.maxSize, n, rc⟩)).get d = some (.bytes b.data) := by
    rw [Mem.get_set_ne (Ne.symm h.apart)]; exact h.array
  refine Does.bind (Does.bind (does_readBytes h.data0 hd (Does.bind (does_free h.data0 hd (does_alloc hA ?_)))))
  have hm := hmove n
  have ha : ((m.set a (.barray ⟨d, b.cursor, b.maxSize, n, rc⟩)).del d).get a = some (.barray ⟨d, b.cursor, b.maxSize, n, rc⟩) := by
    rw [Mem.get_del_ne h.apart]; exact Mem.get_set_self _ _ _
  have hpa := hA.fresh ((m.set a (.barray ⟨d, b.cursor, b.maxSize, n, rc⟩)).del d)
  generalize hp : A.pick ((m.set a (.barray ⟨d, b.cursor, b.maxSize, n, rc⟩)).del d) = p at hm hpa
  have hne : p ≠ a := fun e => by rw [e, ha] at hpa; cases hpa
  refine Does.bind (does_write h.nonnull (by rw [Mem.get_set_ne hne]; exact ha) (Does.pure ⟨rfl, ?_, p, n, hm, Mem.get_set_self _ _ _⟩))
  rw [Mem.get_set_ne (Ne.symm h.apart), Mem.get_set_ne hm]
  exact Mem.get_del_self _ _

theorem fetch_freed {off len : Nat} (h : m.get d = none) (h0 : 0 < len) : Crashes (fetch d off len) m := by
  unfold fetch
  rw [if_neg (by omega)]
  exact (crashes_readBytes h).left

/-- C106, if the array does not have to grow: appending a part of the array to itself gives the contents followed by that part. -/
theorem append_within_partial (hA : A.Good) (h : BytesAt m a d b rc) (hi : BA.Inv b) (junk : BA.Junk) (off len : Nat)
    (hin : off + len ≤ (BA.contents b).length) (hroom : b.cursor + len < b.size) :
    ∃ r m' d' b', Run (appendM A junk a d off len) m r m' ∧ BytesAt m' a d' b' rc ∧ BA.Inv b' ∧
      (r, BA.contents b') = Spec.ByteArray.append b.maxSize (BA.contents b) (((BA.contents b).drop off).take len) ∧
      ∀ x, x ≠ a → x ≠ d → m.get x ≠ none → m'.get x = m.get x := by
  have hcl := BA.contents_length hi
  have g1 := hi.len; have g2 := hi.size64; have g3 := hi.curSize
  have hlen : (((BA.contents b).drop off).take len).length = len := by rw [List.length_take, List.length_drop]; omega
  have hbs : ((BA.contents b).drop off).take len = (b.data.drop off).take len := by
    unfold BA.contents
    rw [List.drop_take, List.take_take, Nat.min_eq_left (by omega)]
  obtain ⟨b', e1, e2, e3, e4⟩ := BA.append_spec junk hi (((BA.contents b).drop off).take len)
  obtain ⟨r, m', k1, k2, d', k3, k4⟩ := appendM_spec (junk := junk) hA h (src := d) (off := off) (bs := ((BA.contents b).drop off).take len)
    (.inr ⟨b.data, h.data0, h.array, by rw [hlen]; omega, by rw [hlen]; exact hbs⟩)
    (.inr (.inr ⟨by rw [hlen, BA.sub64_eq (by omega) (by omega)]; omega, by rw [hlen]; omega⟩)) e1
  rw [hlen] at k1
  refine ⟨r, m', d', b', k1, k3, e2, by rw [k2, e3], fun x hxa hxd hx => ?_⟩
  exact upd_frame k4 hxa hxd hx

/-- C106, if the array does not have to grow: copying a part of the array over another, overlapping or not, writes the bytes as they were
before the call. -/
theorem copy_within_partial (hA : A.Good) (h : BytesAt m a d b rc) (hi : BA.Inv b) (junk : BA.Junk) (pos off len : Nat)
    (hin : off + len ≤ (BA.contents b).length) (hroom : pos + len < b.size) :
    ∃ r m' d' b', Run (copyM A junk a pos d off len) m r m' ∧ BytesAt m' a d' b' rc ∧ BA.Inv b' ∧
      (r, BA.contents b') = Spec.ByteArray.copy b.maxSize (BA.contents b) pos (((BA.contents b).drop off).take len) ∧
      ∀ x, x ≠ a → x ≠ d → m.get x ≠ none → m'.get x = m.get x := by
  have hcl := BA.contents_length hi
  have g1 := hi.len; have g2 := hi.size64; have g3 := hi.curSize
  have hlen : (((BA.contents b).drop off).take len).length = len := by rw [List.length_take, List.length_drop]; omega
  have hbs : ((BA.contents b).drop off).take len = (b.data.drop off).take len := by
    unfold BA.contents
    rw [List.drop_take, List.take_take, Nat.min_eq_left (by omega)]
  obtain ⟨b', e1, e2, e3, e4⟩ := BA.copy_spec junk hi pos (((BA.contents b).drop off).take len) (by omega)
  obtain ⟨r, m', k1, k2, d', k3, k4⟩ := copyM_spec (junk := junk) hA h (pos := pos) (src := d) (off := off) (bs := ((BA.contents b).drop off).take len)
    (.inr ⟨b.data, h.data0, h.array, by rw [hlen]; omega, by rw [hlen]; exact hbs⟩)
    (.inr (by
      rw [hlen]
      by_cases hle : pos ≤ b.cursor
      · by_cases hle2 : pos + len ≤ b.cursor
        · right; rw [BA.sub64_eq (by omega) (by omega)]; omega
        · left; rw [BA.add64_eq (by omega), BA.sub64_eq (by omega) (by omega), BA.sub64_eq (by omega) (by omega)]; omega
      · left; rw [BA.add64_eq (by omega), BA.sub64_eq (by omega) (by omega), BA.sub64_eq (by omega) (by omega)]; omega)) e1
  rw [hlen] at k1
  refine ⟨r, m', d', b', k1, k3, e2, by rw [k2, e3], fun x hxa hxd hx => ?_⟩
  exact upd_frame k4 hxa hxd hx

/-- C106 fails: if the array has to grow and the allocator moves the block, appending a part of the array to itself reads freed memory. The
limit allows the call, and the part is within the contents. -/
theorem append_within_freed (hA : A.Good) (h : BytesAt m a d b rc) (hi : BA.Inv b) (junk : BA.Junk) (off len : Nat) (h0 : 0 < len) (hgrow : b.size ≤ b.cursor + len)
    (hmax : b.cursor + len < b.maxSize) (hmove : ∀ n, A.pick ((m.set a (.barray ⟨d, b.cursor, b.maxSize, n, rc⟩)).del d) ≠ d) :
    Crashes (appendM A junk a d off len) m := by
  have g1 := hi.max64; have g2 := hi.size64; have g3 := hi.curSize
  refine Does.crash ((ensureSpaceM_moves hA h hi junk len hgrow hmax hmove).mono ?_)
  rintro r m' ⟨rfl, hfree, d', s, hne, ha⟩
  refine Crashes.left (Does.crash (does_readBA h.nonnull ha ?_))
  rw [if_neg fun e => hne e.1]
  exact (fetch_freed hfree h0).left

/-- C106 fails in the same way for copying. -/
theorem copy_within_freed (hA : A.Good) (h : BytesAt m a d b rc) (hi : BA.Inv b) (junk : BA.Junk) (pos off len : Nat) (h0 : 0 < len) (hpos : pos ≤ b.cursor)
    (hgrow : b.size ≤ pos + len) (hmax : pos + len < b.maxSize)
    (hmove : ∀ n, A.pick ((m.set a (.barray ⟨d, b.cursor, b.maxSize, n, rc⟩)).del d) ≠ d) :
    Crashes (copyM A junk a pos d off len) m := by
  have g1 := hi.max64; have g2 := hi.size64; have g3 := hi.curSize
  refine Does.crash (does_readBA h.nonnull h.header ?_)
  dsimp only
  rw [if_neg (by omega), if_pos (by rw [BA.sub64_eq hpos (by omega)]; omega), BA.add64_eq (by omega), BA.sub64_eq (by omega) (by omega)]
  refine Does.crash ((ensureSpaceM_moves hA h hi junk (pos + len - b.cursor) (by omega) (by omega) hmove).mono ?_)
  rintro r m' ⟨rfl, hfree, -⟩
  exact (fetch_freed hfree h0).left.left

/-- An array of 100 bytes with room for 128 and a limit of 1000. -/
def fullArray : BA.BA := { data := List.replicate 100 65 ++ List.replicate 28 0, cursor := 100, maxSize := 1000, size := 128 }

def fullMem : Mem := [(1, .barray ⟨5, 100, 1000, 128, 1⟩), (5, .bytes fullArray.data)]

theorem fullMem_at : BytesAt fullMem 1 5 fullArray 1 := ⟨by decide, by decide +kernel, by decide, by decide, by decide +kernel⟩

theorem fullArray_inv : BA.Inv fullArray := ⟨rfl, by decide, by decide, by decide, by decide, rfl⟩

/-- Appending the first 20 bytes of the array to it works, appending all 100 does not. -/
example : (∃ r m' d' b', Run (appendM Alloc.example (fun _ => 0) 1 5 0 20) fullMem r m' ∧ BytesAt m' 1 d' b' 1 ∧
      (r, BA.contents b') = (true, List.replicate 120 65)) ∧
    Crashes (appendM Alloc.example (fun _ => 0) 1 5 0 100) fullMem := by
  constructor
  · obtain ⟨r, m', d', b', h1, h2, -, h3, -⟩ := append_within_partial Alloc.example_good fullMem_at fullArray_inv (fun _ => 0) 0 20 (by decide) (by decide)
    exact ⟨r, m', d', b', h1, h2, h3.trans (by decide)⟩
  · refine append_within_freed Alloc.example_good fullMem_at fullArray_inv _ _ _ (by decide) (by decide) (by decide) fun n => ?_
    show (List.map _ (Mem.del _ _)).sum + 1 ≠ 5
    simp [fullMem, Mem.set, Mem.del, List.filter]

example : (∃ r m' d' b', Run (copyM Alloc.example (fun _ => 0) 1 90 5 0 30) fullMem r m' ∧ BytesAt m' 1 d' b' 1 ∧
      (r, BA.contents b') = (true, List.replicate 120 65)) ∧
    Crashes (copyM Alloc.example (fun _ => 0) 1 90 5 0 60) fullMem := by
  constructor
  · obtain ⟨r, m', d', b', h1, h2, -, h3, -⟩ := copy_within_partial Alloc.example_good fullMem_at fullArray_inv (fun _ => 0) 90 0 30 (by decide) (by decide)
    exact ⟨r, m', d', b', h1, h2, h3.trans (by decide)⟩
  · refine copy_within_freed Alloc.example_good fullMem_at fullArray_inv _ _ _ _ (by decide) (by decide) (by decide) (by decide) fun n => ?_
    show (List.map _ (Mem.del _ _)).sum + 1 ≠ 5
    simp [fullMem, Mem.set, Mem.del, List.filter]

end Verif.Objects
