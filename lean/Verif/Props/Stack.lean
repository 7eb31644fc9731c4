import Verif.Proofs.Cost
import Verif.Proofs.Unicode13
import Verif.Props.Avl

/-! The recursion of the library is shallow: how many calls of the functions that call themselves are active at a time. -/

namespace Verif

namespace Avl
open Verif.Spec.Avl
open T

/-- One call of the specification on a stack with room for `d` calls of the recursive functions; the calls that use none are as they were. -/
def callS (d : Nat) (A : Alloc) (F : Funs) (f o : Nat) : Op → M Res
  | .destroy t => do destroyS d t; pure .unit
  | .copy t => do pure (.ptr (← copyS d A t))
  | .put t k v => do pure (.ptr (← treePutS d A (← stored F t) t k v))
  | .pop t k => do pure (.ptr (← popS d (← stored F t) t k))
  | .popFirst t => do pure (.ptr (← popFirstS d t))
  | .popLast t => do pure (.ptr (← popLastS d t))
  | .detach t e => do detachS d t e; pure .unit
  | .remove t e => do removeS d t e; pure .unit
  | op => call A F f o op

/-- A program on such a stack. -/
def execS (d : Nat) (A : Alloc) (F : Funs) (f o : Nat) : Prog → M (List Res)
  | .done => pure []
  | .call op next => do
    let r ← callS d A F f o op
    let rs ← execS d A F f o (next r)
    pure (r :: rs)

/-- However the unspecified choices fall, when the program makes a call, no tree has more than `n` elements. -/
def Small (cmp : Nat → Nat → Int) (n : Nat) : Prog → State → Prop
  | .done, _ => True
  | .call op next, s => (∀ x ∈ s.trees, x.2.length ≤ n) ∧ ∀ r s', Step cmp s op r s' → Small cmp n (next r) s'

theorem bind_congr_run {α β : Type} {x y : M α} {m : Mem} (f : α → M β) (h : x m = y m) : (x >>= f) m = (y >>= f) m := by
  have ex : (x >>= f) m = (x m >>= fun p => f p.1 p.2) := rfl
  have ey : (y >>= f) m = (y m >>= fun p => f p.1 p.2) := rfl
  rw [ex, ey, h]

section
variable [Ptrs] {cmp : Nat → Nat → Int} {m0 m : Mem} {s : State} {tree : Nat} {t : T} {ws : List (Nat × T)} {det xs ys : List Item} {i : Item} {d : Nat}

theorem detachS_eq (h : Front cmp m0 s m tree t ws det) (hd : 4 * Nat.log 2 (t.items.length + 1) ≤ d) (hi : i ∈ t.items) :
    detachS d tree i.elem m = detach tree i.elem m := by
  obtain ⟨c, b, l, r, rfl⟩ := find_place t hi
  have hg := h.good
  exact (short_detach _ _ _).eq (detachS_spec hd (Z.plug.2 hg.z) hg.bal)

theorem detachFoundS_eq (h : Front cmp m0 s m tree t ws det) (hd : 4 * Nat.log 2 (t.items.length + 1) ≤ d) {e : Nat}
    (hi : e ≠ 0 → ∃ i ∈ t.items, i.elem = e) : detachFoundS d tree e m = detachFound tree e m := by
  unfold detachFoundS detachFound
  split
  · obtain ⟨i, hi', rfl⟩ := hi ‹_›
    exact bind_congr_run _ (detachS_eq h hd hi')
  · rfl

/-- One call on a stack that is large enough. -/
theorem callS_eq {A : Alloc} (hA : A.Good) {F : Funs} {op : Op} (h : WInv (F.cmp Ptrs.cmp Ptrs.obj) m0 s m) (ho : ok s op)
    (hd : ∀ x ∈ s.trees, 4 * Nat.log 2 (x.2.length + 1) + 1 ≤ d) : callS d A F Ptrs.cmp Ptrs.obj op m = call A F Ptrs.cmp Ptrs.obj op m := by
  have size : ∀ {tree t ws det}, Front (F.cmp Ptrs.cmp Ptrs.obj) m0 s m tree t ws det →
      4 * Nat.log 2 (t.items.length + 1) + 1 ≤ d ∧ t.height ≤ 2 * Nat.log 2 (t.items.length + 1) := by
    intro tree t ws det hf
    refine ⟨hd (tree, t.items) ?_, hf.good.bal.height_le⟩
    rw [hf.state]; simp
  cases op with
  | destroy tree =>
    obtain ⟨t, ws, det, hf⟩ := h.pick ho
    have := size hf
    exact bind_congr_run _ ((short_destroy _ _).eq (destroyS_spec (by omega) hf.good.z))
  | copy tree =>
    obtain ⟨t, ws, det, hf⟩ := h.pick ho
    have := size hf
    exact bind_congr_run _ ((short_copy _ _ _).eq (copyS_spec (by omega) hA hf.good.z))
  | put tree k v =>
    obtain ⟨t, ws, det, hf⟩ := h.pick ho
    have := size hf
    have hs := stored_spec (F := F) h ho
    refine (run_bind_eq hs).trans (.trans ?_ (run_bind_eq hs).symm)
    exact bind_congr_run _ ((short_treePut _ _ _ _ _ _).eq (treePutS_spec (by omega) hA hf.good.z hf.good.bal k v))
  | pop tree k =>
    obtain ⟨t, ws, det, hf⟩ := h.pick ho
    have := size hf
    have hs := stored_spec (F := F) h ho
    refine (run_bind_eq hs).trans (.trans ?_ (run_bind_eq hs).symm)
    refine bind_congr_run _ ?_
    obtain ⟨⟨a, _, r, rfl, hg⟩⟩ := get_spec hf.good.z (F.cmp Ptrs.cmp Ptrs.obj) k
    refine (run_bind_eq r).trans (.trans ?_ (run_bind_eq r).symm)
    refine detachFoundS_eq hf (by omega) fun h0 => ?_
    rcases hg with ⟨i, hi, -, rfl⟩ | ⟨rfl, -⟩
    · exact ⟨i, hi, rfl⟩
    · exact absurd rfl h0
  | popFirst tree =>
    obtain ⟨t, ws, det, hf⟩ := h.pick ho
    have := size hf
    refine bind_congr_run _ ?_
    obtain ⟨⟨a, _, r, rfl, rfl⟩⟩ := getFirst_spec hf.good.z
    refine (run_bind_eq r).trans (.trans ?_ (run_bind_eq r).symm)
    refine detachFoundS_eq hf (by omega) fun h0 => ?_
    cases hi : t.items with
    | nil => rw [hi] at h0; exact absurd rfl h0
    | cons i ys => exact ⟨i, by simp, rfl⟩
  | popLast tree =>
    obtain ⟨t, ws, det, hf⟩ := h.pick ho
    have := size hf
    refine bind_congr_run _ ?_
    obtain ⟨⟨a, _, r, rfl, rfl⟩⟩ := getLast_spec hf.good.z
    refine (run_bind_eq r).trans (.trans ?_ (run_bind_eq r).symm)
    refine detachFoundS_eq hf (by omega) fun h0 => ?_
    rcases List.eq_nil_or_concat t.items with hi | ⟨xs, i, hi⟩
    · rw [hi] at h0; exact absurd rfl h0
    · rw [List.concat_eq_append] at hi
      rw [hi, lst_snoc]
      exact ⟨i, by simp, rfl⟩
  | detach tree e =>
    obtain ⟨t, ws, det, xs, i, ys, hf, hi, rfl⟩ := h.pickElem ho
    have := size hf
    exact bind_congr_run _ (detachS_eq hf (by omega) (by simp [hi]))
  | remove tree e =>
    obtain ⟨t, ws, det, xs, i, ys, hf, hi, rfl⟩ := h.pickElem ho
    have := size hf
    exact bind_congr_run _ (bind_congr_run _ (detachS_eq hf (by omega) (by simp [hi])))
  | _ => rfl

theorem execS_eq {A : Alloc} (hA : A.Good) {F : Funs} {n : Nat} (hd : 4 * Nat.log 2 (n + 1) + 1 ≤ d) : ∀ (p : Prog) (s : State) (m : Mem),
    WInv (F.cmp Ptrs.cmp Ptrs.obj) m0 s m → Legal (F.cmp Ptrs.cmp Ptrs.obj) p s → Small (F.cmp Ptrs.cmp Ptrs.obj) n p s →
    execS d A F Ptrs.cmp Ptrs.obj p m = exec A F Ptrs.cmp Ptrs.obj p m
  | .done, _, _, _, _, _ => rfl
  | .call op next, s, m, h, hl, hs => by
    have e := callS_eq (d := d) hA h hl.1 fun x hx => by
      have := Nat.log_mono_right (b := 2) (Nat.add_le_add_right (hs.1 x hx) 1)
      omega
    obtain ⟨⟨r, m', hr, s', hst, hw⟩⟩ := call_sim hA h hl.1
    refine (bind_congr_run _ e).trans ((run_bind_eq hr).trans (.trans ?_ (run_bind_eq hr).symm))
    exact bind_congr_run _ (execS_eq hA hd (next r) s' m' hw (hl.2 r s' hst) (hs.2 r s' hst))

omit [Ptrs] in
/-- `destroy_subtree` calls itself down to the null pointers below the lowest elements. -/
theorem destroySubtreeS_full : ∀ (t : T) (p : Nat) (m : Mem) (d : Nat), d ≤ t.height → Rep m p t → t.addrs.Nodup →
    destroySubtreeS d t.ptr m = liftC (.error .abort) := by
  intro t
  induction t with
  | nil =>
    intro p m d hd _ _
    obtain rfl : d = 0 := by simpa [height] using hd
    rfl
  | node i b l r ihl ihr =>
    rintro p m d hd ⟨h0, h1, hl, hr⟩ hn
    cases d with
    | zero => rfl
    | succ d =>
      simp only [addrs_node, List.nodup_append, List.nodup_cons, List.mem_cons] at hn
      have il : i.elem ∉ l.addrs := by grind
      have lr : ∀ a ∈ r.addrs, a ∉ l.addrs := by grind
      simp only [height] at hd
      have ab : ∀ {α β : Type} {x : M α} {f : α → M β} {m : Mem}, x m = liftC (.error .abort) → (x >>= f) m = liftC (.error .abort) := by
        intro α β x f m h
        have ex : (x >>= f) m = (x m >>= fun p => f p.1 p.2) := rfl
        rw [ex, h]; rfl
      rw [destroySubtreeS, ptr_node, if_pos h0, run_bind_eq (run_left h0 h1)]
      by_cases hh : d ≤ l.height
      · exact ab (ihl _ m d hh hl hn.1)
      · obtain ⟨⟨_, m1, r1, -, o1⟩⟩ := destroySubtreeS_spec l _ m d (by omega) hl hn.1
        rw [run_bind_eq r1, run_bind_eq (run_right h0 ((o1 _ il).trans h1))]
        exact ab (ihr _ m1 d (by omega) (hr.off o1 lr) hn.2.1.2)

omit [Ptrs] in
theorem length_lt : ∀ t : T, t.items.length < 2 ^ t.height
  | nil => by simp [T.items, height]
  | node i b l r => by
    have hl := length_lt l
    have hr := length_lt r
    have h1 : 2 ^ l.height ≤ 2 ^ max l.height r.height := Nat.pow_le_pow_right (by omega) (by omega)
    have h2 : 2 ^ r.height ≤ 2 ^ max l.height r.height := Nat.pow_le_pow_right (by omega) (by omega)
    simp only [T.items, height, List.length_append, List.length_cons, pow_succ]
    omega

end

/-- C117: a program whose trees never have more than `n` elements has at most `4 log (n+1) + 1` calls of the recursive functions active at a time:
on a stack with room for that many, it does what it does on an unlimited one. -/
theorem avl_stack {A : Alloc} (hA : A.Good) (F : Funs) (f o n d : Nat) (p : Prog) (m0 : Mem) (hp : Legal (F.cmp f o) p ⟨0, 0⟩)
    (hs : Small (F.cmp f o) n p ⟨0, 0⟩) (hd : 4 * Nat.log 2 (n + 1) + 1 ≤ d) :
    ∃ rs m s, Run (execS d A F f o p) m0 rs m ∧ Run (exec A F f o p) m0 rs m ∧ Runs (F.cmp f o) p ⟨0, 0⟩ rs s := by
  letI : Ptrs := ⟨0, f, o, 0⟩
  obtain ⟨rs, m, s, h1, h2, -⟩ := exec_inv hA m0 hp
  have e := execS_eq hA hd p ⟨0, 0⟩ m0 (winv_init (F.cmp f o) m0) hp hs
  exact ⟨rs, m, s, by rw [Run, show execS d A F f o p m0 = exec A F f o p m0 from e]; exact h1, h1, h2⟩

/-- C117: and no less than a logarithmic stack will do: `destroy_avl_tree` on a tree of `n` elements has `log n + 2` calls of `destroy_subtree` active
at a time. -/
theorem avl_stack_needed {A : Alloc} (hA : A.Good) (F : Funs) (f o : Nat) (p : Prog) (m0 : Mem) (hp : Legal (F.cmp f o) p ⟨0, 0⟩) :
    ∃ rs m s, Run (exec A F f o p) m0 rs m ∧ Runs (F.cmp f o) p ⟨0, 0⟩ rs s ∧ ∀ t items, (t, items) ∈ s.trees → items ≠ [] →
      ∀ d, d < Nat.log 2 items.length + 2 → callS d A F f o (.destroy t) m = liftC (.error .abort) := by
  letI : Ptrs := ⟨0, f, o, 0⟩
  obtain ⟨rs, m, s, h1, h2, ws, det, h, rfl⟩ := exec_inv hA m0 hp
  refine ⟨rs, m, _, h1, h2, fun tree items ht hne d hd => ?_⟩
  simp only [Multiset.mem_coe, List.mem_map] at ht
  obtain ⟨w, hw, e⟩ := ht
  obtain ⟨rfl, rfl⟩ : w.1 = tree ∧ w.2.items = items := by simpa [view] using e
  have hg := h.good w hw
  have hh : d ≤ w.2.height := by
    have := Nat.log_lt_of_lt_pow (by simpa using hne) (length_lt w.2)
    omega
  have key := destroySubtreeS_full w.2 _ m d hh hg.z.sub hg.z.disj.2.2.2
  have ab : ∀ {α β : Type} {x : M α} {f : α → M β} {m : Mem}, x m = liftC (.error .abort) → (x >>= f) m = liftC (.error .abort) := by
    intro α β x f m h
    have ex : (x >>= f) m = (x m >>= fun p => f p.1 p.2) := rfl
    rw [ex, h]; rfl
  refine ab ?_
  rw [destroyS, run_bind_eq (run_root hg.z)]
  exact ab key

/-- The hypotheses are met: a program that stores something in a tree that gets no more than one element. A tree of a billion elements takes a stack
of 117 calls, and at least 31. -/
example : Legal (fun a b => (a : Int) - b) (.call .make fun | .ptr t => .call (.put t 7 70) fun _ => .done | _ => .done) ⟨0, 0⟩ ∧
    Small (fun a b => (a : Int) - b) 1 (.call .make fun | .ptr t => .call (.put t 7 70) fun _ => .done | _ => .done) ⟨0, 0⟩ ∧
    4 * Nat.log 2 (10 ^ 9 + 1) + 1 = 117 ∧ Nat.log 2 (10 ^ 9) + 2 = 31 := by
  refine ⟨⟨trivial, fun r1 s1 h1 => ?_⟩, ⟨by simp, fun r1 s1 h1 => ?_⟩, by decide +kernel, by decide +kernel⟩
  · obtain ⟨t, rfl, ht⟩ := make_has h1 rfl
    exact ⟨ht, fun _ _ _ => trivial⟩
  · generalize ho : Op.make = op at h1
    generalize hs : (⟨0, 0⟩ : State) = s at h1
    cases h1 with
    | make => exact ⟨by cases hs; simp, fun _ _ _ => trivial⟩
    | looks h => cases h <;> cases ho
    | _ => cases ho

end Avl

namespace Unicode
open Verif.Utf8 Verif.Spec.Unicode

/-- Mapping `cp`, the characters it is mapped to, those that they are mapped to and so on, ends after `d` levels, that of `cp` being the first. -/
def DepthLe (dm : Nat → Option (List Nat)) : Nat → Nat → Prop
  | 0, _ => False
  | d + 1, cp => ∀ l, dm cp = some l → ∀ c ∈ l, DepthLe dm d c

theorem decomposeEachS_eq {u : Ucd} {e : Option Nat} {f : Nat → List UInt8 → Nat → D (Option Nat × List UInt8)} : ∀ (dp : List Nat)
    (_ : ∀ c ∈ dp, ∀ buf s, f c buf s = decomposeFully u c buf s e) (buf : List UInt8) (s : Option Nat),
    decomposeEachS f dp buf s = decomposeEach u dp buf s e
  | [], _, buf, s => by rw [decomposeEach] <;> first | (cases s <;> rfl) | simp
  | c :: dp, h, buf, none => by rw [decomposeEach] <;> first | rfl | simp
  | c :: dp, h, buf, some i => by
    rw [decomposeEach, decomposeEachS, h c (by simp)]
    congr 1
    funext x
    exact decomposeEachS_eq dp (fun c hc => h c (by simp [hc])) _ _

theorem decomposeFullyS_eq {u : Ucd} {e : Option Nat} : ∀ (d cp : Nat), DepthLe u.decomp d cp → ∀ buf s,
    decomposeFullyS u e d cp buf s = decomposeFully u cp buf s e
  | 0, _, h, _, _ => absurd h id
  | d + 1, cp, h, buf, s => by
    rw [decomposeFullyS, decomposeFully]
    cases hd : u.decomp cp with
    | none => rfl
    | some dp => exact decomposeEachS_eq dp (fun c hc buf s => decomposeFullyS_eq d c (h dp hd c hc) buf s) buf (some s)

theorem rows_depth : (Unidata.unicodeData.every fun _ _ v => v.2.all fun c => match Unidata.fastDecomp c with
    | none => true
    | some l => l.all fun c => match Unidata.fastDecomp c with
      | none => true
      | some l => l.all fun c => (Unidata.fastDecomp c).isNone) = true := by decide +kernel

/-- The mappings of Unicode 13 are applied at most three times over. -/
theorem unicode13_depth (cp : Nat) : DepthLe Unidata.unicode13.decomp 4 cp := by
  rw [Unidata.unicode13_eq]
  intro l hl c hc l1 hl1 c1 hc1 l2 hl2 c2 hc2 l3 hl3
  obtain ⟨ccc, h1, -⟩ := Unidata.decomp_row hl
  obtain ⟨hi, hm⟩ := Unidata.row_mem h1
  have h := UniGen.every_mem rows_depth _ _ _ hm
  have hl1' : Unidata.fastDecomp c = some l1 := hl1
  have hl2' : Unidata.fastDecomp c1 = some l2 := hl2
  have hl3' : Unidata.fastDecomp c2 = some l3 := hl3
  have := List.all_eq_true.1 h c hc
  rw [hl1'] at this
  have := List.all_eq_true.1 this c1 hc1
  rw [hl2'] at this
  have := List.all_eq_true.1 this c2 hc2
  rw [hl3'] at this
  cases this

/-- C117: decomposing a character has at most four calls of `decompose_fully` active at a time, whatever the character. -/
theorem decompose_stack (cp : Nat) (buf : List UInt8) (s : Nat) (e : Option Nat) :
    decomposeFullyS Unidata.unicode13 e 4 cp buf s = decomposeFully Unidata.unicode13 cp buf s e :=
  decomposeFullyS_eq 4 cp (unicode13_depth cp) buf s

/-- Four calls are needed: U+1F82 is decomposed three times over. -/
theorem decompose_stack_needed (buf : List UInt8) (s : Nat) (e : Option Nat) :
    decomposeFullyS Unidata.unicode13 e 3 0x1F82 buf s = throw .abort := by
  rw [Unidata.unicode13_eq]
  have h1 : Unidata.fast.decomp 0x1F82 = some [0x1F02, 0x345] := by decide +kernel
  have h2 : Unidata.fast.decomp 0x1F02 = some [0x1F00, 0x300] := by decide +kernel
  have h3 : Unidata.fast.decomp 0x1F00 = some [0x3B1, 0x313] := by decide +kernel
  simp only [decomposeFullyS, h1, h2, h3, decomposeEachS]
  rfl

end Unicode
end Verif
