import Verif.Proofs.ListWorld

/-! Properties C11-C14 and C82: lists. -/

namespace Verif.CList
open Verif.Spec.List (Op Res State Cmd)

/-- C11, C13, C14: any program that makes, copies and destroys lists and inserts, removes, pops, walks and queries memberships of live lists
returns what the same program on mathematical sequences returns. `SameAt` compares results: values, sizes and truth values are equal, a
membership named `k` in the specification is the pointer its insertion returned (for a copy: the `k`-th element from the first). The program
runs from any memory `m0`, with any allocator. In particular no command has undefined behaviour or fails to return. -/
theorem list_sequence {A : Alloc} (hA : A.Good) (m0 : Mem) (cs : List Cmd) {rs : List (Nat × Res Nat)} {w : List (Option State)}
    (h : Spec.List.execs [] cs = some (rs, w)) :
    ∃ out env m', Run (prog A [] cs) m0 (out, env) m' ∧ List.Forall₂ (SameAt env) rs out := by
  obtain ⟨x, m', h1, h2⟩ := (prog_sim hA cs rfl (winv_init m0) h).out
  exact ⟨x.1, x.2, m', h1, h2.2.2⟩

/-- C12: at any time the program has changed no block that was live before, and once all its lists are destroyed memory is what it was:
every block was freed, once, and nothing else. -/
theorem list_leak_free {A : Alloc} (hA : A.Good) (m0 : Mem) (cs : List Cmd) {rs : List (Nat × Res Nat)} {w : List (Option State)}
    (h : Spec.List.execs [] cs = some (rs, w)) :
    ∃ x m', Run (prog A [] cs) m0 x m' ∧ (∀ a, m0.get a ≠ none → m'.get a = m0.get a) ∧
      ((∀ o ∈ w, o = none) → ∀ a, m'.get a = m0.get a) := by
  obtain ⟨x, m', h1, h2, -, -⟩ := (prog_sim hA cs rfl (winv_init m0) h).out
  refine ⟨x, m', h1, fun a ha => h2.frame a fun i hi => ha (h2.fresh i a hi), fun hw a => h2.frame a fun i => ?_⟩
  have : view w x.2 i = none := by
    unfold view
    cases hi : w[i]? with
    | none => rfl
    | some o => rw [hw o (List.mem_of_getElem? hi)]
  rw [this]; simp [foot]

/-- A program on two lists: appends, prepends, an insertion in the middle, removals, a copy, pops, walks; and what it must return. -/
example : ∃ rs w, Spec.List.execs [] [.make, .on 0 (.append 7), .on 0 (.prepend 5), .on 0 (.append 7), .on 0 (.insertBefore 6 0), .on 0 .size,
      .copy 0, .on 0 (.remove 1), .on 0 .first, .on 1 .popFirst, .on 1 (.next 1), .on 1 (.previous 1), .on 0 (.get 7), .on 0 (.getByIndex 2),
      .on 0 (.getByIndex (-1)), .on 1 .popLast, .destroy 0, .on 1 .size, .on 1 .empty, .destroy 1] = some (rs, w) ∧ (∀ o ∈ w, o = none) ∧
    rs = [(0, .nothing), (0, .elem (some 0)), (0, .elem (some 1)), (0, .elem (some 2)), (0, .elem (some 3)), (0, .size 4),
      (0, .nothing), (0, .nothing), (0, .elem (some 3)), (1, .value 5), (1, .elem (some 2)), (1, .elem none), (0, .elem (some 0)), (0, .elem (some 2)),
      (0, .elem none), (1, .value 7), (0, .nothing), (1, .size 2), (1, .empty false), (0, .nothing)] :=
  ⟨_, _, rfl, by decide, by decide⟩

/-- There is an allocator. -/
example : Alloc.example.Good := Alloc.example_good

/-- C14: `list_foreach` is the calls of the callback on the values in order, for any callback that leaves the list itself alone. `m` is any
memory that holds the list. -/
theorem list_foreach_calls {l : Nat} {xs : List (Nat × Nat)} {f : Nat → M Unit}
    (hf : ∀ v m1 m2, Rep m1 l xs → Run (f v) m1 () m2 → Rep m2 l xs) {m : Mem} (h : Rep m l xs) :
    foreach l f m = (xs.map (·.2)).forM f m := by
  have key : ∀ (suf pre : List (Nat × Nat)) (m : Mem), xs = pre ++ suf → Rep m l xs → foreachLoop f (hd suf 0) m = (suf.map (·.2)).forM f m := by
    intro suf
    induction suf with
    | nil => intro pre m _ _; rw [foreachLoop]; simp only [hd, if_true]; rfl
    | cons x suf ih =>
      obtain ⟨a, v⟩ := x
      intro pre m he hr
      have hr' := hr
      rw [he] at hr'
      rw [show hd ((a, v) :: suf) 0 = a from rfl, foreachLoop, if_neg hr'.cell.1]
      have e1 : ∀ (g : Nat → M Unit), (getValue a >>= g) m = g v m := by
        intro g
        have : (getValue a >>= g) m = (getValue a m >>= fun p => g p.1 p.2) := rfl
        rw [this, returns_bind (getValue_spec hr')]
      rw [e1]
      show _ = (f v >>= fun _ => (suf.map (·.2)).forM f) m
      have e2 : ∀ (g : Unit → M Unit), (f v >>= g) m = (f v m >>= fun p => g p.1 p.2) := fun g => rfl
      rw [e2, e2]
      have e3 : ∀ (g g' : Unit × Mem → ExceptT Err Option (Unit × Mem)), (∀ m2, Run (f v) m () m2 → g ((), m2) = g' ((), m2)) →
          (f v m >>= g) = (f v m >>= g') := by
        intro g g' hg
        cases hfm : (f v m : Option (Except Err (Unit × Mem))) with
        | none => rfl
        | some r =>
          cases r with
          | error er => rfl
          | ok p => obtain ⟨u, m2⟩ := p; exact hg m2 hfm
      apply e3
      intro m2 hrun
      have hr2 := hf v m m2 hr hrun
      have hr2' := hr2
      rw [he] at hr2'
      have e4 : ∀ (g : Nat → M Unit), (next a >>= g) m2 = g (hd suf 0) m2 := by
        intro g
        have : (next a >>= g) m2 = (next a m2 >>= fun p => g p.1 p.2) := rfl
        rw [this, returns_bind (next_spec hr2')]
      show (next a >>= fun e => foreachLoop f e) m2 = _
      rw [e4]
      exact ih (pre ++ [(a, v)]) m2 (by rw [he]; simp) hr2
  have e0 : ∀ (g : Nat → M Unit), (getFirst l >>= g) m = g (hd xs 0) m := by
    intro g
    have : (getFirst l >>= g) m = (getFirst l m >>= fun p => g p.1 p.2) := rfl
    rw [this, returns_bind (getFirst_spec h)]
  rw [foreach, e0]
  exact key xs [] m rfl h

/-- The callback of `list_copy` is such a callback: it appends to another list. -/
example {A : Alloc} (hA : A.Good) {l c : Nat} {xs ys : List (Nat × Nat)} (v : Nat) (m1 m2 : Mem) (hl : Rep m1 l xs) (hc : Rep m1 c ys)
    (hd : ∀ a ∈ l :: addrs xs, a ∉ c :: addrs ys) (hr : Run (append A c v) m1 a m2) : Rep m2 l xs := by
  obtain ⟨-, h2, -, h4⟩ := (append_spec hA hc v).run hr
  refine hl.congr fun b hb => h4 b ?_
  have h5 := hd b hb
  have h6 : b ≠ a := by rintro rfl; exact hl.live b hb h2
  simp only [List.mem_cons, not_or] at h5 ⊢
  exact ⟨h6, h5⟩

/-- C82, violated: on a list of 2^31 elements or more, `list_get_by_index` with a negative index is undefined behaviour instead of NULL. -/
theorem list_get_by_index_overflow {m : Mem} {l : Nat} {xs : List (Nat × Nat)} (h : Rep m l xs) (hlen : 2 ^ 31 ≤ xs.length) (i : Int) (hi : i < 0) :
    getByIndex l i m = liftC (.error .ub) := by
  have e0 : ∀ (g : LList → M Nat), (readL l >>= g) m = g ⟨hd xs 0, lst xs 0, xs.length % 2 ^ 64⟩ m := by
    intro g
    have : (readL l >>= g) m = (readL l m >>= fun p => g p.1 p.2) := rfl
    rw [this, returns_bind (run_readL h.nonnull h.header)]
  rw [getByIndex, e0]
  exact getByIndexLoop_overflow i hi xs 0 h.seg (by omega) (by omega)

/-- Lists of every length are reachable, by appending. -/
theorem list_any_length {A : Alloc} (hA : A.Good) (m0 : Mem) (n v : Nat) : Does (do
      let l ← make A
      let _ ← runOps A l [] (List.replicate n (.append v))
      pure l) m0 (fun l m => ∃ xs, Rep m l xs ∧ xs.length = n) := by
  have hrun : ∀ (n : Nat) (s : State), ∃ rs s', Spec.List.run s (List.replicate n (.append v)) = some (rs, s') ∧ s'.seq.length = s.seq.length + n := by
    intro n
    induction n with
    | zero => intro s; exact ⟨[], s, rfl, rfl⟩
    | succ n ih =>
      intro s
      obtain ⟨rs, s', h1, h2⟩ := ih ⟨s.seq ++ [(s.made, v)], s.made + 1⟩
      refine ⟨.elem (some s.made) :: rs, s', by simp only [List.replicate_succ, Spec.List.run, Spec.List.step, h1], ?_⟩
      rw [h2]; simp only [List.length_append, List.length_cons, List.length_nil]; omega
  obtain ⟨rs, s', h1, h2⟩ := hrun n Spec.List.init
  refine Does.bind ((make_spec hA m0).mono fun l m1 ⟨g1, g2, g3⟩ => ?_)
  refine Does.bind ((runOps_sim hA _ (inv_init g1 g2 g3) h1).mono fun x m2 ⟨k1, _, _⟩ => Does.pure ⟨_, k1.rep, ?_⟩)
  rw [conc_length, h2]; simp [Spec.List.init]

end Verif.CList
