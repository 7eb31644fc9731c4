import Verif.Spec.Foreach
import Verif.Proofs.ListPtr

/-! Property C113: what a callback of `list_foreach` may do. -/

set_option autoImplicit false

namespace Verif.CList
open Spec.Lists (Prog Legal Runs Walk Fair At Op Res State Step)

/-- The calls of a program. -/
def progM (A : Alloc) : Prog → M Unit
  | .done => pure ()
  | .call op next => do
    let r ← callPtr A op
    progM A (next r)
  | .each l f next => do
    foreach l fun v => progM A (f v)
    progM A next

variable {A : Alloc} {m0 m : Mem} {s : State}

theorem head_hd (xs : List (Nat × Nat)) : Spec.Lists.head xs = hd xs 0 := by
  cases xs with
  | nil => rfl
  | cons x xs => rfl

theorem at_rep {e v : Nat} {zs : List (Nat × Nat)} (h : PInv m0 s m) (ha : At s e v zs) : ∃ l ys, Rep m l (ys ++ (e, v) :: zs) := by
  obtain ⟨ws, h, rfl⟩ := h
  obtain ⟨l, ys, hx⟩ := ha
  exact ⟨l, ys, h.rep _ (by simpa using hx)⟩

theorem progM_sim (hA : A.Good) {p : Prog} (hl : Legal p s) : ∀ {m : Mem}, PInv m0 s m → Does (progM A p) m (fun _ m' => ∃ s', Runs p s s' ∧ PInv m0 s' m') := by
  refine Legal.rec (motive_1 := fun p s _ => ∀ {m : Mem}, PInv m0 s m → Does (progM A p) m (fun _ m' => ∃ s', Runs p s s' ∧ PInv m0 s' m'))
    (motive_2 := fun f s e _ => ∀ {m : Mem}, PInv m0 s m → Does (foreachLoop (fun v => progM A (f v)) e) m (fun _ m' => ∃ s', Walk f s e s' ∧ PInv m0 s' m'))
    ?_ ?_ ?_ ?_ ?_ hl
  · intro s m h
    exact Does.pure ⟨s, .done, h⟩
  · intro op next s ho hn ih m h
    rw [progM]
    refine Does.bind ((callPtr_sim hA h ho).mono fun r m1 ⟨t, h1, h2⟩ => ?_)
    exact (ih r t h1 h2).mono fun _ m2 ⟨s', h3, h4⟩ => ⟨s', .call h1 h3, h4⟩
  · intro l f next s xs hx hf hn ihf ihn m h
    rw [progM, foreach]
    have hr : Rep m l xs := by
      obtain ⟨ws, h, rfl⟩ := h
      exact h.rep _ (by simpa using hx)
    refine Does.bind (Does.bind ((getFirst_spec hr).does ?_))
    rw [← head_hd]
    refine (ihf h).mono fun _ m1 ⟨t, h1, h2⟩ => ?_
    exact (ihn t h1 h2).mono fun _ m2 ⟨s', h3, h4⟩ => ⟨s', .each hx h1 h3, h4⟩
  · intro f s m h
    rw [foreachLoop]
    exact does_pos rfl (Does.pure ⟨s, .stop, h⟩)
  · intro f s e v zs ha hl hk hn ihl ihn m h
    obtain ⟨l, ys, hr⟩ := at_rep h ha
    rw [foreachLoop]
    refine does_neg hr.cell.1 (Does.bind ((getValue_spec hr).does (Does.bind ((ihl h).mono fun _ m1 ⟨t, h1, h2⟩ => ?_))))
    obtain ⟨w, us, ht⟩ := hk t h1
    obtain ⟨l', ys', hr'⟩ := at_rep h2 ht
    refine Does.bind ((next_spec hr').does ?_)
    rw [← head_hd]
    exact (ihn t w us h1 ht h2).mono fun _ m2 ⟨s', h3, h4⟩ => ⟨s', .visit ha h1 ht h3, h4⟩

/-- C113. Every legal program on lists with `list_foreach`, with any allocator and from any memory, runs without undefined behaviour and does to the
lists what the specification says: the callback may add elements to the list it is called on and remove any but the one being visited, and elements
added after that one are visited, elements removed are not. Memory that was in use before stays as it was, and if no list is left, all memory is as
before. -/
theorem foreach_refines (hA : A.Good) (m : Mem) (p : Prog) (hl : Legal p 0) :
    ∃ m' s, Run (progM A p) m () m' ∧ Runs p 0 s ∧ (∀ a, m.get a ≠ none → m'.get a = m.get a) ∧ (s = 0 → ∀ a, m'.get a = m.get a) := by
  obtain ⟨⟨⟩, m', h1, s, h2, ws, h3, rfl⟩ := progM_sim (m0 := m) hA hl (m := m) ⟨[], ⟨by simp, by simp [owned], by simp [owned], by simp⟩, rfl⟩
  refine ⟨m', _, h1, h2, fun a ha => h3.frame a fun h => ha (h3.fresh a h), fun h0 a => h3.frame a ?_⟩
  obtain rfl : ws = [] := (Multiset.coe_eq_zero ws).1 h0
  simp [owned]

/-- A callback that frees the element being visited is undefined behaviour: the walk reads the element again. -/
theorem foreach_freed {f : Nat → M Unit} {l e v : Nat} {xs ys : List (Nat × Nat)} (h : Rep m l (xs ++ (e, v) :: ys))
    (hf : Does (f v) m (fun _ m' => m'.get e = none)) : Crashes (foreachLoop f e) m := by
  rw [foreachLoop, if_neg h.cell.1]
  refine Does.crash ((getValue_spec h).does (Does.crash (hf.mono fun _ m' h' => Crashes.left (Crashes.left ?_))))
  rw [readLE]
  exact (crashes_read h').left

/-- C113, the limit: `list_foreach` with a callback that pops the element it is called with is undefined behaviour for every list that is not empty. -/
theorem foreach_pop_violated {l : Nat} {xs : List (Nat × Nat)} (h : Rep m l xs) (h0 : xs ≠ []) :
    Crashes (foreach l fun _ => do let _ ← popFirst l) m := by
  obtain _ | ⟨⟨e, v⟩, xs⟩ := xs
  · exact absurd rfl h0
  rw [foreach]
  refine Does.crash ((getFirst_spec h).does (foreach_freed (xs := []) h ?_))
  refine Does.bind ?_
  rw [popFirst]
  refine Does.bind ((getFirst_spec h).does (does_neg (h.cell (ys := [])).1 (Does.bind ((getValue_spec (ys := []) h).does (Does.bind ?_)))))
  exact (remove_spec (ys := []) h).mono fun _ m' h' => Does.pure (Does.pure h'.2.1)

/-! A callback that adds to the list it walks. -/

/-- Appends what comes next when counting down. -/
def countF (l : Nat) : Nat → Prog
  | 0 => .done
  | v + 1 => .call (.append l v) fun _ => .done

def getPtr : Res → Nat
  | .ptr p => p
  | _ => 0

/-- Makes a list with just `n`, then `list_foreach` with a callback that appends `v - 1` for the value `v`. -/
def countdown (n : Nat) : Prog :=
  .call .make fun r => .call (.append (getPtr r) n) fun _ => .each (getPtr r) (countF (getPtr r)) .done

theorem step_append_one {l v : Nat} {xs : List (Nat × Nat)} {r : Res} {t : State} (h : Step {(l, xs)} (.append l v) r t) :
    ∃ a, a ≠ 0 ∧ a ∉ xs.map (·.1) ∧ t = {(l, xs ++ [(a, v)])} := by
  generalize hs : ({(l, xs)} : State) = s at h
  cases h with
  | @append s' _ ys a _ hf =>
    obtain ⟨h1, rfl⟩ := (Multiset.singleton_eq_cons_iff _).1 hs
    cases h1
    refine ⟨a, hf.1, fun hm => ?_, rfl⟩
    obtain ⟨p, hp, he⟩ := List.mem_map.1 hm
    exact (hf.2 (l, xs) (by simp)).2 p hp he
  | looks h => cases h

theorem at_one {l e v w : Nat} {xs zs ys : List (Nat × Nat)} (hn : ((xs ++ (e, v) :: zs).map (·.1)).Nodup) (h : At {(l, xs ++ (e, v) :: zs)} e w ys) :
    w = v ∧ ys = zs := by
  obtain ⟨l', us, hm⟩ := h
  have h := (Prod.mk.inj (Multiset.mem_singleton.1 hm)).2
  clear hm
  have h1 : e ∉ xs.map (·.1) := by
    simp only [List.map_append, List.map_cons, List.nodup_append, List.mem_cons] at hn
    exact fun hm => hn.2.2 e hm e (.inl rfl) rfl
  have h2 : e ∉ us.map (·.1) := by
    rw [← h] at hn
    simp only [List.map_append, List.map_cons, List.nodup_append, List.mem_cons] at hn
    exact fun hm => hn.2.2 e hm e (.inl rfl) rfl
  clear hn
  induction xs generalizing us with
  | nil =>
    cases us with
    | nil => simpa using h
    | cons u us => simp at h h2; exact absurd (by rw [h.1]) h2.1
  | cons x xs ih =>
    cases us with
    | nil => simp at h h1; exact absurd (by rw [← h.1]) h1.1
    | cons u us =>
      simp only [List.cons_append, List.cons.injEq] at h
      simp only [List.map_cons, List.mem_cons, not_or] at h1 h2
      exact ih us h.2 h1.2 h2.2

theorem runs_countF {l v : Nat} {xs : List (Nat × Nat)} {t : State} (h : Runs (countF l v) {(l, xs)} t) :
    (v = 0 ∧ t = {(l, xs)}) ∨ ∃ k a, v = k + 1 ∧ a ≠ 0 ∧ a ∉ xs.map (·.1) ∧ t = {(l, xs ++ [(a, k)])} := by
  cases v with
  | zero =>
    cases h
    exact .inl ⟨rfl, rfl⟩
  | succ k =>
    cases h with
    | call h h' =>
      obtain ⟨a, h1, h2, rfl⟩ := step_append_one h
      cases h'
      exact .inr ⟨k, a, rfl, h1, h2, rfl⟩

theorem nodup_snoc {xs : List (Nat × Nat)} {a k : Nat} (hn : (xs.map (·.1)).Nodup) (ha : a ∉ xs.map (·.1)) : ((xs ++ [(a, k)]).map (·.1)).Nodup := by
  rw [List.map_append, List.nodup_append]
  refine ⟨hn, by simp, fun x hx y hy => ?_⟩
  simp only [List.map_cons, List.map_nil, List.mem_singleton] at hy
  subst hy
  exact fun h => ha (h ▸ hx)

theorem fair_countF (l v : Nat) : ∀ (xs : List (Nat × Nat)) (e : Nat), ((xs ++ [(e, v)]).map (·.1)).Nodup → Fair (countF l) {(l, xs ++ [(e, v)])} e := by
  induction v with
  | zero =>
    intro xs e hn
    refine .visit (v := 0) (zs := []) ⟨l, xs, by simp⟩ .done (fun t ht => ?_) (fun t w ys ht ha => ?_) <;>
    obtain ⟨-, rfl⟩ | ⟨k, a, h, -⟩ := runs_countF ht
    · exact ⟨0, [], l, xs, by simp⟩
    · cases h
    · rw [(at_one hn ha).2]; exact .stop
    · cases h
  | succ v ih =>
    intro xs e hn
    refine .visit (v := v + 1) (zs := []) ⟨l, xs, by simp⟩ (.call ⟨_, Multiset.mem_singleton_self _, rfl⟩ fun _ _ _ => .done) (fun t ht => ?_) (fun t w ys ht ha => ?_) <;>
    obtain ⟨h, -⟩ | ⟨k, a, h, h0, h1, rfl⟩ := runs_countF ht
    · cases h
    · exact ⟨v + 1, [(a, k)], l, xs, by simp⟩
    · cases h
    · cases h
      have hn' := nodup_snoc (k := v) hn h1
      rw [List.append_assoc] at ha
      rw [(at_one (by simpa using hn') ha).2]
      exact ih _ a hn'

theorem at_mem {l e v : Nat} {xs ys : List (Nat × Nat)} (h : At {(l, xs)} e v ys) : e ∈ xs.map (·.1) := by
  obtain ⟨l', us, hm⟩ := h
  have h := (Prod.mk.inj (Multiset.mem_singleton.1 hm)).2
  rw [← h]
  simp

theorem walk_countF (l v : Nat) : ∀ (xs : List (Nat × Nat)) (e : Nat) (t : State), 0 ∉ (xs ++ [(e, v)]).map (·.1) → ((xs ++ [(e, v)]).map (·.1)).Nodup →
    Walk (countF l) {(l, xs ++ [(e, v)])} e t → ∃ ys, t = {(l, ys)} ∧ ys.map (·.2) = xs.map (·.2) ++ (List.range (v + 1)).reverse := by
  induction v with
  | zero =>
    intro xs e t he hn h
    cases h with
    | stop => simp at he
    | visit h hr ht hw =>
      obtain ⟨rfl, rfl⟩ := at_one hn h
      obtain ⟨-, rfl⟩ | ⟨k, a, h, -⟩ := runs_countF hr
      · rw [(at_one hn ht).2] at hw
        cases hw with
        | stop => exact ⟨_, rfl, by simp⟩
        | visit h => exact absurd (at_mem h) he
      · cases h
  | succ v ih =>
    intro xs e t he hn h
    cases h with
    | stop => simp at he
    | visit h hr ht hw =>
      obtain ⟨rfl, rfl⟩ := at_one hn h
      obtain ⟨h, -⟩ | ⟨k, a, h, h0, h1, rfl⟩ := runs_countF hr
      · cases h
      · cases h
        have hn' := nodup_snoc (k := v) hn h1
        rw [List.append_assoc] at ht
        rw [(at_one (by simpa using hn') ht).2] at hw
        obtain ⟨ys, h2, h3⟩ := ih _ a t (by rw [List.map_append, List.mem_append]; simpa using ⟨by simpa using he, h0.symm⟩) hn' hw
        refine ⟨ys, h2, ?_⟩
        rw [h3, List.range_succ (n := v + 1)]
        simp

theorem step_make_empty {r : Res} {t : State} (h : Step 0 .make r t) : ∃ l, r = .ptr l ∧ t = {(l, [])} := by
  generalize hs : (0 : State) = s at h
  cases h with
  | @make _ a hf => subst hs; exact ⟨a, rfl, rfl⟩
  | looks h => cases h

theorem countdown_legal (n : Nat) : Legal (countdown n) 0 := by
  refine .call trivial fun r t h => ?_
  obtain ⟨l, rfl, rfl⟩ := step_make_empty h
  refine .call ⟨_, Multiset.mem_singleton_self _, rfl⟩ fun r t h => ?_
  obtain ⟨a, h0, -, rfl⟩ := step_append_one h
  exact .each (Multiset.mem_singleton_self _) (fair_countF l n [] a (by simp)) fun _ _ => .done

/-- C113, a case: elements that the callback appends are visited too. From a list with just `n`, the callback that appends `v - 1` for `v` makes the list
`n, n - 1, ..., 0`. -/
theorem foreach_countdown (hA : A.Good) (m : Mem) (n : Nat) :
    ∃ m' l ys, Run (progM A (countdown n)) m () m' ∧ Rep m' l ys ∧ ys.map (·.2) = (List.range (n + 1)).reverse := by
  obtain ⟨⟨⟩, m', h1, s, h2, h3⟩ := progM_sim (m0 := m) hA (countdown_legal n) (m := m) ⟨[], ⟨by simp, by simp [owned], by simp [owned], by simp⟩, rfl⟩
  cases h2 with
  | call h h2 =>
    obtain ⟨l, rfl, rfl⟩ := step_make_empty h
    cases h2 with
    | call h h2 =>
      obtain ⟨a, h0, -, rfl⟩ := step_append_one h
      cases h2 with
      | each hl hw h2 =>
        cases h2
        obtain ⟨-, h⟩ := Prod.mk.inj (Multiset.mem_singleton.1 hl)
        subst h
        obtain ⟨ys, rfl, h4⟩ := walk_countF l n [] a _ (by simpa using h0.symm) (by simp) hw
        obtain ⟨ws, h5, h6⟩ := h3
        exact ⟨m', l, ys, h1, h5.rep (l, ys) (by rw [← Multiset.mem_coe, ← h6]; simp), h4⟩

example : ∃ m l xs, Rep m l xs ∧ xs.length = 3 := by
  obtain ⟨m, l, xs, -, h, h'⟩ := foreach_countdown Alloc.example_good [] 2
  exact ⟨m, l, xs, h, by simpa using congrArg List.length h'⟩

end Verif.CList
