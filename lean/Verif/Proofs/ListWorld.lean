import Verif.Proofs.ListSeq

/-! Programs on several lists against the specification. -/

namespace Verif.CList
open Verif.Spec.List (Op Res State Cmd copied)

/-- The user walks a list to learn the pointers of its elements. -/
def walk (e : Nat) : M (List Nat) := do
  if e = 0 then pure []
  else
    let n ← next e
    let r ← walk n
    pure (e :: r)
partial_fixpoint

/-- What the user knows of each list: its pointer and the pointers of its elements by name. -/
abbrev Env := List (Nat × List Nat)

/-- The pointer of a list. -/
def known (env : Env) (i : Nat) : M (Nat × List Nat) := match env[i]? with
  | some x => pure x
  | none => ub

/-- One command of a program. -/
def cmd (A : Alloc) (env : Env) : Cmd → M (Res Nat × Env)
  | .make => do
    let l ← make A
    pure (.nothing, env ++ [(l, [])])
  | .copy i => do
    let x ← known env i
    let c ← copy A x.1
    let e ← getFirst c
    let hs ← walk e
    pure (.nothing, env ++ [(c, hs)])
  | .destroy i => do
    let x ← known env i
    destroy x.1
    pure (.nothing, env)
  | .on i op => do
    let x ← known env i
    let r ← apply A x.1 x.2 op
    pure (r.1, env.set i (x.1, r.2))

/-- A program. -/
def prog (A : Alloc) : Env → List Cmd → M (List (Nat × Res Nat) × Env)
  | env, [] => pure ([], env)
  | env, c :: cs => do
    let r ← cmd A env c
    let q ← prog A r.2 cs
    pure ((c.list, r.1) :: q.1, q.2)

/-- A list in memory with the user's knowledge of it. -/
structure LInv (l : Nat) (s : State) (hs : List Nat) (m : Mem) : Prop where
  rep : Rep m l (conc hs s.seq)
  len : hs.length = s.made
  ids : ∀ p ∈ s.seq, p.1 < s.made

/-- The addresses a list occupies. -/
def foot : Option (State × Nat × List Nat) → List Nat
  | none => []
  | some (s, l, hs) => l :: addrs (conc hs s.seq)

/-- The lists of a world by name. -/
def view (w : List (Option State)) (env : Env) (i : Nat) : Option (State × Nat × List Nat) := match w[i]?, env[i]? with
  | some (some s), some (l, hs) => some (s, l, hs)
  | _, _ => none

/-- The lists are in memory, apart from each other, and all other memory is as in `m0`. -/
structure WInv (m0 : Mem) (f : Nat → Option (State × Nat × List Nat)) (m : Mem) : Prop where
  each : ∀ i s l hs, f i = some (s, l, hs) → LInv l s hs m
  disj : ∀ i j, i ≠ j → ∀ a ∈ foot (f i), a ∉ foot (f j)
  fresh : ∀ i, ∀ a ∈ foot (f i), m0.get a = none
  frame : ∀ a, (∀ i, a ∉ foot (f i)) → m.get a = m0.get a

theorem LInv.live {l : Nat} {s : State} {hs : List Nat} {m : Mem} (h : LInv l s hs m) : ∀ a ∈ foot (some (s, l, hs)), m.get a ≠ none := h.rep.live

theorem WInv.live {m0 m : Mem} {f : Nat → Option (State × Nat × List Nat)} (h : WInv m0 f m) (i : Nat) : ∀ a ∈ foot (f i), m.get a ≠ none := by
  intro a ha
  cases hf : f i with
  | none => rw [hf] at ha; simp [foot] at ha
  | some x =>
    obtain ⟨s, l, hs⟩ := x
    rw [hf] at ha
    exact (h.each i s l hs hf).live a ha

theorem WInv.update {m0 m m' : Mem} {f f' : Nat → Option (State × Nat × List Nat)} (h : WInv m0 f m) (i : Nat) (hother : ∀ j, j ≠ i → f' j = f j)
    (hnew : ∀ s l hs, f' i = some (s, l, hs) → LInv l s hs m')
    (hgrow : ∀ a ∈ foot (f' i), a ∈ foot (f i) ∨ m.get a = none)
    (hmem : ∀ a, a ∉ foot (f' i) → m'.get a = if a ∈ foot (f i) then none else m.get a) : WInv m0 f' m' := by
  have hsep : ∀ j, j ≠ i → ∀ a ∈ foot (f j), a ∉ foot (f' i) ∧ m'.get a = m.get a := by
    intro j hj a ha
    have h1 : a ∉ foot (f i) := h.disj j i hj a ha
    have h2 : a ∉ foot (f' i) := by
      intro hm
      rcases hgrow a hm with h3 | h3
      · exact h1 h3
      · exact h.live j a ha h3
    exact ⟨h2, by rw [hmem a h2, if_neg h1]⟩
  refine ⟨?_, ?_, ?_, ?_⟩
  · intro j s l hs hj
    by_cases e : j = i
    · subst e; exact hnew s l hs hj
    · rw [hother j e] at hj
      have hL := h.each j s l hs hj
      exact ⟨hL.rep.congr fun a ha => (hsep j e a (by rw [hj]; exact ha)).2, hL.len, hL.ids⟩
  · intro j k hjk a ha
    by_cases ej : j = i
    · subst ej
      rw [hother k (Ne.symm hjk)]
      intro hk
      exact (hsep k (Ne.symm hjk) a hk).1 ha
    · rw [hother j ej] at ha
      by_cases ek : k = i
      · subst ek; exact (hsep j ej a ha).1
      · rw [hother k ek]; exact h.disj j k hjk a ha
  · intro j a ha
    by_cases ej : j = i
    · subst ej
      by_cases hin : a ∈ foot (f j)
      · exact h.fresh j a hin
      · rcases hgrow a ha with h3 | h3
        · exact absurd h3 hin
        · rw [← h.frame a fun k hk => ?_]
          · exact h3
          · exact h.live k a hk h3
    · rw [hother j ej] at ha; exact h.fresh j a ha
  · intro a ha
    rw [hmem a (ha i)]
    split
    · rename_i hin; exact (h.fresh i a hin).symm
    · rename_i hin
      refine h.frame a fun j => ?_
      by_cases ej : j = i
      · rw [ej]; exact hin
      · rw [← hother j ej]; exact ha j

/-- Memory without some blocks. -/
def minus (m : Mem) : List Nat → Mem
  | [] => m
  | a :: as => (minus m as).del a

theorem minus_get (m : Mem) (as : List Nat) (a : Nat) : (minus m as).get a = if a ∈ as then none else m.get a := by
  induction as with
  | nil => simp [minus]
  | cons b as ih =>
    rw [minus, Mem.get_del, ih]
    by_cases h : b = a
    · simp [h]
    · have : a ≠ b := Ne.symm h
      simp only [h, if_false, List.mem_cons, this, false_or]

theorem LInv.inv {l : Nat} {s : State} {hs : List Nat} {m : Mem} (h : LInv l s hs m) : Inv (minus m (foot (some (s, l, hs)))) l s hs m := by
  refine ⟨h.rep, h.len, h.ids, fun a ha => ?_, fun a ha => ?_⟩
  · rw [minus_get]; exact if_pos ha
  · rw [minus_get]; exact (if_neg ha).symm

/-- The user's knowledge only grows. -/
def Knows (env env' : Env) : Prop := ∀ (i l : Nat) (hs : List Nat), env[i]? = some (l, hs) → ∃ hs', env'[i]? = some (l, hs') ∧ hs <+: hs'

theorem Knows.refl (env : Env) : Knows env env := fun _ _ hs h => ⟨hs, h, List.prefix_rfl⟩

theorem Knows.trans {a b c : Env} (h : Knows a b) (h' : Knows b c) : Knows a c := by
  intro i l hs e
  obtain ⟨hs1, e1, p1⟩ := h i l hs e
  obtain ⟨hs2, e2, p2⟩ := h' i l hs1 e1
  exact ⟨hs2, e2, p1.trans p2⟩

theorem Knows.append (env : Env) (x : Nat × List Nat) : Knows env (env ++ [x]) := by
  intro i l hs h
  refine ⟨hs, ?_, List.prefix_rfl⟩
  rw [List.getElem?_append_left (by rw [List.getElem?_eq_some_iff] at h; exact h.1)]; exact h

/-- The results of a command agree, memberships being those of the command's list. -/
def SameAt (env : Env) (x y : Nat × Res Nat) : Prop :=
  x.1 = y.1 ∧ ((x.2 = .nothing ∧ y.2 = .nothing) ∨ ∃ l hs, env[x.1]? = some (l, hs) ∧ SameRes hs x.2 y.2)

theorem SameAt.mono {env env' : Env} {x y : Nat × Res Nat} (h : SameAt env x y) (hk : Knows env env') : SameAt env' x y := by
  obtain ⟨h1, h2 | ⟨l, hs, h2, h3⟩⟩ := h
  · exact ⟨h1, Or.inl h2⟩
  · obtain ⟨hs', e, p⟩ := hk _ l hs h2
    exact ⟨h1, Or.inr ⟨l, hs', e, h3.mono p⟩⟩

theorem walk_spec (xs : List (Nat × Nat)) : ∀ {m : Mem} {p : Nat}, Seg m p xs 0 → Run (walk (hd xs 0)) m (addrs xs) m := by
  induction xs with
  | nil => intro m p _; rw [walk]; simp only [hd, if_true]; exact Run.pure _ _
  | cons x xs ih =>
    obtain ⟨a, u⟩ := x
    intro m p ⟨h1, h2, h3⟩
    rw [show hd ((a, u) :: xs) 0 = a from rfl, walk, if_neg h1]
    exact Run.bind (Run.bind (run_readLE h1 h2) (Run.pure _ _)) (Run.bind (ih h3) (Run.pure _ _))

theorem conc_copied (s : State) (ys : List (Nat × Nat)) (h : ys.map (·.2) = s.seq.map (·.2)) : conc (addrs ys) (copied s).seq = ys := by
  have hlen : ys.length = s.seq.length := by simpa using congrArg List.length h
  apply List.ext_getElem?
  intro i
  have hi := congrArg (fun l => l[i]?) h
  simp only [List.getElem?_map] at hi
  simp only [conc, copied, List.getElem?_map, List.getElem?_mapIdx]
  cases hy : ys[i]? with
  | none =>
    rw [hy] at hi
    cases hx : s.seq[i]? with
    | none => rfl
    | some q => rw [hx] at hi; simp at hi
  | some y =>
    rw [hy] at hi
    cases hx : s.seq[i]? with
    | none => rw [hx] at hi; simp at hi
    | some q =>
      rw [hx] at hi
      simp only [Option.map_some, Option.some.injEq] at hi ⊢
      rw [← hi]
      simp [List.getD_eq_getElem?_getD, hy]

section
variable {w : List (Option State)} {env : Env}

theorem view_append (hl : env.length = w.length) (s : State) (l : Nat) (hs : List Nat) (j : Nat) :
    view (w ++ [some s]) (env ++ [(l, hs)]) j = if j = w.length then some (s, l, hs) else view w env j := by
  unfold view
  by_cases h : j < w.length
  · rw [List.getElem?_append_left h, List.getElem?_append_left (by omega), if_neg (by omega)]
  · by_cases e : j = w.length
    · subst e
      rw [if_pos rfl, List.getElem?_append_right (Nat.le_refl _), ← hl, List.getElem?_append_right (Nat.le_refl _)]
      simp
    · rw [if_neg e, List.getElem?_eq_none (by simp; omega), List.getElem?_eq_none (l := w) (by omega)]

theorem view_out (j : Nat) (h : w.length ≤ j) : view w env j = none := by
  unfold view; rw [List.getElem?_eq_none h]

theorem view_set {i : Nat} {x : State × Nat × List Nat} (hv : view w env i = some x) (o : Option State) (l : Nat) (hs : List Nat) (j : Nat) :
    view (w.set i o) (env.set i (l, hs)) j = if j = i then o.map (fun s => (s, l, hs)) else view w env j := by
  unfold view at *
  by_cases e : j = i
  · subst e
    have h1 : j < w.length := by
      by_contra hh
      rw [List.getElem?_eq_none (Nat.le_of_not_lt hh)] at hv; simp at hv
    have h2 : j < env.length := by
      by_contra hh
      rw [List.getElem?_eq_none (l := env) (Nat.le_of_not_lt hh)] at hv
      split at hv <;> simp_all
    rw [List.getElem?_set_self h1, List.getElem?_set_self h2, if_pos rfl]
    cases o <;> rfl
  · rw [if_neg e, List.getElem?_set_ne (Ne.symm e), List.getElem?_set_ne (Ne.symm e)]

theorem view_known (hl : env.length = w.length) {i : Nat} {s : State} (h : w[i]? = some (some s)) :
    ∃ l hs, env[i]? = some (l, hs) ∧ view w env i = some (s, l, hs) := by
  have : i < env.length := by rw [hl]; rw [List.getElem?_eq_some_iff] at h; exact h.1
  refine ⟨env[i].1, env[i].2, ?_, ?_⟩
  · rw [List.getElem?_eq_getElem this]
  · unfold view; rw [h, List.getElem?_eq_getElem this]

theorem env_set_self {i : Nat} {x : Nat × List Nat} (h : env[i]? = some x) : env.set i x = env := by
  apply List.ext_getElem?
  intro j
  rw [List.getElem?_set]
  split
  · rename_i e
    subst e
    rw [h]
    split
    · rfl
    · rename_i hh; rw [List.getElem?_eq_none (Nat.le_of_not_lt hh)] at h; simp at h
  · rfl

theorem does_known {i : Nat} {x : Nat × List Nat} {m : Mem} {Q : Nat × List Nat → Mem → Prop} (h : env[i]? = some x) (q : Q x m) :
    Does (known env i) m Q := by
  unfold known; rw [h]; exact Does.pure q
end

theorem cmd_sim {A : Alloc} (hA : A.Good) {m0 m : Mem} {w w' : List (Option State)} {env : Env} (hl : env.length = w.length)
    (h : WInv m0 (view w env) m) (c : Cmd) {r : Res Nat} (hst : Spec.List.exec w c = some (r, w')) :
    Does (cmd A env c) m (fun x m' => WInv m0 (view w' x.2) m' ∧ x.2.length = w'.length ∧ Knows env x.2 ∧ SameAt x.2 (c.list, r) (c.list, x.1)) := by
  cases c with
  | make =>
    simp only [Spec.List.exec, Option.some.injEq, Prod.mk.injEq] at hst
    obtain ⟨rfl, rfl⟩ := hst
    refine Does.bind ((make_spec hA m).mono fun l m' ⟨g1, g2, g3⟩ => Does.pure ⟨?_, by simp [hl], Knows.append _ _, rfl, Or.inl ⟨rfl, rfl⟩⟩)
    have hv := view_append (w := w) hl Spec.List.init l []
    have hvi : view (w ++ [some Spec.List.init]) (env ++ [(l, [])]) w.length = some (Spec.List.init, l, []) := by rw [hv, if_pos rfl]
    have hvo : view w env w.length = none := view_out _ (Nat.le_refl _)
    refine h.update w.length (fun j hj => by rw [hv, if_neg hj]) ?_ ?_ ?_
    · intro s l' hs e
      rw [hvi] at e
      simp only [Option.some.injEq, Prod.mk.injEq] at e
      obtain ⟨rfl, rfl, rfl⟩ := e
      exact ⟨g1, rfl, by simp [Spec.List.init]⟩
    · intro a ha
      rw [hvi] at ha
      simp [foot, Spec.List.init, conc] at ha
      rw [ha]; exact Or.inr g2
    · intro a ha
      rw [hvi] at ha
      rw [hvo, if_neg (by simp [foot])]
      exact g3 a (by simpa [foot, Spec.List.init, conc] using ha)
  | copy i =>
    simp only [Spec.List.exec] at hst
    split at hst
    · rename_i s hi
      simp only [Option.some.injEq, Prod.mk.injEq] at hst
      obtain ⟨rfl, rfl⟩ := hst
      obtain ⟨l, hs, he, hvw⟩ := view_known hl hi
      have hL := h.each i s l hs hvw
      refine Does.bind (does_known he ?_)
      refine Does.bind ((copy_spec hA hL.rep).mono fun c m' ⟨g1, ys, g2, g3, g4, g5⟩ => ?_)
      refine Does.bind ((getFirst_spec g2).does (Does.bind ((walk_spec ys g2.seg).does (Does.pure ⟨?_, by simp [hl], Knows.append _ _, rfl, Or.inl ⟨rfl, rfl⟩⟩))))
      have hval : ys.map (·.2) = s.seq.map (·.2) := by
        rw [g3, conc, List.map_map]; rfl
      have hcc := conc_copied s ys hval
      have hlen : ys.length = s.seq.length := by simpa using congrArg List.length hval
      have hv := view_append (w := w) hl (copied s) c (addrs ys)
      have hvi : view (w ++ [some (copied s)]) (env ++ [(c, addrs ys)]) w.length = some (copied s, c, addrs ys) := by rw [hv, if_pos rfl]
      have hvo : view w env w.length = none := view_out _ (Nat.le_refl _)
      have hfoot : foot (some (copied s, c, addrs ys)) = c :: addrs ys := by rw [foot, hcc]
      refine h.update w.length (fun j hj => by rw [hv, if_neg hj]) ?_ ?_ ?_
      · intro s' l' hs' e
        rw [hvi] at e
        simp only [Option.some.injEq, Prod.mk.injEq] at e
        obtain ⟨rfl, rfl, rfl⟩ := e
        refine ⟨by rw [hcc]; exact g2, by simp [copied, hlen], ?_⟩
        intro p hp
        simp only [copied, List.mem_mapIdx] at hp ⊢
        obtain ⟨k, hk, rfl⟩ := hp
        exact hk
      · intro a ha
        rw [hvi, hfoot] at ha
        exact Or.inr (g4 a ha)
      · intro a ha
        rw [hvi, hfoot] at ha
        rw [hvo, if_neg (by simp [foot])]
        exact g5 a ha
    · simp at hst
  | destroy i =>
    simp only [Spec.List.exec] at hst
    split at hst
    · rename_i s hi
      simp only [Option.some.injEq, Prod.mk.injEq] at hst
      obtain ⟨rfl, rfl⟩ := hst
      obtain ⟨l, hs, he, hvw⟩ := view_known hl hi
      have hL := h.each i s l hs hvw
      refine Does.bind (does_known he ?_)
      refine Does.bind ((destroy_spec hL.rep).mono fun _ m' g => Does.pure ⟨?_, by simp [hl], Knows.refl _, rfl, Or.inl ⟨rfl, rfl⟩⟩)
      have hv := view_set hvw none l hs
      rw [env_set_self he] at hv
      refine h.update i (fun j hj => by rw [hv, if_neg hj]) ?_ ?_ ?_
      · intro s' l' hs' e
        rw [hv, if_pos rfl] at e; simp at e
      · intro a ha
        rw [hv, if_pos rfl] at ha; simp [foot] at ha
      · intro a _
        rw [hvw]; exact g a
    · simp at hst
  | on i op =>
    simp only [Spec.List.exec] at hst
    split at hst
    · rename_i s hi
      split at hst
      · rename_i r' s' hop
        simp only [Option.some.injEq, Prod.mk.injEq] at hst
        obtain ⟨rfl, rfl⟩ := hst
        obtain ⟨l, hs, he, hvw⟩ := view_known hl hi
        have hL := h.each i s l hs hvw
        refine Does.bind (does_known he ?_)
        refine Does.bind ((apply_sim hA hL.inv op hop).mono fun x m' ⟨g1, g2, g3⟩ => Does.pure ?_)
        have hv := view_set hvw (some s') l x.2
        have hi' : i < env.length := by rw [List.getElem?_eq_some_iff] at he; exact he.1
        refine ⟨?_, by simp [hl], ?_, rfl, Or.inr ⟨l, x.2, ?_, g2⟩⟩
        · refine h.update i (fun j hj => by rw [hv, if_neg hj]) ?_ ?_ ?_
          · intro s2 l2 hs2 e
            rw [hv, if_pos rfl] at e
            simp only [Option.map_some, Option.some.injEq, Prod.mk.injEq] at e
            obtain ⟨rfl, rfl, rfl⟩ := e
            exact ⟨g1.rep, g1.len, g1.ids⟩
          · intro a ha
            rw [hv, if_pos rfl] at ha
            have := g1.fresh a ha
            rw [minus_get] at this
            rw [hvw]
            by_cases hin : a ∈ foot (some (s, l, hs))
            · exact Or.inl hin
            · rw [if_neg hin] at this; exact Or.inr this
          · intro a ha
            rw [hv, if_pos rfl] at ha
            rw [g1.frame a ha, minus_get, hvw]
        · intro j l2 hs2 e
          by_cases ej : j = i
          · subst ej
            rw [he] at e
            simp only [Option.some.injEq, Prod.mk.injEq] at e
            obtain ⟨rfl, rfl⟩ := e
            exact ⟨x.2, by rw [List.getElem?_set_self hi'], g3⟩
          · exact ⟨hs2, by rw [List.getElem?_set_ne (Ne.symm ej)]; exact e, List.prefix_rfl⟩
        · show (env.set i (l, x.2))[i]? = _
          rw [List.getElem?_set_self hi']
      · simp at hst
    · simp at hst

theorem prog_sim {A : Alloc} (hA : A.Good) {m0 : Mem} (cs : List Cmd) : ∀ {m : Mem} {w w' : List (Option State)} {env : Env} {rs : List (Nat × Res Nat)},
    env.length = w.length → WInv m0 (view w env) m → Spec.List.execs w cs = some (rs, w') →
    Does (prog A env cs) m (fun x m' => WInv m0 (view w' x.2) m' ∧ Knows env x.2 ∧ List.Forall₂ (SameAt x.2) rs x.1) := by
  induction cs with
  | nil =>
    intro m w w' env rs _ h hst
    simp only [Spec.List.execs, Option.some.injEq, Prod.mk.injEq] at hst
    obtain ⟨rfl, rfl⟩ := hst
    exact Does.pure ⟨h, Knows.refl _, .nil⟩
  | cons c cs ih =>
    intro m w w' env rs hl h hst
    simp only [Spec.List.execs] at hst
    split at hst
    · simp at hst
    · rename_i r w1 h1
      split at hst
      · simp at hst
      · rename_i rs' w2 h2
        simp only [Option.some.injEq, Prod.mk.injEq] at hst
        obtain ⟨rfl, rfl⟩ := hst
        refine Does.bind ((cmd_sim hA hl h c h1).mono fun x m1 ⟨g1, g2, g3, g4⟩ => ?_)
        refine Does.bind ((ih g2 g1 h2).mono fun y m2 ⟨k1, k2, k3⟩ => Does.pure ⟨k1, g3.trans k2, .cons (g4.mono k2) k3⟩)

theorem winv_init (m0 : Mem) : WInv m0 (view [] []) m0 := by
  have : ∀ i, view [] [] i = none := fun i => view_out i (Nat.zero_le _)
  refine ⟨fun i s l hs e => ?_, fun i j _ a ha => ?_, fun i a ha => ?_, fun a _ => rfl⟩
  · rw [this] at e; simp at e
  · rw [this] at ha; simp [foot] at ha
  · rw [this] at ha; simp [foot] at ha

end Verif.CList
