import Verif.Proofs.List
import Verif.Spec.Lists
import Mathlib.Data.Multiset.MapFold
import Mathlib.Data.List.Induction

/-! Calls on any number of lists against the specification in terms of pointers. -/

namespace Verif.CList
open Spec.Lists (Op Res State Step Looks Copied Fresh ok Has In)
set_option autoImplicit false

variable {m0 m m' : Mem}

/-- One call of the specification, in the model. -/
def callPtr (A : Alloc) : Op → M Res
  | .make => do pure (.ptr (← make A))
  | .destroy l => do destroy l; pure .unit
  | .copy l => do pure (.ptr (← copy A l))
  | .append l v => do pure (.ptr (← append A l v))
  | .prepend l v => do pure (.ptr (← prepend A l v))
  | .insertBefore l v e => do pure (.ptr (← insertBefore A l v e))
  | .remove l e => do remove l e; pure .unit
  | .popFirst l => do pure (.ptr (← popFirst l))
  | .popLast l => do pure (.ptr (← popLast l))
  | .first l => do pure (.ptr (← getFirst l))
  | .last l => do pure (.ptr (← getLast l))
  | .next e => do pure (.ptr (← next e))
  | .previous e => do pure (.ptr (← previous e))
  | .value e => do pure (.ptr (← getValue e))
  | .get l v => do pure (.ptr (← get l v))
  | .getByIndex l i => do pure (.ptr (← getByIndex l i))
  | .size l => do pure (.num (← size l))
  | .empty l => do pure (.bool (← empty l))

/-- The blocks of a list. -/
abbrev blocks (w : Nat × List (Nat × Nat)) : List Nat := w.1 :: addrs w.2

/-- All addresses. -/
def owned (ws : List (Nat × List (Nat × Nat))) : List Nat := ws.flatMap blocks

theorem mem_owned {ws : List (Nat × List (Nat × Nat))} {a : Nat} : a ∈ owned ws ↔ ∃ w ∈ ws, a ∈ blocks w := by simp only [owned, List.mem_flatMap]

theorem owned_append {ws ws' : List (Nat × List (Nat × Nat))} : owned (ws ++ ws') = owned ws ++ owned ws' := List.flatMap_append

/-- Memory holds these lists; the rest is as in `m0`. -/
structure PMem (m0 : Mem) (ws : List (Nat × List (Nat × Nat))) (m : Mem) : Prop where
  rep : ∀ w ∈ ws, Rep m w.1 w.2
  nd : (owned ws).Nodup
  fresh : ∀ a ∈ owned ws, m0.get a = none
  frame : ∀ a, a ∉ owned ws → m.get a = m0.get a

theorem PMem.live {ws : List (Nat × List (Nat × Nat))} {a : Nat} (h : PMem m0 ws m) (ha : a ∈ owned ws) : m.get a ≠ none := by
  obtain ⟨w, hw, ha⟩ := mem_owned.1 ha
  exact (h.rep w hw).live a ha

theorem PMem.perm {ws ws' : List (Nat × List (Nat × Nat))} (h : PMem m0 ws m) (hw : ws.Perm ws') : PMem m0 ws' m := by
  have hp : (owned ws).Perm (owned ws') := hw.flatMap_right _
  exact ⟨fun w h' => h.rep w (hw.mem_iff.2 h'), hp.nodup_iff.1 h.nd, fun a ha => h.fresh a (hp.mem_iff.2 ha), fun a ha => h.frame a fun h' => ha (hp.mem_iff.1 h')⟩

/-- Some lists are replaced by other ones. -/
theorem PMem.update {olds ws news : List (Nat × List (Nat × Nat))} (h : PMem m0 (olds ++ ws) m) (hg : ∀ w ∈ news, Rep m' w.1 w.2) (hn : (owned news).Nodup)
    (src : ∀ a ∈ owned news, a ∈ owned olds ∨ m.get a = none) (off : ∀ a, a ∉ owned olds → a ∉ owned news → m'.get a = m.get a)
    (gone : ∀ a ∈ owned olds, a ∉ owned news → m'.get a = none) : PMem m0 (news ++ ws) m' := by
  have hnd := h.nd
  rw [owned_append, List.nodup_append] at hnd
  obtain ⟨-, n2, n3⟩ := hnd
  have hin : ∀ a, a ∈ owned (olds ++ ws) ↔ a ∈ owned olds ∨ a ∈ owned ws := by intro a; rw [owned_append, List.mem_append]
  have hin' : ∀ a, a ∈ owned (news ++ ws) ↔ a ∈ owned news ∨ a ∈ owned ws := by intro a; rw [owned_append, List.mem_append]
  have hdis : ∀ a ∈ owned ws, a ∉ owned olds ∧ a ∉ owned news := by
    intro a ha
    have h1 : a ∉ owned olds := fun h' => n3 a h' a ha rfl
    refine ⟨h1, fun h' => ?_⟩
    rcases src a h' with h' | h'
    · exact h1 h'
    · exact h.live ((hin a).2 (Or.inr ha)) h'
  refine ⟨?_, ?_, ?_, ?_⟩
  · intro w hw
    rcases List.mem_append.1 hw with hw | hw
    · exact hg w hw
    · refine (h.rep w (List.mem_append.2 (Or.inr hw))).congr fun a ha => ?_
      have := hdis a (mem_owned.2 ⟨w, hw, ha⟩)
      exact off a this.1 this.2
  · rw [owned_append, List.nodup_append]
    exact ⟨hn, n2, fun a ha b hb e => (hdis b hb).2 (e ▸ ha)⟩
  · intro a ha
    rcases (hin' a).1 ha with ha | ha
    · rcases src a ha with ha | ha
      · exact h.fresh a ((hin a).2 (Or.inl ha))
      · rw [← h.frame a fun h' => h.live h' ha]; exact ha
    · exact h.fresh a ((hin a).2 (Or.inr ha))
  · intro a ha
    rw [hin', not_or] at ha
    by_cases ho : a ∈ owned olds
    · rw [gone a ho ha.1, h.fresh a ((hin a).2 (Or.inl ho))]
    · rw [off a ho ha.1]
      exact h.frame a fun h' => ((hin a).1 h').elim ho ha.2

/-- The state of the specification that memory stands for. -/
def PInv (m0 : Mem) (s : State) (m : Mem) : Prop := ∃ ws : List (Nat × List (Nat × Nat)), PMem m0 ws m ∧ s = ↑ws

theorem PInv.pick {s : State} {l : Nat} (h : PInv m0 s m) (hh : Has s l) : ∃ xs ws, PMem m0 ((l, xs) :: ws) m ∧ s = (l, xs) ::ₘ ↑ws := by
  obtain ⟨ws, h, rfl⟩ := h
  obtain ⟨⟨l, xs⟩, hx, rfl⟩ := hh
  rw [Multiset.mem_coe] at hx
  obtain ⟨as, bs, rfl⟩ := List.append_of_mem hx
  have hp : (as ++ (l, xs) :: bs).Perm ((l, xs) :: (as ++ bs)) := List.perm_middle
  exact ⟨xs, as ++ bs, h.perm hp, Multiset.coe_eq_coe.2 hp⟩

theorem PInv.pickElem {s : State} {l e : Nat} (h : PInv m0 s m) (hh : In s l e) :
    ∃ ys u zs ws, PMem m0 ((l, ys ++ (e, u) :: zs) :: ws) m ∧ s = (l, ys ++ (e, u) :: zs) ::ₘ ↑ws := by
  obtain ⟨ws, h, rfl⟩ := h
  obtain ⟨⟨l, xs⟩, hx, rfl, ⟨e, u⟩, he, rfl⟩ := hh
  rw [Multiset.mem_coe] at hx
  obtain ⟨as, bs, rfl⟩ := List.append_of_mem hx
  obtain ⟨ys, zs, rfl⟩ := List.append_of_mem he
  have hp := List.perm_middle (a := (l, ys ++ (e, u) :: zs)) (l₁ := as) (l₂ := bs)
  exact ⟨ys, u, zs, as ++ bs, h.perm hp, Multiset.coe_eq_coe.2 hp⟩

theorem head_eq (xs : List (Nat × Nat)) : Spec.Lists.head xs = hd xs 0 := by
  cases xs with
  | nil => rfl
  | cons x xs => rfl

theorem head_reverse (xs : List (Nat × Nat)) : Spec.Lists.head xs.reverse = lst xs 0 := by
  induction xs using List.reverseRecOn with
  | nil => rfl
  | append_singleton xs x _ => obtain ⟨a, v⟩ := x; rw [lst_append]; simp [Spec.Lists.head, lst]

theorem fresh_ptr {ws : List (Nat × List (Nat × Nat))} (h : PMem m0 ws m) {a : Nat} (h0 : a ≠ 0) (hf : m.get a = none) : Fresh ↑ws a := by
  refine ⟨h0, fun x hx => ?_⟩
  rw [Multiset.mem_coe] at hx
  have : a ∉ blocks x := fun ha => h.live (mem_owned.2 ⟨x, hx, ha⟩) hf
  simp only [blocks, List.mem_cons, not_or, addrs, List.mem_map, not_exists, not_and] at this
  exact ⟨Ne.symm this.1, fun p hp => this.2 p hp⟩

theorem PMem.first {w : Nat × List (Nat × Nat)} {ws : List (Nat × List (Nat × Nat))} (h : PMem m0 (w :: ws) m) : Rep m w.1 w.2 := h.rep w (by simp)

/-- A list changes in place. -/
theorem PMem.change {ws : List (Nat × List (Nat × Nat))} {l : Nat} {xs ys : List (Nat × Nat)} (h : PMem m0 ((l, xs) :: ws) m) (hr : Rep m' l ys)
    (src : ∀ a ∈ addrs ys, a ∈ addrs xs ∨ m.get a = none) (off : ∀ a, a ∉ l :: addrs xs → a ∉ addrs ys → m'.get a = m.get a)
    (gone : ∀ a ∈ addrs xs, a ∉ addrs ys → m'.get a = none) : PMem m0 ((l, ys) :: ws) m' := by
  have e1 : ∀ zs, owned [(l, zs)] = l :: addrs zs := by intro zs; simp [owned]
  have hl := (h.rep (l, xs) (by simp)).notMem
  refine PMem.update (olds := [(l, xs)]) (news := [(l, ys)]) h (by simpa using hr) ?_ ?_ ?_ ?_
  · rw [e1]; exact List.nodup_cons.2 ⟨hr.notMem, hr.nodup⟩
  · intro a ha
    rw [e1] at ha ⊢
    rcases List.mem_cons.1 ha with rfl | ha
    · exact Or.inl (by simp)
    · rcases src a ha with h | h
      · exact Or.inl (List.mem_cons_of_mem _ h)
      · exact Or.inr h
  · intro a h1 h2
    rw [e1] at h1 h2
    exact off a h1 fun h => h2 (List.mem_cons_of_mem _ h)
  · intro a h1 h2
    rw [e1] at h1 h2
    rcases List.mem_cons.1 h1 with rfl | h1
    · exact absurd (by simp) h2
    · exact gone a h1 fun h => h2 (List.mem_cons_of_mem _ h)

theorem looksPtr_sim {α : Type} {x : M α} {a : α} {f : α → Res} {s : State} {l : Nat} {xs : List (Nat × Nat)} {ws : List (Nat × List (Nat × Nat))} {op : Op}
    (h : PMem m0 ((l, xs) :: ws) m) (hs : s = (l, xs) ::ₘ ↑ws) (hx : Run x m a m) (hl : Looks l xs op (f a)) :
    Does (do pure (f (← x))) m (fun r m' => ∃ s', Step s op r s' ∧ PInv m0 s' m') :=
  Does.bind (hx.does (Does.pure ⟨s, by rw [hs]; exact .looks hl, _, h, hs⟩))

theorem removePtr_sim {s : State} {l e u : Nat} {ys zs : List (Nat × Nat)} {ws : List (Nat × List (Nat × Nat))} (h : PMem m0 ((l, ys ++ (e, u) :: zs) :: ws) m) :
    Does (remove l e) m (fun _ m' => PInv m0 ((l, ys ++ zs) ::ₘ ↑ws) m') := by
  refine (remove_spec h.first).mono fun _ m' ⟨h1, h2, h3⟩ => ⟨_, h.change h1 (fun a ha => ?_) (fun a ha _ => h3 a ha) (fun a ha hn => ?_), rfl⟩
  · left; simp only [addrs, List.map_append, List.map_cons, List.mem_append, List.mem_cons] at ha ⊢; tauto
  · have : a = e := by
      simp only [addrs, List.map_append, List.map_cons, List.mem_append, List.mem_cons] at ha hn; tauto
    rw [this, h2]

theorem callPtr_sim {A : Alloc} (hA : A.Good) {s : State} {op : Op} (h : PInv m0 s m) (ho : ok s op) :
    Does (callPtr A op) m (fun r m' => ∃ s', Step s op r s' ∧ PInv m0 s' m') := by
  cases op with
  | make =>
    obtain ⟨ws, h, rfl⟩ := h
    refine Does.bind ((make_spec hA m).mono fun l m1 ⟨h1, h2, h3⟩ => Does.pure ⟨_, .make (fresh_ptr h h1.nonnull h2), (l, []) :: ws, ?_, rfl⟩)
    refine PMem.update (olds := []) (news := [(l, [])]) h (by simpa using h1) (by simp [owned]) (fun a ha => Or.inr ?_) (fun a _ ha => h3 a ?_) (by simp [owned])
    · simp [owned] at ha; rw [ha, h2]
    · simpa [owned] using ha
  | destroy l =>
    obtain ⟨xs, ws, g, rfl⟩ := h.pick ho
    clear h; rename' g => h
    refine Does.bind ((destroy_spec h.first).mono fun _ m1 h1 => Does.pure ⟨_, .destroy, ws, ?_, rfl⟩)
    refine PMem.update (olds := [(l, xs)]) (news := []) h (by simp) (by simp [owned]) (by simp [owned]) (fun a ha _ => ?_) (fun a ha _ => ?_)
    · rw [h1 a, if_neg (by simpa [owned] using ha)]
    · rw [h1 a, if_pos (by simpa [owned] using ha)]
  | copy l =>
    obtain ⟨xs, ws, g, rfl⟩ := h.pick ho
    clear h; rename' g => h
    have hr := h.first
    refine Does.bind ((copy_spec hA hr).mono fun c m1 ⟨h1, ys, h2, h3, h4, h5⟩ => Does.pure ⟨_, .copy ⟨h3, fun a ha => ?_, ?_⟩, (c, ys) :: (l, xs) :: ws, ?_, rfl⟩)
    · refine fresh_ptr h ?_ (h4 a ha)
      rcases List.mem_cons.1 ha with rfl | ha
      · exact h2.nonnull
      · exact (seg_live h2.seg a ha).1
    · exact List.nodup_cons.2 ⟨h2.notMem, h2.nodup⟩
    · refine PMem.update (olds := []) (news := [(c, ys)]) h (by simpa using h2) ?_ (fun a ha => Or.inr (h4 a ?_)) (fun a _ ha => h5 a ?_) (by simp [owned])
      · simpa [owned] using (List.nodup_cons.2 ⟨h2.notMem, h2.nodup⟩)
      · simpa [owned] using ha
      · simpa [owned] using ha
  | append l v =>
    obtain ⟨xs, ws, g, rfl⟩ := h.pick ho
    clear h; rename' g => h
    refine Does.bind ((append_spec hA h.first v).mono fun a m1 ⟨h1, h2, h3, h4⟩ => Does.pure ⟨_, .append (fresh_ptr h h3 h2), _, h.change h1 ?_ ?_ ?_, rfl⟩)
    · intro b hb; simp only [addrs, List.map_append, List.map_cons, List.map_nil, List.mem_append, List.mem_singleton] at hb ⊢
      rcases hb with hb | rfl
      · exact Or.inl hb
      · exact Or.inr h2
    · intro b hb hb'; refine h4 b ?_
      simp only [addrs, List.map_append, List.map_cons, List.map_nil, List.mem_append, List.mem_cons] at hb hb' ⊢; tauto
    · intro b hb hb'; simp only [addrs, List.map_append, List.mem_append] at hb hb'; tauto
  | prepend l v =>
    obtain ⟨xs, ws, g, rfl⟩ := h.pick ho
    clear h; rename' g => h
    refine Does.bind ((prepend_spec hA h.first v).mono fun a m1 ⟨h1, h2, h3, h4⟩ => Does.pure ⟨_, .prepend (fresh_ptr h h3 h2), _, h.change h1 ?_ ?_ ?_, rfl⟩)
    · intro b hb; simp only [addrs, List.map_cons, List.mem_cons] at hb ⊢
      rcases hb with rfl | hb
      · exact Or.inr h2
      · exact Or.inl hb
    · intro b hb hb'; refine h4 b ?_
      simp only [addrs, List.map_cons, List.mem_cons] at hb hb' ⊢; tauto
    · intro b hb hb'; simp only [addrs, List.map_cons, List.mem_cons] at hb hb'; tauto
  | insertBefore l v e =>
    obtain ⟨ys, u, zs, ws, g, rfl⟩ := h.pickElem ho
    clear h; rename' g => h
    refine Does.bind ((insert_before_spec hA h.first v).mono fun a m1 ⟨h1, h2, h3, h4⟩ =>
      Does.pure ⟨_, .insertBefore (fresh_ptr h h3 h2), _, h.change h1 ?_ ?_ ?_, rfl⟩)
    · intro b hb; simp only [addrs, List.map_append, List.map_cons, List.mem_append, List.mem_cons] at hb ⊢
      rcases hb with hb | rfl | hb | hb
      · exact Or.inl (Or.inl hb)
      · exact Or.inr h2
      · exact Or.inl (Or.inr (Or.inl hb))
      · exact Or.inl (Or.inr (Or.inr hb))
    · intro b hb hb'; refine h4 b ?_
      simp only [addrs, List.map_append, List.map_cons, List.mem_append, List.mem_cons] at hb hb' ⊢; tauto
    · intro b hb hb'; simp only [addrs, List.map_append, List.map_cons, List.mem_append, List.mem_cons] at hb hb'; tauto
  | remove l e =>
    obtain ⟨ys, u, zs, ws, g, rfl⟩ := h.pickElem ho
    clear h; rename' g => h
    exact Does.bind ((removePtr_sim (s := 0) h).mono fun _ m1 h1 => Does.pure ⟨_, .remove, h1⟩)
  | popFirst l =>
    obtain ⟨xs, ws, g, rfl⟩ := h.pick ho
    clear h; rename' g => h
    have hr := h.first
    refine Does.bind (Does.bind ((getFirst_spec hr).does ?_))
    cases xs with
    | nil => exact does_pos rfl (Does.pure (Does.pure ⟨_, .popFirst_empty, _, h, rfl⟩))
    | cons x xs =>
      obtain ⟨e, v⟩ := x
      refine does_neg hr.seg.1 (Does.bind ((getValue_spec (ys := []) hr).does (Does.bind ((removePtr_sim (s := 0) (ys := []) h).mono fun _ m1 h1 => ?_))))
      exact Does.pure (Does.pure ⟨_, .popFirst, h1⟩)
  | popLast l =>
    obtain ⟨xs, ws, g, rfl⟩ := h.pick ho
    clear h; rename' g => h
    have hr := h.first
    refine Does.bind (Does.bind ((getLast_spec hr).does ?_))
    induction xs using List.reverseRecOn with
    | nil => exact does_pos rfl (Does.pure (Does.pure ⟨_, .popLast_empty, _, h, rfl⟩))
    | append_singleton xs x _ =>
      obtain ⟨e, v⟩ := x
      have he : lst (xs ++ [(e, v)]) 0 = e := by rw [lst_append]; rfl
      rw [he]
      refine does_neg hr.cell.1 (Does.bind ((getValue_spec hr).does (Does.bind ((removePtr_sim (s := 0) (zs := []) h).mono fun _ m1 h1 => ?_))))
      rw [List.append_nil] at h1
      exact Does.pure (Does.pure ⟨_, .popLast, h1⟩)
  | first l =>
    obtain ⟨xs, ws, h, e⟩ := h.pick ho
    exact looksPtr_sim h e (getFirst_spec h.first) (by rw [← head_eq]; exact .first)
  | last l =>
    obtain ⟨xs, ws, h, e⟩ := h.pick ho
    exact looksPtr_sim h e (getLast_spec h.first) (by rw [← head_reverse]; exact .last)
  | next e =>
    obtain ⟨l, ho⟩ := ho
    obtain ⟨ys, u, zs, ws, h, e⟩ := h.pickElem ho
    exact looksPtr_sim h e (next_spec h.first) (by rw [← head_eq]; exact .next rfl)
  | previous e =>
    obtain ⟨l, ho⟩ := ho
    obtain ⟨ys, u, zs, ws, h, e⟩ := h.pickElem ho
    exact looksPtr_sim h e (previous_spec h.first) (by rw [← head_reverse]; exact .previous rfl)
  | value e =>
    obtain ⟨l, ho⟩ := ho
    obtain ⟨ys, u, zs, ws, h, e⟩ := h.pickElem ho
    exact looksPtr_sim h e (getValue_spec h.first) (.value (by simp))
  | get l v =>
    obtain ⟨xs, ws, h, e⟩ := h.pick ho
    have hr := h.first
    refine looksPtr_sim h e ((run_readL hr.nonnull hr.header).bind (getLoop_spec v xs hr.seg)) ?_
    cases hf : xs.find? (fun x => x.2 = v) with
    | none =>
      refine .get_miss fun p hp => ?_
      have := List.find?_eq_none.1 hf p hp
      simpa using this
    | some p =>
      obtain ⟨h1, ys, zs, rfl, h2⟩ := List.find?_eq_some_iff_append.1 hf
      obtain ⟨a, w⟩ := p
      simp only [decide_eq_true_eq] at h1
      subst h1
      exact .get_hit rfl fun p hp => by simpa using h2 p hp
  | getByIndex l i =>
    obtain ⟨hi, x, hx, rfl, hl⟩ := ho
    obtain ⟨ws, h, rfl⟩ := h
    obtain ⟨l, xs⟩ := x
    rw [Multiset.mem_coe] at hx
    obtain ⟨as, bs, rfl⟩ := List.append_of_mem hx
    have hp := List.perm_middle (a := (l, xs)) (l₁ := as) (l₂ := bs)
    have h := h.perm hp
    have hr := h.first
    refine looksPtr_sim h (Multiset.coe_eq_coe.2 hp) ((run_readL hr.nonnull hr.header).bind (getByIndexLoop_spec i xs 0 hr.seg ?_)) ?_
    · simp only at hl; omega
    · by_cases hn : i < 0
      · rw [if_pos (by simpa using hn)]; exact .getByIndex_miss (Or.inl hn)
      · rw [if_neg (by simpa using hn)]
        have e : (i - ((0 : Nat) : Int)).toNat = i.toNat := by simp
        rw [e]
        cases hx : xs[i.toNat]? with
        | none =>
          rw [List.getElem?_eq_none_iff] at hx
          exact .getByIndex_miss (Or.inr (by omega))
        | some p =>
          obtain ⟨a, w⟩ := p
          have e2 : i = (i.toNat : Int) := by omega
          have : Looks l xs (.getByIndex l (i.toNat : Int)) (.ptr a) := .getByIndex_hit hx
          rw [← e2] at this
          exact this
  | size l =>
    obtain ⟨x, hx, rfl, hl⟩ := ho
    obtain ⟨ws, h, rfl⟩ := h
    obtain ⟨l, xs⟩ := x
    rw [Multiset.mem_coe] at hx
    obtain ⟨as, bs, rfl⟩ := List.append_of_mem hx
    have hp := List.perm_middle (a := (l, xs)) (l₁ := as) (l₂ := bs)
    have h := h.perm hp
    refine looksPtr_sim h (Multiset.coe_eq_coe.2 hp) (size_spec h.first) ?_
    rw [Nat.mod_eq_of_lt hl]; exact .size
  | empty l =>
    obtain ⟨xs, ws, h, e⟩ := h.pick ho
    refine looksPtr_sim h e (empty_spec h.first) ?_
    have : decide (xs = []) = decide (xs.length = 0) := by cases xs <;> simp
    rw [this]; exact .empty

end Verif.CList
