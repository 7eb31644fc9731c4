import Verif.Model.List
import Verif.Base.Does
import Verif.Base.Tac

/-! The memory of a doubly linked list (`list.c`) and what each function does to it. -/

namespace Verif.CList

/-- Address of the first element, `q` if there is none. -/
def hd : List (Nat × Nat) → Nat → Nat
  | [], q => q
  | (a, _) :: _, _ => a

/-- Address of the last element, `p` if there is none. -/
def lst : List (Nat × Nat) → Nat → Nat
  | [], p => p
  | (a, _) :: xs, _ => lst xs a

/-- The elements' addresses. -/
abbrev addrs (xs : List (Nat × Nat)) : List Nat := xs.map (·.1)

/-- The elements `xs` (address, value) are linked in memory, the first pointing back to `p` and the last pointing on to `q`. -/
def Seg (m : Mem) : Nat → List (Nat × Nat) → Nat → Prop
  | _, [], _ => True
  | p, (a, v) :: xs, q => a ≠ 0 ∧ m.get a = some (.lelem ⟨v, hd xs q, p⟩) ∧ Seg m a xs q

/-- Memory holds at `l` a list of the elements `xs`. -/
structure Rep (m : Mem) (l : Nat) (xs : List (Nat × Nat)) : Prop where
  nonnull : l ≠ 0
  header : m.get l = some (.list ⟨hd xs 0, lst xs 0, xs.length % 2 ^ 64⟩)
  seg : Seg m 0 xs 0
  nodup : (addrs xs).Nodup

theorem hd_append (xs ys : List (Nat × Nat)) (q : Nat) : hd (xs ++ ys) q = hd xs (hd ys q) := by
  cases xs with
  | nil => rfl
  | cons x xs => obtain ⟨a, v⟩ := x; rfl

theorem lst_append (xs ys : List (Nat × Nat)) (p : Nat) : lst (xs ++ ys) p = lst ys (lst xs p) := by
  induction xs generalizing p with
  | nil => rfl
  | cons x xs ih => obtain ⟨a, v⟩ := x; exact ih a

theorem lst_mem (xs : List (Nat × Nat)) (p : Nat) : (xs = [] ∧ lst xs p = p) ∨ lst xs p ∈ addrs xs := by
  induction xs generalizing p with
  | nil => exact Or.inl ⟨rfl, rfl⟩
  | cons x xs ih =>
    obtain ⟨a, v⟩ := x
    right
    rcases ih a with ⟨h1, h2⟩ | h
    · subst h1; simp [lst]
    · simp only [lst, addrs, List.map_cons, List.mem_cons]; exact Or.inr h

theorem seg_append {m : Mem} (xs ys : List (Nat × Nat)) (p q : Nat) :
    Seg m p (xs ++ ys) q ↔ Seg m p xs (hd ys q) ∧ Seg m (lst xs p) ys q := by
  induction xs generalizing p with
  | nil => simp [Seg, lst]
  | cons x xs ih =>
    obtain ⟨a, v⟩ := x
    simp only [List.cons_append, Seg, lst, hd_append, ih, and_assoc]

theorem seg_congr {m m' : Mem} {xs : List (Nat × Nat)} : ∀ {p q : Nat}, (∀ a ∈ addrs xs, m'.get a = m.get a) → Seg m p xs q → Seg m' p xs q := by
  induction xs with
  | nil => intros; trivial
  | cons x xs ih =>
    obtain ⟨a, v⟩ := x
    intro p q h ⟨h1, h2, h3⟩
    exact ⟨h1, by rw [h a (by simp)]; exact h2, ih (fun b hb => h b (by simp at hb ⊢; right; exact hb)) h3⟩

theorem seg_live {m : Mem} {xs : List (Nat × Nat)} : ∀ {p q : Nat}, Seg m p xs q → ∀ a ∈ addrs xs, a ≠ 0 ∧ ∃ e, m.get a = some (.lelem e) := by
  induction xs with
  | nil => intro p q _ a ha; simp at ha
  | cons x xs ih =>
    obtain ⟨b, v⟩ := x
    intro p q ⟨h1, h2, h3⟩ a ha
    simp only [addrs, List.map_cons, List.mem_cons] at ha
    rcases ha with rfl | ha
    · exact ⟨h1, _, h2⟩
    · exact ih h3 a ha

/-- The last element and the effect of redirecting its `next`. -/
theorem seg_last {m : Mem} {xs : List (Nat × Nat)} : ∀ {p q : Nat}, xs ≠ [] → (addrs xs).Nodup → Seg m p xs q →
    ∃ w pp, m.get (lst xs p) = some (.lelem ⟨w, q, pp⟩) ∧ lst xs p ≠ 0 ∧ ∀ (m' : Mem) (q' : Nat),
      m'.get (lst xs p) = some (.lelem ⟨w, q', pp⟩) → (∀ a ∈ addrs xs, a ≠ lst xs p → m'.get a = m.get a) → Seg m' p xs q' := by
  induction xs with
  | nil => intro p q h; exact absurd rfl h
  | cons x xs ih =>
    obtain ⟨a, v⟩ := x
    intro p q _ hn ⟨h1, h2, h3⟩
    cases xs with
    | nil =>
      refine ⟨v, p, h2, h1, fun m' q' hm _ => ⟨h1, hm, trivial⟩⟩
    | cons y ys =>
      have hn' : (addrs (y :: ys)).Nodup := (List.nodup_cons.1 hn).2
      have ha : a ∉ addrs (y :: ys) := (List.nodup_cons.1 hn).1
      obtain ⟨w, pp, g1, g2, g3⟩ := ih (p := a) (by simp) hn' h3
      refine ⟨w, pp, g1, g2, fun m' q' hm hs => ⟨h1, ?_, ?_⟩⟩
      · have hne : a ≠ lst (y :: ys) a := by
          rcases lst_mem (y :: ys) a with ⟨h, -⟩ | h
          · simp at h
          · intro e; rw [← e] at h; exact ha h
        rw [hs a (by simp) hne, h2]
        obtain ⟨b, u⟩ := y; rfl
      · exact g3 m' q' hm fun b hb hne => hs b (by simp at hb ⊢; tauto) hne

/-- The first element and the effect of redirecting its `previous`. -/
theorem seg_first {m : Mem} {a v : Nat} {xs : List (Nat × Nat)} {p q : Nat} (hn : (addrs ((a, v) :: xs)).Nodup) (h : Seg m p ((a, v) :: xs) q) :
    m.get a = some (.lelem ⟨v, hd xs q, p⟩) ∧ a ≠ 0 ∧ ∀ (m' : Mem) (p' : Nat),
      m'.get a = some (.lelem ⟨v, hd xs q, p'⟩) → (∀ b ∈ addrs xs, m'.get b = m.get b) → Seg m' p' ((a, v) :: xs) q := by
  obtain ⟨h1, h2, h3⟩ := h
  exact ⟨h2, h1, fun m' p' hm hs => ⟨h1, hm, seg_congr hs h3⟩⟩

theorem Rep.notMem {m : Mem} {l : Nat} {xs : List (Nat × Nat)} (h : Rep m l xs) : l ∉ addrs xs := by
  intro hm
  obtain ⟨-, e, he⟩ := seg_live h.seg l hm
  rw [h.header] at he
  simp at he

theorem Rep.congr {m m' : Mem} {l : Nat} {xs : List (Nat × Nat)} (h : Rep m l xs) (hs : ∀ a ∈ l :: addrs xs, m'.get a = m.get a) : Rep m' l xs :=
  ⟨h.nonnull, by rw [hs l (by simp)]; exact h.header, seg_congr (fun a ha => hs a (by simp at ha ⊢; tauto)) h.seg, h.nodup⟩

theorem Rep.live {m : Mem} {l : Nat} {xs : List (Nat × Nat)} (h : Rep m l xs) : ∀ a ∈ l :: addrs xs, m.get a ≠ none := by
  intro a ha
  rcases List.mem_cons.1 ha with rfl | ha
  · rw [h.header]; simp
  · obtain ⟨-, e, he⟩ := seg_live h.seg a ha
    rw [he]; simp

/-- Memory outside the list is as before. -/
def Same (m m' : Mem) (foot : List Nat) : Prop := ∀ a, a ∉ foot → m'.get a = m.get a

theorem hd_eq_zero {m : Mem} {xs : List (Nat × Nat)} {p q : Nat} (h : Seg m p xs q) : hd xs 0 = 0 ↔ xs = [] := by
  cases xs with
  | nil => simp [hd]
  | cons x xs => obtain ⟨a, v⟩ := x; simp [hd, h.1]

theorem lst_eq_zero {m : Mem} {xs : List (Nat × Nat)} {p q : Nat} (h : Seg m p xs q) : lst xs 0 = 0 ↔ xs = [] := by
  constructor
  · intro e
    rcases lst_mem xs 0 with ⟨h1, -⟩ | h1
    · exact h1
    · rw [e] at h1; exact absurd rfl (seg_live h 0 h1).1
  · rintro rfl; rfl

variable {A : Alloc}

theorem make_spec (hA : A.Good) (m : Mem) : Does (make A) m (fun l m' => Rep m' l [] ∧ m.get l = none ∧ Same m m' [l]) := by
  have h0 := hA.nonnull m
  refine Does.bind (does_alloc hA ?_)
  step; step; step
  refine ⟨⟨h0, by cell, trivial, by simp⟩, hA.fresh m, ?_⟩
  intro a ha
  have : A.pick m ≠ a := by simp at ha; exact fun h => ha h.symm
  repeat (rw [Mem.get_set_ne this])

theorem append_spec (hA : A.Good) {m : Mem} {l : Nat} {xs : List (Nat × Nat)} (h : Rep m l xs) (v : Nat) :
    Does (append A l v) m (fun a m' => Rep m' l (xs ++ [(a, v)]) ∧ m.get a = none ∧ a ≠ 0 ∧ Same m m' (a :: l :: addrs xs)) := by
  have h0 := hA.nonnull m
  have hf := hA.fresh m
  generalize ha : A.pick m = a at h0 hf
  have hal : a ≠ l := by rintro rfl; rw [h.header] at hf; simp at hf
  have hax : a ∉ addrs xs := by
    intro hm; exact h.live a (by simp at hm ⊢; tauto) hf
  have hlen : (xs.length % 2 ^ 64 + 1) % 2 ^ 64 = (xs ++ [(a, v)]).length % 2 ^ 64 := by simp
  have hh := h.header
  have hl0 := h.nonnull
  unfold append incSize
  by_cases he : xs = []
  · subst he
    refine Does.bind (does_alloc hA ?_)
    rw [ha]
    steps
    refine does_pos rfl ?_
    steps
    refine ⟨?_, hf, h0, ?_⟩
    · refine ⟨h.nonnull, by simp [hd, lst], ⟨h0, ?_, trivial⟩, by simp⟩
      simp [Mem.get_set, hal.symm, hd]
    · intro b hb
      simp at hb
      simp [Mem.get_set, Ne.symm hb.1, Ne.symm hb.2]
  · obtain ⟨w, pp, g1, g2, g3⟩ := seg_last he h.nodup h.seg
    have hlm : lst xs 0 ∈ addrs xs := by
      rcases lst_mem xs 0 with ⟨h1, -⟩ | h1
      · exact absurd h1 he
      · exact h1
    have hla : lst xs 0 ≠ a := by intro e; rw [e] at hlm; exact hax hlm
    have hll : lst xs 0 ≠ l := by intro e; rw [e] at hlm; exact h.notMem hlm
    have hfirst : hd xs 0 ≠ 0 := fun e => he ((hd_eq_zero h.seg).1 e)
    refine Does.bind (does_alloc hA ?_)
    rw [ha]
    steps
    refine does_neg hfirst ?_
    steps
    refine ⟨?_, hf, h0, ?_⟩
    · refine ⟨h.nonnull, ?_, ?_, ?_⟩
      · simp only [Mem.get_set_self, hd_append, lst_append, lst, hlen]
        congr 3
        cases xs with
        | nil => exact absurd rfl he
        | cons x xs => obtain ⟨b, u⟩ := x; rfl
      · rw [seg_append]
        refine ⟨g3 _ _ (by simp [Mem.get_set, hll.symm, hd]) ?_, h0, ?_, trivial⟩
        · intro b hb hne
          have h1 : a ≠ b := by rintro rfl; exact hax hb
          have h2 : l ≠ b := by rintro rfl; exact h.notMem hb
          simp [Mem.get_set, h1, h2, Ne.symm hne]
        · simp [Mem.get_set, hal.symm, hla, hd]
      · rw [addrs, List.map_append, List.nodup_append]
        refine ⟨h.nodup, by simp, ?_⟩
        intro x hx y hy e
        simp at hy
        subst hy e; exact hax hx
    · intro b hb
      simp only [List.mem_cons, not_or] at hb
      have h3 : lst xs 0 ≠ b := by rintro rfl; exact hb.2.2 hlm
      simp [Mem.get_set, Ne.symm hb.1, Ne.symm hb.2.1, h3]

theorem prepend_spec (hA : A.Good) {m : Mem} {l : Nat} {xs : List (Nat × Nat)} (h : Rep m l xs) (v : Nat) :
    Does (prepend A l v) m (fun a m' => Rep m' l ((a, v) :: xs) ∧ m.get a = none ∧ a ≠ 0 ∧ Same m m' (a :: l :: addrs xs)) := by
  have h0 := hA.nonnull m
  have hf := hA.fresh m
  generalize ha : A.pick m = a at h0 hf
  have hal : a ≠ l := by rintro rfl; rw [h.header] at hf; simp at hf
  have hax : a ∉ addrs xs := by
    intro hm; exact h.live a (by simp at hm ⊢; tauto) hf
  have hh := h.header
  have hl0 := h.nonnull
  unfold prepend incSize
  cases xs with
  | nil =>
    refine Does.bind (does_alloc hA ?_)
    rw [ha]
    steps
    refine does_pos rfl ?_
    steps
    refine ⟨?_, hf, h0, ?_⟩
    · refine ⟨h.nonnull, by simp [hd, lst], ⟨h0, ?_, trivial⟩, by simp⟩
      simp [Mem.get_set, hal.symm, hd]
    · intro b hb
      simp at hb
      simp [Mem.get_set, Ne.symm hb.1, Ne.symm hb.2]
  | cons x ys =>
    obtain ⟨b, u⟩ := x
    simp only [hd] at hh
    obtain ⟨g1, g2, g3⟩ := seg_first h.nodup h.seg
    have hba : b ≠ a := by rintro rfl; simp at hax
    have hbl : b ≠ l := by intro e; exact h.notMem (by simp [e])
    refine Does.bind (does_alloc hA ?_)
    rw [ha]
    steps
    refine does_neg g2 ?_
    steps
    refine ⟨?_, hf, h0, ?_⟩
    · refine ⟨h.nonnull, by simp [hd, lst], ⟨h0, ?_, ?_⟩, ?_⟩
      · simp [Mem.get_set, hal.symm, hba, hd]
      · refine g3 _ _ (by simp [Mem.get_set, hbl.symm]) ?_
        intro c hc
        have h1 : a ≠ c := by rintro rfl; simp at hax hc; tauto
        have h2 : l ≠ c := by rintro rfl; exact h.notMem (by simp at hc ⊢; tauto)
        have h3 : b ≠ c := by rintro rfl; exact (List.nodup_cons.1 h.nodup).1 hc
        simp [Mem.get_set, h1, h2, h3]
      · exact List.nodup_cons.2 ⟨hax, h.nodup⟩
    · intro c hc
      simp only [List.mem_cons, not_or, addrs, List.map_cons] at hc
      simp [Mem.get_set, Ne.symm hc.1, Ne.symm hc.2.1, Ne.symm hc.2.2.1]

theorem nodup_split {ys zs : List (Nat × Nat)} {a v : Nat} (h : (addrs (ys ++ (a, v) :: zs)).Nodup) :
    a ∉ addrs ys ∧ a ∉ addrs zs ∧ (addrs ys).Nodup ∧ (addrs zs).Nodup ∧ (∀ b ∈ addrs ys, b ∉ addrs zs) := by
  simp only [addrs, List.map_append, List.map_cons, List.nodup_append, List.nodup_cons, List.mem_cons] at h
  obtain ⟨h1, ⟨h2, h3⟩, h4⟩ := h
  exact ⟨fun hm => h4 a hm a (Or.inl rfl) rfl, h2, h1, h3, fun b hb hz => h4 b hb b (Or.inr hz) rfl⟩

theorem insert_before_spec (hA : A.Good) {m : Mem} {l b u : Nat} {ys zs : List (Nat × Nat)} (h : Rep m l (ys ++ (b, u) :: zs)) (v : Nat) :
    Does (insertBefore A l v b) m (fun a m' => Rep m' l (ys ++ (a, v) :: (b, u) :: zs) ∧ m.get a = none ∧ a ≠ 0 ∧
      Same m m' (a :: l :: addrs (ys ++ (b, u) :: zs))) := by
  have h0 := hA.nonnull m
  have hf := hA.fresh m
  generalize ha : A.pick m = a at h0 hf
  have hal : a ≠ l := by rintro rfl; rw [h.header] at hf; simp at hf
  have hax : a ∉ addrs (ys ++ (b, u) :: zs) := by
    intro hm; exact h.live a (by simp at hm ⊢; tauto) hf
  obtain ⟨n1, n2, n3, n4, n5⟩ := nodup_split h.nodup
  have hseg := h.seg
  rw [seg_append] at hseg
  obtain ⟨s1, s2⟩ := hseg
  obtain ⟨g1, g2, g3⟩ := seg_first (by rw [addrs, List.map_cons, List.nodup_cons]; exact ⟨n2, n4⟩) s2
  have hba : b ≠ a := by rintro rfl; simp at hax
  have hbl : b ≠ l := by intro e; exact h.notMem (by simp [e])
  have hay : a ∉ addrs ys := fun hm => hax (by simp at hm ⊢; tauto)
  have haz : a ∉ addrs zs := fun hm => hax (by simp at hm ⊢; tauto)
  have hly : l ∉ addrs ys := fun hm => h.notMem (by simp at hm ⊢; tauto)
  have hlz : l ∉ addrs zs := fun hm => h.notMem (by simp at hm ⊢; tauto)
  have hnd : (addrs (ys ++ (a, v) :: (b, u) :: zs)).Nodup := by
    have : (addrs (ys ++ (a, v) :: (b, u) :: zs)).Perm (a :: addrs (ys ++ (b, u) :: zs)) := by
      simp only [addrs, List.map_append, List.map_cons]
      exact List.perm_middle
    rw [this.nodup_iff]
    exact List.nodup_cons.2 ⟨hax, h.nodup⟩
  have hlen : ((ys ++ (b, u) :: zs).length % 2 ^ 64 + 1) % 2 ^ 64 = (ys ++ (a, v) :: (b, u) :: zs).length % 2 ^ 64 := by
    simp only [List.length_append, List.length_cons]; omega
  have hlast : lst (ys ++ (a, v) :: (b, u) :: zs) 0 = lst (ys ++ (b, u) :: zs) 0 := by simp only [lst_append, lst]
  have hh := h.header
  have hl0 := h.nonnull
  unfold insertBefore incSize
  by_cases he : ys = []
  · subst he
    simp only [List.nil_append, lst] at *
    refine Does.bind (does_alloc hA ?_)
    rw [ha]
    steps
    refine does_neg (fun h => h rfl) ?_
    steps
    refine ⟨?_, hf, h0, ?_⟩
    · refine ⟨h.nonnull, ?_, ⟨h0, ?_, ?_⟩, hnd⟩
      · simp [hd, lst]
      · simp [Mem.get_set, hal.symm, hba, hd]
      · refine g3 _ _ (by simp [Mem.get_set, hbl.symm]) ?_
        intro c hc
        have h1 : a ≠ c := by rintro rfl; exact haz hc
        have h2 : l ≠ c := by rintro rfl; exact hlz hc
        have h3 : b ≠ c := by rintro rfl; exact n2 hc
        simp [Mem.get_set, h1, h2, h3]
    · intro c hc
      simp only [List.mem_cons, not_or, addrs, List.map_cons] at hc
      simp [Mem.get_set, Ne.symm hc.1, Ne.symm hc.2.1, Ne.symm hc.2.2.1]
  · obtain ⟨w, pp, k1, k2, k3⟩ := seg_last he n3 s1
    have hlm : lst ys 0 ∈ addrs ys := by
      rcases lst_mem ys 0 with ⟨h1, -⟩ | h1
      · exact absurd h1 he
      · exact h1
    have hla : lst ys 0 ≠ a := by intro e; rw [e] at hlm; exact hay hlm
    have hll : lst ys 0 ≠ l := by intro e; rw [e] at hlm; exact hly hlm
    have hlb : lst ys 0 ≠ b := by intro e; rw [e] at hlm; exact n1 hlm
    refine Does.bind (does_alloc hA ?_)
    rw [ha]
    steps
    refine does_pos k2 ?_
    steps
    refine ⟨?_, hf, h0, ?_⟩
    · refine ⟨h.nonnull, ?_, ?_, hnd⟩
      · simp only [Mem.get_set_self, hlen, hlast]
        congr 3
        cases ys with
        | nil => exact absurd rfl he
        | cons y ys => obtain ⟨c, x⟩ := y; rfl
      · rw [seg_append]
        refine ⟨k3 _ _ (by simp [Mem.get_set, hll.symm, hlb.symm, hd]) ?_, h0, ?_, ?_⟩
        · intro c hc hne
          have h1 : a ≠ c := by rintro rfl; exact hay hc
          have h2 : l ≠ c := by rintro rfl; exact hly hc
          have h3 : b ≠ c := by rintro rfl; exact n1 hc
          simp [Mem.get_set, h1, h2, h3, Ne.symm hne]
        · simp [Mem.get_set, hal.symm, hba, hla, hd]
        · refine g3 _ _ (by simp [Mem.get_set, hbl.symm]) ?_
          intro c hc
          have h1 : a ≠ c := by rintro rfl; exact haz hc
          have h2 : l ≠ c := by rintro rfl; exact hlz hc
          have h3 : b ≠ c := by rintro rfl; exact n2 hc
          have h4 : lst ys 0 ≠ c := by rintro rfl; exact n5 _ hlm hc
          simp [Mem.get_set, h1, h2, h3, h4]
    · intro c hc
      simp only [List.mem_cons, not_or, addrs, List.map_append, List.map_cons, List.mem_append] at hc
      have h4 : lst ys 0 ≠ c := by rintro rfl; exact hc.2.2.1 hlm
      simp [Mem.get_set, Ne.symm hc.1, Ne.symm hc.2.1, Ne.symm hc.2.2.2.1, h4]

theorem remove_spec {m : Mem} {l b u : Nat} {ys zs : List (Nat × Nat)} (h : Rep m l (ys ++ (b, u) :: zs)) :
    Does (remove l b) m (fun _ m' => Rep m' l (ys ++ zs) ∧ m'.get b = none ∧ Same m m' (l :: addrs (ys ++ (b, u) :: zs))) := by
  obtain ⟨n1, n2, n3, n4, n5⟩ := nodup_split h.nodup
  have hseg := h.seg
  rw [seg_append] at hseg
  obtain ⟨s1, s2⟩ := hseg
  obtain ⟨g1, g2, g3⟩ := seg_first (by rw [addrs, List.map_cons, List.nodup_cons]; exact ⟨n2, n4⟩) s2
  have s3 := s2.2.2
  have hbl : b ≠ l := by intro e; exact h.notMem (by simp [e])
  have hly : l ∉ addrs ys := fun hm => h.notMem (by simp at hm ⊢; tauto)
  have hlz : l ∉ addrs zs := fun hm => h.notMem (by simp at hm ⊢; tauto)
  have hnd : (addrs (ys ++ zs)).Nodup := by
    have : (addrs (ys ++ (b, u) :: zs)).Perm (b :: addrs (ys ++ zs)) := by
      simp only [addrs, List.map_append, List.map_cons]
      exact List.perm_middle
    exact (List.nodup_cons.1 (this.nodup_iff.1 h.nodup)).2
  have hlen : ((ys ++ (b, u) :: zs).length % 2 ^ 64 + (2 ^ 64 - 1)) % 2 ^ 64 = (ys ++ zs).length % 2 ^ 64 := by
    simp only [List.length_append, List.length_cons]; omega
  have hfirst : hd (ys ++ (b, u) :: zs) 0 = b ↔ ys = [] := by
    cases ys with
    | nil => simp [hd]
    | cons y ys =>
      obtain ⟨c, x⟩ := y
      simp only [List.cons_append, hd, reduceCtorEq, iff_false]
      rintro rfl; simp at n1
  have hlastb : lst (ys ++ (b, u) :: zs) 0 = b ↔ zs = [] := by
    simp only [lst_append, lst]
    rcases lst_mem zs b with ⟨h1, h2⟩ | h1
    · simp [h1, lst]
    · constructor
      · intro e; rw [e] at h1; exact absurd h1 n2
      · rintro rfl; rfl
  have hh := h.header
  have hl0 := h.nonnull
  unfold remove decSize
  have notfoot : ∀ c, c ∉ l :: addrs (ys ++ (b, u) :: zs) → l ≠ c ∧ c ∉ addrs ys ∧ b ≠ c ∧ c ∉ addrs zs := by
    intro c hc
    simp only [List.mem_cons, not_or, addrs, List.map_append, List.map_cons, List.mem_append] at hc
    exact ⟨Ne.symm hc.1, hc.2.1, Ne.symm hc.2.2.1, hc.2.2.2⟩
  by_cases hy : ys = []
  · by_cases hz : zs = []
    · steps
      refine does_pos (hfirst.2 hy) ?_
      refine does_pos (hlastb.2 hz) ?_
      steps
      refine ⟨?_, ?_, ?_⟩
      · subst hy hz
        refine ⟨h.nonnull, ?_, trivial, by simp⟩
        simp [hd, lst]
      · simp [Mem.get_set, hbl.symm]
      · intro c hc
        obtain ⟨h1, -, h2, -⟩ := notfoot c hc
        simp [Mem.get_set, Mem.get_del, h1, h2]
    · obtain ⟨⟨c, w⟩, zs', rfl⟩ := List.exists_cons_of_ne_nil hz
      obtain ⟨k1, k2, k3⟩ := seg_first n4 s3
      have g1' : m.get b = some (.lelem ⟨u, c, lst ys 0⟩) := g1
      clear g1
      have hcl : c ≠ l := by rintro rfl; simp at hlz
      have hcb : c ≠ b := by rintro rfl; simp at n2
      steps
      refine does_pos (hfirst.2 hy) ?_
      refine does_neg (fun e => hz (hlastb.1 e)) ?_
      steps
      refine ⟨?_, ?_, ?_⟩
      · subst hy
        refine ⟨h.nonnull, ?_, ?_, hnd⟩
        · rw [Mem.get_set_self]
          simp only [List.nil_append, hd, lst]
          simp only [List.nil_append] at hlen; rw [hlen]
        · refine k3 _ _ (by simp [Mem.get_set, Mem.get_del, hcl.symm, hcb.symm, hd]) ?_
          intro x hx
          have h1 : l ≠ x := by rintro rfl; exact hlz (List.mem_cons_of_mem _ hx)
          have h2 : b ≠ x := by rintro rfl; exact n2 (List.mem_cons_of_mem _ hx)
          have h3 : c ≠ x := by rintro rfl; exact (List.nodup_cons.1 n4).1 hx
          simp [Mem.get_set, Mem.get_del, h1, h2, h3, hd]
      · simp [Mem.get_set, hbl.symm]
      · intro x hx
        obtain ⟨h1, -, h2, h3⟩ := notfoot x hx
        have h3 : c ≠ x := by rintro rfl; simp at h3
        simp [Mem.get_set, Mem.get_del, h1, h2, h3, hd]
  · obtain ⟨w, pp, k1, k2, k3⟩ := seg_last hy n3 s1
    have hlm : lst ys 0 ∈ addrs ys := by
      rcases lst_mem ys 0 with ⟨h1, -⟩ | h1
      · exact absurd h1 hy
      · exact h1
    have hll : lst ys 0 ≠ l := by intro e; rw [e] at hlm; exact hly hlm
    have hlb : lst ys 0 ≠ b := by intro e; rw [e] at hlm; exact n1 hlm
    have hhd : ∀ q, hd (ys ++ zs) q = hd (ys ++ (b, u) :: zs) q := by
      intro q
      cases ys with
      | nil => exact absurd rfl hy
      | cons y ys => obtain ⟨c, x⟩ := y; rfl
    by_cases hz : zs = []
    · steps
      refine does_neg (fun e => hy (hfirst.1 e)) ?_
      refine does_pos (hlastb.2 hz) ?_
      steps
      refine ⟨?_, ?_, ?_⟩
      · refine ⟨h.nonnull, ?_, ?_, hnd⟩
        · rw [Mem.get_set_self]
          simp only [hhd, hlen]
          subst hz
          simp
        · subst hz
          rw [List.append_nil]
          refine k3 _ _ (by simp [Mem.get_set, Mem.get_del, hll.symm, hlb.symm]) ?_
          intro x hx hne
          have h1 : l ≠ x := by rintro rfl; exact hly hx
          have h2 : b ≠ x := by rintro rfl; exact n1 hx
          simp [Mem.get_set, Mem.get_del, h1, h2, Ne.symm hne]
      · simp [Mem.get_set, hbl.symm]
      · intro x hx
        obtain ⟨h1, h3, h2, -⟩ := notfoot x hx
        have h3 : lst ys 0 ≠ x := by rintro rfl; exact h3 hlm
        simp [Mem.get_set, Mem.get_del, h1, h2, h3]
    · obtain ⟨⟨c, v⟩, zs', rfl⟩ := List.exists_cons_of_ne_nil hz
      obtain ⟨j1, j2, j3⟩ := seg_first n4 s3
      have g1' : m.get b = some (.lelem ⟨u, c, lst ys 0⟩) := g1
      clear g1
      have hcl : c ≠ l := by rintro rfl; simp at hlz
      have hcb : c ≠ b := by rintro rfl; simp at n2
      have hlc : lst ys 0 ≠ c := by intro e; exact n5 _ hlm (by simp [e])
      steps
      refine does_neg (fun e => hy (hfirst.1 e)) ?_
      refine does_neg (fun e => hz (hlastb.1 e)) ?_
      steps
      refine ⟨?_, ?_, ?_⟩
      · refine ⟨h.nonnull, ?_, ?_, hnd⟩
        · rw [Mem.get_set_self]
          simp only [hhd, hlen]
          simp only [lst_append, lst]
        · rw [seg_append]
          refine ⟨k3 _ _ (by simp [Mem.get_set, Mem.get_del, hll.symm, hlb.symm, hd]) ?_, ?_⟩
          · intro x hx hne
            have h1 : l ≠ x := by rintro rfl; exact hly hx
            have h2 : b ≠ x := by rintro rfl; exact n1 hx
            have h3 : c ≠ x := by rintro rfl; exact n5 _ hx (by simp)
            simp [Mem.get_set, Mem.get_del, h1, h2, h3, Ne.symm hne, hd]
          · refine j3 _ _ (by simp [Mem.get_set, Mem.get_del, hcl.symm, hcb.symm, hlc, hd]) ?_
            intro x hx
            have h1 : l ≠ x := by rintro rfl; exact hlz (List.mem_cons_of_mem _ hx)
            have h2 : b ≠ x := by rintro rfl; exact n2 (List.mem_cons_of_mem _ hx)
            have h3 : c ≠ x := by rintro rfl; exact (List.nodup_cons.1 n4).1 hx
            have h4 : lst ys 0 ≠ x := by rintro rfl; exact n5 _ hlm (List.mem_cons_of_mem _ hx)
            simp [Mem.get_set, Mem.get_del, h1, h2, h3, h4, hd]
      · simp [Mem.get_set, hbl.symm]
      · intro x hx
        obtain ⟨h1, h3, h2, h4⟩ := notfoot x hx
        have h3 : lst ys 0 ≠ x := by rintro rfl; exact h3 hlm
        have h4 : c ≠ x := by rintro rfl; simp at h4
        simp [Mem.get_set, Mem.get_del, h1, h2, h3, h4, hd]

theorem destroyLoop_spec (xs : List (Nat × Nat)) : ∀ {m : Mem} {p : Nat}, Seg m p xs 0 → (addrs xs).Nodup →
    Does (destroyLoop (hd xs 0)) m (fun _ m' => ∀ a, m'.get a = if a ∈ addrs xs then none else m.get a) := by
  induction xs with
  | nil =>
    intro m p _ _
    rw [destroyLoop]
    exact does_pos rfl (Does.pure fun a => by simp)
  | cons x xs ih =>
    obtain ⟨a, v⟩ := x
    intro m p ⟨h1, h2, h3⟩ hn
    have hn' := List.nodup_cons.1 hn
    rw [destroyLoop]
    refine does_neg h1 ?_
    simp only [hd]
    steps
    refine (ih (p := a) (seg_congr (fun b hb => ?_) h3) hn'.2).mono fun _ m' g2 b => ?_
    · have : a ≠ b := by rintro rfl; exact hn'.1 hb
      simp [Mem.get_del, this]
    · rw [g2 b, Mem.get_del]
      by_cases hab : a = b
      · subst hab; simp
      · have : b ≠ a := Ne.symm hab
        simp only [hab, if_false, addrs, List.map_cons, List.mem_cons, this, false_or]

theorem destroy_spec {m : Mem} {l : Nat} {xs : List (Nat × Nat)} (h : Rep m l xs) :
    Does (destroy l) m (fun _ m' => ∀ a, m'.get a = if a ∈ l :: addrs xs then none else m.get a) := by
  have hh := h.header
  have hl0 := h.nonnull
  unfold destroy
  step
  refine Does.bind ((destroyLoop_spec xs h.seg h.nodup).mono fun _ m' g2 => ?_)
  have hm : m'.get l = m.get l := by rw [g2 l, if_neg h.notMem]
  rw [hh] at hm
  step
  intro a
  rw [Mem.get_del, g2 a]
  by_cases hl : l = a
  · subst hl; simp
  · have : a ≠ l := Ne.symm hl
    simp only [hl, if_false, List.mem_cons, this, false_or]

/-! Navigation and queries. -/

theorem getFirst_spec {m : Mem} {l : Nat} {xs : List (Nat × Nat)} (h : Rep m l xs) : Run (getFirst l) m (hd xs 0) m :=
  (run_readL h.nonnull h.header).bind (Run.pure _ _)

theorem getLast_spec {m : Mem} {l : Nat} {xs : List (Nat × Nat)} (h : Rep m l xs) : Run (getLast l) m (lst xs 0) m :=
  (run_readL h.nonnull h.header).bind (Run.pure _ _)

theorem size_spec {m : Mem} {l : Nat} {xs : List (Nat × Nat)} (h : Rep m l xs) : Run (size l) m (xs.length % 2 ^ 64) m :=
  (run_readL h.nonnull h.header).bind (Run.pure _ _)

theorem empty_spec {m : Mem} {l : Nat} {xs : List (Nat × Nat)} (h : Rep m l xs) : Run (empty l) m (decide (xs = [])) m := by
  refine (run_readL h.nonnull h.header).bind ?_
  rw [run_pure_iff]
  refine ⟨?_, rfl⟩
  have := hd_eq_zero h.seg
  by_cases e : xs = []
  · simp [e, hd]
  · simp [e, this]

/-- The cell of an element in the middle. -/
theorem Rep.cell {m : Mem} {l b u : Nat} {ys zs : List (Nat × Nat)} (h : Rep m l (ys ++ (b, u) :: zs)) :
    b ≠ 0 ∧ m.get b = some (.lelem ⟨u, hd zs 0, lst ys 0⟩) := by
  have := h.seg
  rw [seg_append] at this
  exact ⟨this.2.1, this.2.2.1⟩

theorem next_spec {m : Mem} {l b u : Nat} {ys zs : List (Nat × Nat)} (h : Rep m l (ys ++ (b, u) :: zs)) : Run (next b) m (hd zs 0) m :=
  (run_readLE h.cell.1 h.cell.2).bind (Run.pure _ _)

theorem previous_spec {m : Mem} {l b u : Nat} {ys zs : List (Nat × Nat)} (h : Rep m l (ys ++ (b, u) :: zs)) : Run (previous b) m (lst ys 0) m :=
  (run_readLE h.cell.1 h.cell.2).bind (Run.pure _ _)

theorem getValue_spec {m : Mem} {l b u : Nat} {ys zs : List (Nat × Nat)} (h : Rep m l (ys ++ (b, u) :: zs)) : Run (getValue b) m u m :=
  (run_readLE h.cell.1 h.cell.2).bind (Run.pure _ _)

theorem getLoop_spec (v : Nat) (xs : List (Nat × Nat)) : ∀ {m : Mem} {p : Nat}, Seg m p xs 0 →
    Run (getLoop v (hd xs 0)) m (((xs.find? (fun x => x.2 = v)).map (·.1)).getD 0) m := by
  induction xs with
  | nil => intro m p _; rw [getLoop]; simp only [hd, if_true]; exact Run.pure _ _
  | cons x xs ih =>
    obtain ⟨a, u⟩ := x
    intro m p ⟨h1, h2, h3⟩
    rw [show hd ((a, u) :: xs) 0 = a from rfl, getLoop, if_neg h1]
    refine (run_readLE h1 h2).bind ?_
    by_cases hu : u = v
    · simp only [hu, if_true, List.find?_cons, decide_true, Option.map_some, Option.getD_some]
      exact Run.pure _ _
    · simp only [hu, if_false, List.find?_cons, decide_false]
      exact ih h3

theorem getByIndexLoop_spec (idx : Int) (xs : List (Nat × Nat)) : ∀ {m : Mem} {p : Nat} (i : Nat), Seg m p xs 0 →
    ((i : Int) ≤ idx ∧ idx < 2 ^ 31) ∨ i + xs.length < 2 ^ 31 →
    Run (getByIndexLoop idx (hd xs 0) i) m (if idx < i then 0 else ((xs[(idx - i).toNat]?).map (·.1)).getD 0) m := by
  induction xs with
  | nil =>
    intro m p i _ _
    rw [getByIndexLoop]; simp only [hd, ne_eq, not_true_eq_false, false_and, if_false]
    rw [run_pure_iff]
    refine ⟨?_, rfl⟩
    split <;> simp
  | cons x xs ih =>
    obtain ⟨a, u⟩ := x
    intro m p i ⟨h1, h2, h3⟩ hlen
    simp only [List.length_cons] at hlen
    rw [show hd ((a, u) :: xs) 0 = a from rfl, getByIndexLoop]
    by_cases hi : (i : Int) = idx
    · rw [if_neg (by tauto), run_pure_iff]
      refine ⟨?_, rfl⟩
      have : (idx - i).toNat = 0 := by omega
      rw [if_neg (by omega), this]; simp
    · rw [if_pos ⟨h1, hi⟩]
      refine (run_readLE h1 h2).bind ?_
      rw [if_pos (by omega)]
      have := ih (m := m) (p := a) (i + 1) h3 (by omega)
      rw [Int.natCast_add, Int.natCast_one] at this
      have e : (if idx < (i : Int) + 1 then 0 else ((xs[(idx - ((i : Int) + 1)).toNat]?).map (·.1)).getD 0) =
          (if idx < (i : Int) then 0 else ((((a, u) :: xs)[(idx - (i : Int)).toNat]?).map (·.1)).getD 0) := by
        by_cases hlt : idx < (i : Int)
        · rw [if_pos (by omega), if_pos hlt]
        · rw [if_neg (by omega), if_neg hlt]
          have : (idx - (i : Int)).toNat = (idx - ((i : Int) + 1)).toNat + 1 := by omega
          rw [this, List.getElem?_cons_succ]
      rw [← e]
      exact this

/-- Walking past 2^31 elements overflows the counter. -/
theorem getByIndexLoop_overflow (idx : Int) (hidx : idx < 0) (xs : List (Nat × Nat)) : ∀ {m : Mem} {p : Nat} (i : Nat), Seg m p xs 0 →
    i < 2 ^ 31 → 2 ^ 31 ≤ i + xs.length → getByIndexLoop idx (hd xs 0) i m = liftC (.error .ub) := by
  induction xs with
  | nil => intro m p i _ h1 h2; simp only [List.length_nil] at h2; omega
  | cons x xs ih =>
    obtain ⟨a, u⟩ := x
    intro m p i ⟨h1, h2, h3⟩ hi hlen
    simp only [List.length_cons] at hlen
    rw [show hd ((a, u) :: xs) 0 = a from rfl, getByIndexLoop, if_pos ⟨h1, by omega⟩]
    have hb : ∀ (f : LElem → M Nat), (readLE a >>= f) m = f ⟨u, hd xs 0, p⟩ m := by
      intro f
      have : (readLE a >>= f) m = (readLE a m >>= fun p => f p.1 p.2) := rfl
      rw [this, returns_bind (run_readLE h1 h2)]
    rw [hb]
    by_cases hl : (i : Int) + 1 < 2 ^ 31
    · rw [if_pos hl]
      have := ih (m := m) (p := a) (i + 1) h3 (by omega) (by omega)
      rw [Int.natCast_add, Int.natCast_one] at this
      exact this
    · rw [if_neg hl]; rfl

theorem foreachLoop_spec {l : Nat} {f : Nat → M Unit} (I : List Nat → Mem → Prop) (all : List (Nat × Nat))
    (step : ∀ (pre suf : List (Nat × Nat)) (a v : Nat) (m : Mem), all = pre ++ (a, v) :: suf → Rep m l all → I (pre.map (·.2)) m →
      Does (f v) m (fun _ m' => Rep m' l all ∧ I ((pre.map (·.2)) ++ [v]) m')) :
    ∀ (suf pre : List (Nat × Nat)) (m : Mem), all = pre ++ suf → Rep m l all → I (pre.map (·.2)) m →
    Does (foreachLoop f (hd suf 0)) m (fun _ m' => Rep m' l all ∧ I (all.map (·.2)) m') := by
  intro suf
  induction suf with
  | nil =>
    intro pre m he hr hi
    rw [foreachLoop]
    refine does_pos rfl (Does.pure ⟨hr, ?_⟩)
    rw [he, List.append_nil]; exact hi
  | cons x suf ih =>
    obtain ⟨a, v⟩ := x
    intro pre m he hr hi
    rw [show hd ((a, v) :: suf) 0 = a from rfl, foreachLoop]
    refine does_neg ?_ (Does.bind ((getValue_spec (l := l) (ys := pre) (zs := suf) (u := v) (by rw [← he]; exact hr)).does ?_))
    · rw [he] at hr; exact hr.cell.1
    · refine Does.bind ((step pre suf a v m he hr hi).mono fun _ m1 ⟨g2, g3⟩ => ?_)
      refine Does.bind ((next_spec (l := l) (ys := pre) (zs := suf) (u := v) (by rw [← he]; exact g2)).does ?_)
      exact ih (pre ++ [(a, v)]) m1 (by rw [he]; simp) g2 (by simpa using g3)

/-- The loop rule of `list_foreach`: a callback that leaves the list alone and takes `I` from the values so far to one value more. -/
theorem foreach_spec {m : Mem} {l : Nat} {f : Nat → M Unit} {xs : List (Nat × Nat)} (h : Rep m l xs) (I : List Nat → Mem → Prop) (h0 : I [] m)
    (step : ∀ (pre suf : List (Nat × Nat)) (a v : Nat) (m : Mem), xs = pre ++ (a, v) :: suf → Rep m l xs → I (pre.map (·.2)) m →
      Does (f v) m (fun _ m' => Rep m' l xs ∧ I ((pre.map (·.2)) ++ [v]) m')) :
    Does (foreach l f) m (fun _ m' => Rep m' l xs ∧ I (xs.map (·.2)) m') :=
  Does.bind ((getFirst_spec h).does (foreachLoop_spec I xs step xs [] m rfl h h0))

theorem copy_spec (hA : A.Good) {m : Mem} {l : Nat} {xs : List (Nat × Nat)} (h : Rep m l xs) :
    Does (copy A l) m (fun c m' => Rep m' l xs ∧ ∃ ys, Rep m' c ys ∧ ys.map (·.2) = xs.map (·.2) ∧
      (∀ a ∈ c :: addrs ys, m.get a = none) ∧ Same m m' (c :: addrs ys)) := by
  refine Does.bind ((make_spec hA m).mono fun c m1 ⟨g2, g3, g4⟩ => ?_)
  have hnew : ∀ (ys : List (Nat × Nat)), (∀ a ∈ c :: addrs ys, m.get a = none) → ∀ a ∈ l :: addrs xs, a ∉ c :: addrs ys := by
    intro ys hy a ha hc
    exact h.live a ha (hy a hc)
  have hrl : ∀ (m' : Mem) (ys : List (Nat × Nat)), (∀ a ∈ c :: addrs ys, m.get a = none) → Same m m' (c :: addrs ys) → Rep m' l xs :=
    fun m' ys hy hs => h.congr fun a ha => hs a (hnew ys hy a ha)
  refine Does.bind ((foreach_spec (m := m1) (l := l) (xs := xs)
    (f := fun value => do let _ ← append A c value; pure ())
    (hrl m1 [] (by simpa using g3) (by simpa using g4))
    (fun done m' => ∃ ys, Rep m' c ys ∧ ys.map (·.2) = done ∧ (∀ a ∈ c :: addrs ys, m.get a = none) ∧ Same m m' (c :: addrs ys))
    ⟨[], g2, rfl, by simpa using g3, by simpa using g4⟩ ?_).mono fun _ m' g => Does.pure g)
  intro pre suf a v m2 he hr ⟨ys, y1, y2, y3, y4⟩
  refine Does.bind ((append_spec hA y1 v).mono fun b m3 ⟨b2, b3, b4, b5⟩ => Does.pure ?_)
  have hnb : m.get b = none := by
    have hb : b ∉ c :: addrs ys := fun hm => y1.live b hm b3
    rw [← y4 b hb]; exact b3
  have hy3 : ∀ x ∈ c :: addrs (ys ++ [(b, v)]), m.get x = none := by
    intro x hx
    simp only [addrs, List.map_append, List.map_cons, List.map_nil, List.mem_cons, List.mem_append, List.not_mem_nil, or_false] at hx
    rcases hx with rfl | hx | rfl
    · exact y3 _ (by simp)
    · exact y3 _ (by simp only [addrs, List.mem_cons]; exact Or.inr hx)
    · exact hnb
  have hs3 : Same m m3 (c :: addrs (ys ++ [(b, v)])) := by
    intro x hx
    simp only [addrs, List.map_append, List.map_cons, List.map_nil, List.mem_cons, List.mem_append, List.not_mem_nil, or_false, not_or] at hx
    rw [b5 x (by simp only [addrs, List.mem_cons, not_or]; tauto)]
    exact y4 x (by simp only [addrs, List.mem_cons, not_or]; tauto)
  exact ⟨hrl m3 _ hy3 hs3, ys ++ [(b, v)], b2, by simp [y2], hy3, hs3⟩

end Verif.CList
