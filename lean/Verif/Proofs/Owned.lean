import Verif.Model.Owned
import Verif.Proofs.List

/-! What the splitting functions and `charstr_idna_encode` do to memory. -/

namespace Verif.Owned
open Verif.Charstr Verif.CList
set_option autoImplicit false

/-- The values of the elements of a list. -/
abbrev vals (xs : List (Nat × Nat)) : List Nat := xs.map (·.2)

/-- Memory holds at `list` a list of the strings `ds` (with their NULs), each in a block of its own; all these blocks are new since `m0` and
nothing else has changed since then. -/
structure Owns (m0 m : Mem) (list : Nat) (xs : List (Nat × Nat)) (ds : List (List UInt8)) : Prop where
  rep : Rep m list xs
  strings : List.Forall₂ (fun x d => x.2 ≠ 0 ∧ m.get x.2 = some (.bytes d)) xs ds
  nodup : (list :: addrs xs ++ vals xs).Nodup
  fresh : ∀ a ∈ list :: addrs xs ++ vals xs, m0.get a = none
  same : Same m0 m (list :: addrs xs ++ vals xs)

variable {A : Alloc} {m0 m : Mem} {list : Nat} {xs : List (Nat × Nat)} {ds : List (List UInt8)}

theorem Owns.strings_live (h : Owns m0 m list xs ds) : ∀ v ∈ vals xs, v ≠ 0 ∧ m.get v ≠ none := by
  intro v hv
  obtain ⟨x, hx, rfl⟩ := List.mem_map.1 hv
  have hs := h.strings
  clear h hv
  induction hs with
  | nil => cases hx
  | cons h1 _ ih =>
    rcases List.mem_cons.1 hx with rfl | hx
    · exact ⟨h1.1, by rw [h1.2]; simp⟩
    · exact ih hx

theorem Owns.live (h : Owns m0 m list xs ds) : ∀ a ∈ list :: addrs xs ++ vals xs, m.get a ≠ none := by
  intro a ha
  rcases List.mem_append.1 ha with ha | ha
  · exact h.rep.live a ha
  · exact (h.strings_live a ha).2

theorem Owns.old (h : Owns m0 m list xs ds) {a : Nat} {c : Cell} (ha : m0.get a = some c) : m.get a = some c := by
  rw [h.same a fun hm => ?_]
  · exact ha
  · rw [h.fresh a hm] at ha; cases ha

theorem forall₂_weaken {xs : List (Nat × Nat)} {ds : List (List UInt8)} {m m' : Mem}
    (h : List.Forall₂ (fun x d => x.2 ≠ 0 ∧ m.get x.2 = some (.bytes d)) xs ds) (he : ∀ v ∈ vals xs, m'.get v = m.get v) :
    List.Forall₂ (fun x d => x.2 ≠ 0 ∧ m'.get x.2 = some (.bytes d)) xs ds := by
  induction h with
  | nil => exact .nil
  | cons h1 _ ih =>
    refine .cons ⟨h1.1, ?_⟩ (ih fun v hv => he v (by simp only [vals, List.map_cons, List.mem_cons]; exact Or.inr hv))
    rw [he _ (by simp [vals])]; exact h1.2

theorem forall₂_snoc {α β : Type} {R : α → β → Prop} {xs : List α} {ys : List β} {x : α} {y : β} (h : List.Forall₂ R xs ys) (hr : R x y) :
    List.Forall₂ R (xs ++ [x]) (ys ++ [y]) := by
  induction h with
  | nil => exact .cons hr .nil
  | cons h1 _ ih => exact .cons h1 ih

/-- A new string appended to the list. -/
theorem Owns.push (hA : A.Good) (h : Owns m0 m list xs ds) (d : List UInt8) :
    Does (append A list (A.pick m)) (m.set (A.pick m) (.bytes d)) (fun e m' => Owns m0 m' list (xs ++ [(e, A.pick m)]) (ds ++ [d])) := by
  have hp0 := hA.nonnull m
  have hpf := hA.fresh m
  generalize A.pick m = p at hp0 hpf
  have hpn : p ∉ list :: addrs xs ++ vals xs := fun hm => h.live p hm hpf
  have hpm0 : m0.get p = none := by rw [← h.same p hpn]; exact hpf
  have hpl : p ∉ list :: addrs xs := fun hm => hpn (List.mem_append_left _ hm)
  have hpv : p ∉ vals xs := fun hm => hpn (List.mem_append_right _ hm)
  have hrep : Rep (m.set p (.bytes d)) list xs := h.rep.congr fun a ha => Mem.get_set_ne (by rintro rfl; exact hpl ha) _
  refine (append_spec hA hrep p).mono fun e m' ⟨g1, g2, g3, g4⟩ => ?_
  have hep : e ≠ p := by rintro rfl; simp at g2
  have hem : m.get e = none := by rwa [Mem.get_set_ne (Ne.symm hep)] at g2
  have hen : e ∉ list :: addrs xs ++ vals xs := fun hm => h.live e hm hem
  have hem0 : m0.get e = none := by rw [← h.same e hen]; exact hem
  have hnd := h.nodup
  -- memory elsewhere
  have hother : ∀ a, a ∉ e :: p :: list :: addrs xs → m'.get a = m.get a := by
    intro a ha
    simp only [List.mem_cons, not_or] at ha
    rw [g4 a (by simp only [List.mem_cons, not_or]; tauto), Mem.get_set_ne (Ne.symm ha.2.1)]
  have hvl : ∀ v ∈ vals xs, v ∉ e :: p :: list :: addrs xs := by
    intro v hv hm
    rcases List.mem_cons.1 hm with rfl | hm
    · exact hen (List.mem_append_right _ hv)
    rcases List.mem_cons.1 hm with rfl | hm
    · exact hpv hv
    · exact (List.nodup_append.1 hnd).2.2 v hm v hv rfl
  refine ⟨g1, ?_, ?_, ?_, ?_⟩
  · refine forall₂_snoc (forall₂_weaken h.strings fun v hv => hother v (hvl v hv)) ⟨hp0, ?_⟩
    rw [g4 p (by
      simp only [List.mem_cons, not_or]
      simp only [List.mem_cons, not_or] at hpl
      exact ⟨Ne.symm hep, hpl⟩)]
    simp
  · have e1 : list :: addrs (xs ++ [(e, p)]) ++ vals (xs ++ [(e, p)]) = (list :: addrs xs) ++ (e :: (vals xs ++ [p])) := by simp
    rw [e1]
    have e2 : ((list :: addrs xs) ++ (e :: (vals xs ++ [p]))).Perm (e :: p :: (list :: addrs xs ++ vals xs)) := by
      refine List.perm_middle.trans (List.Perm.cons e ?_)
      rw [← List.append_assoc]
      exact List.perm_append_singleton _ _
    rw [e2.nodup_iff]
    refine List.nodup_cons.2 ⟨?_, List.nodup_cons.2 ⟨hpn, hnd⟩⟩
    intro hm
    rcases List.mem_cons.1 hm with rfl | hm
    · exact hep rfl
    · exact hen hm
  · intro a ha
    have : a = e ∨ a = p ∨ a ∈ list :: addrs xs ++ vals xs := by
      simp only [addrs, vals, List.map_append, List.map_cons, List.map_nil, List.mem_append, List.mem_cons, List.not_mem_nil, or_false] at ha ⊢
      tauto
    rcases this with rfl | rfl | hm
    · exact hem0
    · exact hpm0
    · exact h.fresh a hm
  · intro a ha
    have : a ≠ e ∧ a ≠ p ∧ a ∉ list :: addrs xs ++ vals xs := by
      simp only [addrs, vals, List.map_append, List.map_cons, List.map_nil, List.mem_append, List.mem_cons, List.not_mem_nil, or_false] at ha ⊢
      tauto
    obtain ⟨h1, h2, h3⟩ := this
    rw [hother a (by
      simp only [List.mem_cons, List.mem_append, not_or] at h3 ⊢
      exact ⟨h1, h2, h3.1⟩), h.same a h3]

theorem owns_make (hA : A.Good) (m : Mem) : Does (make A) m (fun list m' => Owns m m' list [] []) :=
  (make_spec hA m).mono fun l m' ⟨h1, h2, h3⟩ => ⟨h1, .nil, by simp, by simpa using h2, by simpa using h3⟩

variable {a : Nat} {b : List UInt8}

theorem dupsubstrM_spec (hA : A.Good) (h0 : a ≠ 0) (ha : m.get a = some (.bytes b)) {o n : Nat} {d : List UInt8} (hd : dupBytes (b.drop o) n = .ok d)
    {Q : Nat → Mem → Prop} (hq : Q (A.pick m) (m.set (A.pick m) (.bytes d))) : Does (dupsubstrM A a o n) m Q :=
  Does.bind (does_readBytes h0 ha (Does.bind (does_lift ((returns_liftC _ _).2 hd) (does_alloc hA hq))))

theorem dup_eq {s d : List UInt8} (h : dup s = .ok d) : ∃ n, strlen s = .ok n ∧ dupBytes s n = .ok d := by
  unfold dup dupstr at h
  dsimp only at h
  cases hs : strlen s with
  | error e => rw [hs] at h; simp at h
  | ok n =>
    rw [hs] at h
    dsimp only at h
    cases hb : dupBytes s n with
    | error e => rw [hb] at h; simp at h
    | ok d' => rw [hb] at h; simp at h; subst h; exact ⟨n, rfl, hb⟩

theorem dupstrM_spec (hA : A.Good) (h0 : a ≠ 0) (ha : m.get a = some (.bytes b)) {o : Nat} {d : List UInt8} (hd : dup (b.drop o) = .ok d)
    {Q : Nat → Mem → Prop} (hq : Q (A.pick m) (m.set (A.pick m) (.bytes d))) : Does (dupstrM A a o) m Q := by
  obtain ⟨n, h1, h2⟩ := dup_eq hd
  exact Does.bind (does_readBytes h0 ha (Does.bind (does_lift ((returns_liftC _ _).2 h1) (dupsubstrM_spec hA h0 ha h2 hq))))

/-- A string duplicated and appended. -/
theorem pushLast (hA : A.Good) (h0 : a ≠ 0) (ha : m0.get a = some (.bytes b)) (h : Owns m0 m list xs ds) {o : Nat} {d : List UInt8}
    (hd : dup (b.drop o) = .ok d) :
    Does (do let d ← dupstrM A a o; let _ ← append A list d; pure ()) m (fun _ m' => ∃ xs, Owns m0 m' list xs (ds ++ [d])) :=
  Does.bind (dupstrM_spec hA h0 (h.old ha) hd (Does.bind ((h.push hA d).mono fun _ _ g => Does.pure ⟨_, g⟩)))

theorem splitLoopM_spec (hA : A.Good) (h0 : a ≠ 0) (ha : m0.get a = some (.bytes b)) (delim : UInt8) : ∀ (max : Nat) {m : Mem} {o : Nat}
    {xs : List (Nat × Nat)} {ds ps : List (List UInt8)}, Owns m0 m list xs ds → split delim max (b.drop o) = .ok ps →
    Does (splitLoopM A delim a list max o) m (fun _ m' => ∃ xs, Owns m0 m' list xs (ds ++ ps)) := by
  intro max
  induction max with
  | zero =>
    intro m o xs ds ps h hs
    simp only [split] at hs
    cases hd : dup (b.drop o) with
    | error e => rw [hd] at hs; simp at hs
    | ok d => rw [hd] at hs; simp at hs; subst hs; exact pushLast hA h0 ha h hd
  | succ max ih =>
    intro m o xs ds ps h hs
    simp only [split] at hs
    unfold splitLoopM
    cases hc : strchr delim (b.drop o) with
    | error e => rw [hc] at hs; simp at hs
    | ok r =>
      rw [hc] at hs
      refine Does.bind (does_readBytes h0 (h.old ha) (Does.bind (does_lift ((returns_liftC _ _).2 hc) ?_)))
      cases r with
      | none =>
        simp only at hs ⊢
        cases hd : dup (b.drop o) with
        | error e => rw [hd] at hs; simp at hs
        | ok d => rw [hd] at hs; simp at hs; subst hs; exact pushLast hA h0 ha h hd
      | some p =>
        simp only at hs ⊢
        cases hd : dupBytes (b.drop o) p with
        | error e => rw [hd] at hs; simp at hs
        | ok d =>
          rw [hd] at hs
          simp only at hs
          cases hr : split delim max ((b.drop o).drop (p + 1)) with
          | error e => rw [hr] at hs; simp at hs
          | ok qs =>
            rw [hr] at hs
            simp at hs
            subst hs
            refine Does.bind (dupsubstrM_spec hA h0 (h.old ha) hd (Does.bind ((h.push hA d).mono fun _ _ g => ?_)))
            rw [List.drop_drop] at hr
            rw [← Nat.add_assoc] at hr
            refine (ih g hr).mono fun _ _ ⟨xs, g⟩ => ⟨xs, by simpa using g⟩

theorem splitM_spec (hA : A.Good) (h0 : a ≠ 0) (ha : m.get a = some (.bytes b)) (o : Nat) (delim : UInt8) (max : Nat) {ps : List (List UInt8)}
    (h : split delim max (b.drop o) = .ok ps) : Does (splitM A a o delim max) m (fun l m' => ∃ xs, Owns m m' l xs ps) :=
  Does.bind ((owns_make hA m).mono fun _ _ g => Does.bind ((splitLoopM_spec hA h0 ha delim max g h).mono fun _ _ g => Does.pure g))

theorem skipWs_suffix : ∀ {s r : List UInt8}, skipWs s = .ok (some r) → r = s.drop (s.length - r.length) ∧ r.length ≤ s.length := by
  intro s
  induction s with
  | nil => intro r h; cases h
  | cons c s ih =>
    intro r h
    simp only [skipWs] at h
    split at h
    · simp at h
    · split at h
      · obtain ⟨h1, h2⟩ := ih h
        refine ⟨?_, by simp; omega⟩
        rw [List.length_cons, show s.length + 1 - r.length = (s.length - r.length) + 1 by omega, List.drop_succ_cons]
        exact h1
      · simp only [Except.ok.injEq, Option.some.injEq] at h
        subst h; simp

theorem splitAtomsLoopM_spec (hA : A.Good) (h0 : a ≠ 0) (ha : m0.get a = some (.bytes b)) : ∀ (k : Nat) {m : Mem} {o : Nat}
    {xs : List (Nat × Nat)} {ds ps : List (List UInt8)}, (b.drop o).length ≤ k → Owns m0 m list xs ds → splitAtoms (b.drop o) = .ok ps →
    Does (splitAtomsLoopM A a list o) m (fun _ m' => ∃ xs, Owns m0 m' list xs (ds ++ ps)) := by
  intro k
  induction k with
  | zero =>
    intro m o xs ds ps hk h hs
    rw [List.eq_nil_of_length_eq_zero (Nat.le_zero.1 hk), splitAtoms] at hs
    simp [skipWs] at hs
  | succ k ih =>
    intro m o xs ds ps hk h hs
    rw [splitAtoms] at hs
    rw [splitAtomsLoopM]
    refine Does.bind (does_readBytes h0 (h.old ha) (Does.bind ?_))
    split at hs
    · cases hs
    · rename_i hw
      simp at hs; subst hs
      refine does_lift ((returns_liftC _ _).2 hw) (Does.pure ⟨xs, by simpa using h⟩)
    · rename_i r hw
      refine does_lift ((returns_liftC _ _).2 hw) ?_
      obtain ⟨hr, hl⟩ := skipWs_suffix hw
      have hne := (skipWs_length hw).2
      have hrl : r.length ≠ 0 := by simpa using hne
      have hob : o ≤ b.length := by
        by_contra hc
        rw [List.length_drop] at hl; omega
      have hrb : r = b.drop (b.length - r.length) := by
        rw [List.drop_drop] at hr
        rw [List.length_drop] at hr hl
        rw [show o + (b.length - o - r.length) = b.length - r.length by omega] at hr
        exact hr
      have hrd : ∀ n, r.drop n = b.drop (b.length - r.length + n) := by
        intro n
        conv => lhs; rw [hrb]
        rw [List.drop_drop]
      split at hs
      · cases hs
      · rename_i n hn
        rw [hrd] at hn
        split at hs
        · cases hs
        · rename_i d hd
          rw [hrb] at hd
          split at hs
          · cases hs
          · rename_i qs hq
            simp at hs; subst hs
            rw [hrd] at hq
            have hsh : (b.drop (b.length - r.length + (n + 1))).length ≤ k := by
              rw [List.length_drop] at hk ⊢
              rw [List.length_drop] at hl
              omega
            refine Does.bind (does_lift ((returns_liftC _ _).2 hn) ?_)
            refine Does.bind (dupsubstrM_spec hA h0 (h.old ha) hd (Does.bind ((h.push hA d).mono fun _ _ g => ?_)))
            exact (ih hsh g hq).mono fun _ _ ⟨xs, g⟩ => ⟨xs, by simpa using g⟩

theorem splitAtomsM_spec (hA : A.Good) (h0 : a ≠ 0) (ha : m.get a = some (.bytes b)) (o : Nat) {ps : List (List UInt8)}
    (h : splitAtoms (b.drop o) = .ok ps) : Does (splitAtomsM A a o) m (fun l m' => ∃ xs, Owns m m' l xs ps) :=
  Does.bind ((owns_make hA m).mono fun _ _ g => Does.bind ((splitAtomsLoopM_spec hA h0 ha _ (Nat.le_refl _) g h).mono fun _ _ g => Does.pure g))

variable {ad : Nat} {bd : List UInt8}

theorem splitStrLoopM_spec (hA : A.Good) (h0 : a ≠ 0) (ha : m0.get a = some (.bytes b)) (hd0 : ad ≠ 0) (had : m0.get ad = some (.bytes bd))
    (od skip : Nat) : ∀ (max : Nat) {m : Mem} {o : Nat} {xs : List (Nat × Nat)} {ds ps : List (List UInt8)}, Owns m0 m list xs ds →
    splitStrLoop (bd.drop od) skip max (b.drop o) = .ok ps →
    Does (splitStrLoopM A a ad od skip list max o) m (fun _ m' => ∃ xs, Owns m0 m' list xs (ds ++ ps)) := by
  intro max
  induction max with
  | zero =>
    intro m o xs ds ps h hs
    simp only [splitStrLoop] at hs
    cases hd : dup (b.drop o) with
    | error e => rw [hd] at hs; simp at hs
    | ok d => rw [hd] at hs; simp at hs; subst hs; exact pushLast hA h0 ha h hd
  | succ max ih =>
    intro m o xs ds ps h hs
    simp only [splitStrLoop] at hs
    unfold splitStrLoopM
    cases hc : strstr (b.drop o) (bd.drop od) with
    | error e => rw [hc] at hs; simp at hs
    | ok r =>
      rw [hc] at hs
      refine Does.bind (does_readBytes h0 (h.old ha) (Does.bind (does_readBytes hd0 (h.old had) (Does.bind (does_lift ((returns_liftC _ _).2 hc) ?_)))))
      cases r with
      | none =>
        simp only at hs ⊢
        cases hd : dup (b.drop o) with
        | error e => rw [hd] at hs; simp at hs
        | ok d => rw [hd] at hs; simp at hs; subst hs; exact pushLast hA h0 ha h hd
      | some p =>
        simp only at hs ⊢
        cases hd : dupBytes (b.drop o) p with
        | error e => rw [hd] at hs; simp at hs
        | ok d =>
          rw [hd] at hs
          simp only at hs
          cases hr : splitStrLoop (bd.drop od) skip max ((b.drop o).drop (p + skip)) with
          | error e => rw [hr] at hs; simp at hs
          | ok qs =>
            rw [hr] at hs
            simp at hs
            subst hs
            refine Does.bind (dupsubstrM_spec hA h0 (h.old ha) hd (Does.bind ((h.push hA d).mono fun _ _ g => ?_)))
            rw [List.drop_drop] at hr
            rw [← Nat.add_assoc] at hr
            refine (ih g hr).mono fun _ _ ⟨xs, g⟩ => ⟨xs, by simpa using g⟩

theorem splitStrM_spec (hA : A.Good) (h0 : a ≠ 0) (ha : m.get a = some (.bytes b)) (hd0 : ad ≠ 0) (had : m.get ad = some (.bytes bd))
    (o od max : Nat) {ps : List (List UInt8)} (h : splitStr (b.drop o) (bd.drop od) max = .ok ps) :
    Does (splitStrM A a o ad od max) m (fun l m' => ∃ xs, Owns m m' l xs ps) := by
  unfold splitStr at h
  cases hl : strlen (bd.drop od) with
  | error e => rw [hl] at h; simp at h
  | ok skip =>
    rw [hl] at h
    exact Does.bind ((owns_make hA m).mono fun _ _ g => Does.bind (does_readBytes hd0 (g.old had) (Does.bind (does_lift ((returns_liftC _ _).2 hl)
      (Does.bind ((splitStrLoopM_spec hA h0 ha hd0 had od skip max g h).mono fun _ _ g => Does.pure g))))))

/-- Freeing the strings and destroying the list leaves memory as it was. -/
theorem freeStrings_spec (h : Owns m0 m list xs ds) : Does (freeStrings list) m (fun _ m' => ∀ a, m'.get a = m0.get a) := by
  have hnd := List.nodup_append.1 h.nodup
  refine Does.bind ((foreach_spec h.rep (fun done m' => ∀ a, m'.get a = if a ∈ done then none else m.get a) (by simp) ?_).mono
    fun _ m1 ⟨g1, g2⟩ => (destroy_spec g1).mono fun _ m2 g3 a => ?_)
  · intro pre suf x v m1 he hr hi
    have hv : v ∈ vals xs := by rw [he]; simp [vals]
    obtain ⟨hv0, hvl⟩ := h.strings_live v hv
    have hvp : v ∉ vals pre := by
      have := hnd.2.1
      rw [he] at this
      simp only [vals, List.map_append, List.map_cons] at this
      have h3 := (List.nodup_append.1 this).2.2
      intro hm
      exact h3 v hm v (by simp) rfl
    have hg : m1.get v = m.get v := by rw [hi v, if_neg hvp]
    cases hc : m.get v with
    | none => exact absurd hc hvl
    | some c =>
      rw [hc] at hg
      refine does_free hv0 hg ⟨hr.congr fun y hy => ?_, fun y => ?_⟩
      · refine Mem.get_del_ne ?_
        rintro rfl
        exact hnd.2.2 v hy v hv rfl
      · rw [Mem.get_del, hi y]
        by_cases hy : v = y
        · subst hy; simp
        · have hy' : y ≠ v := Ne.symm hy
          rw [if_neg hy]
          simp only [List.mem_append, List.mem_cons, List.not_mem_nil, or_false, hy']
  · rw [g3 a, g2 a]
    by_cases h1 : a ∈ list :: addrs xs
    · rw [if_pos h1, h.fresh a (List.mem_append_left _ h1)]
    · rw [if_neg h1]
      by_cases h2 : a ∈ vals xs
      · rw [if_pos h2, h.fresh a (List.mem_append_right _ h2)]
      · rw [if_neg h2, h.same a (by rw [List.mem_append]; tauto)]

/-! Arrays of strings. -/

/-- The array `array` holds at the indices from `i` on the new strings `ds` (with their NULs), in blocks `ps`, and otherwise what it held in
`m0`; the blocks are new since `m0` and nothing else has changed since then. -/
structure Fills (m0 m : Mem) (array : Nat) (arr : List (Option Nat)) (ps : List Nat) (ds : List (List UInt8)) : Prop where
  slots : m.get array = some (.slots (ps.map some ++ arr.drop ps.length))
  strings : List.Forall₂ (fun p d => p ≠ 0 ∧ m.get p = some (.bytes d)) ps ds
  nodup : (array :: ps).Nodup
  fresh : ∀ p ∈ ps, m0.get p = none
  same : Same m0 m (array :: ps)

theorem fills_live {ps : List Nat} (h : List.Forall₂ (fun p d => p ≠ 0 ∧ m.get p = some (.bytes d)) ps ds) : ∀ p ∈ ps, p ≠ 0 ∧ m.get p ≠ none := by
  intro p hp
  induction h with
  | nil => cases hp
  | cons h1 _ ih =>
    rcases List.mem_cons.1 hp with rfl | hp
    · exact ⟨h1.1, by rw [h1.2]; simp⟩
    · exact ih hp

theorem fills_weaken {m m' : Mem} {ps : List Nat} (h : List.Forall₂ (fun p d => p ≠ 0 ∧ m.get p = some (.bytes d)) ps ds)
    (he : ∀ p ∈ ps, m'.get p = m.get p) : List.Forall₂ (fun p d => p ≠ 0 ∧ m'.get p = some (.bytes d)) ps ds := by
  induction h with
  | nil => exact .nil
  | cons h1 _ ih =>
    refine .cons ⟨h1.1, ?_⟩ (ih fun v hv => he v (List.mem_cons_of_mem _ hv))
    rw [he _ (by simp)]; exact h1.2

variable {array : Nat} {arr : List (Option Nat)} {ps : List Nat}

theorem Fills.old (h : Fills m0 m array arr ps ds) {a : Nat} {c : Cell} (ha : m0.get a = some c) (hne : a ≠ array) : m.get a = some c := by
  rw [h.same a fun hm => ?_]
  · exact ha
  · rcases List.mem_cons.1 hm with rfl | hm
    · exact hne rfl
    · rw [h.fresh a hm] at ha; cases ha

theorem Fills.push (hA : A.Good) (h0 : array ≠ 0) (h : Fills m0 m array arr ps ds) (hr : ps.length < arr.length) (d : List UInt8) :
    Does (storeM array ps.length (A.pick m)) (m.set (A.pick m) (.bytes d)) (fun _ m' => Fills m0 m' array arr (ps ++ [A.pick m]) (ds ++ [d])) := by
  have hp0 := hA.nonnull m
  have hpf := hA.fresh m
  generalize A.pick m = p at hp0 hpf
  have hpa : p ≠ array := by rintro rfl; rw [h.slots] at hpf; cases hpf
  have hps : p ∉ ps := fun hm => (fills_live h.strings p hm).2 hpf
  have hg : (m.set p (.bytes d)).get array = some (.slots (ps.map some ++ arr.drop ps.length)) := by rw [Mem.get_set_ne hpa]; exact h.slots
  have hlen : (ps.map some ++ arr.drop ps.length).length = arr.length := by simp; omega
  refine Does.bind (does_readSlots h0 hg (does_pos (by rw [hlen]; exact hr) (does_write h0 hg ?_)))
  have hset : (ps.map some ++ arr.drop ps.length).set ps.length (some p) = (ps ++ [p]).map some ++ arr.drop (ps ++ [p]).length := by
    simp only [List.length_map, List.map_append, List.map_cons, List.map_nil, List.length_append, List.length_cons, List.length_nil]
    rw [List.set_append_right _ _ (by simp)]
    simp only [List.length_map, Nat.sub_self]
    rw [List.drop_eq_getElem_cons hr]
    simp only [List.set_cons_zero, List.append_assoc, List.cons_append, List.nil_append]
  rw [hset]
  refine ⟨by simp, ?_, ?_, ?_, ?_⟩
  · refine forall₂_snoc (fills_weaken h.strings fun q hq => ?_) ⟨hp0, ?_⟩
    · rw [Mem.get_set_ne (by rintro rfl; exact (List.nodup_cons.1 h.nodup).1 hq), Mem.get_set_ne (by rintro rfl; exact hps hq)]
    · rw [Mem.get_set_ne (Ne.symm hpa)]; simp
  · rw [← List.cons_append]
    refine (List.perm_append_singleton p (array :: ps)).nodup_iff.2 (List.nodup_cons.2 ⟨?_, h.nodup⟩)
    simp [hpa, hps]
  · intro q hq
    rcases List.mem_append.1 hq with hq | hq
    · exact h.fresh q hq
    · simp at hq; subst hq
      rw [← h.same q (by simp [hpa, hps])]; exact hpf
  · intro q hq
    simp only [List.mem_cons, List.mem_append, List.not_mem_nil, or_false, not_or] at hq
    rw [Mem.get_set_ne (Ne.symm hq.1), Mem.get_set_ne (Ne.symm hq.2.2), h.same q (by simp [hq.1, hq.2.1])]

theorem fillLast (hA : A.Good) (h0 : a ≠ 0) (ha : m0.get a = some (.bytes b)) (hr0 : array ≠ 0) (hne : a ≠ array)
    (h : Fills m0 m array arr ps ds) (hr : ps.length < arr.length) {o : Nat} {d : List UInt8} (hd : dup (b.drop o) = .ok d) :
    Does (do let d ← dupstrM A a o; storeM array ps.length d; pure ps.length) m
      (fun i m' => ∃ ps, i = ps.length - 1 ∧ Fills m0 m' array arr ps (ds ++ [d])) :=
  Does.bind (dupstrM_spec hA h0 (h.old ha hne) hd (Does.bind ((h.push hA hr0 hr d).mono fun _ _ g => Does.pure ⟨_, by simp, g⟩)))

theorem splitArrayLoopM_spec (hA : A.Good) (h0 : a ≠ 0) (ha : m0.get a = some (.bytes b)) (hr0 : array ≠ 0) (hne : a ≠ array) (delim : UInt8) :
    ∀ (max : Nat) {m : Mem} {o : Nat} {ps : List Nat} {ds qs : List (List UInt8)}, Fills m0 m array arr ps ds →
    ps.length + max < arr.length → split delim max (b.drop o) = .ok qs →
    Does (splitArrayLoopM A delim a array max o ps.length) m (fun i m' => ∃ ps, i = ps.length - 1 ∧ Fills m0 m' array arr ps (ds ++ qs)) := by
  intro max
  induction max with
  | zero =>
    intro m o ps ds qs h hr hs
    simp only [split] at hs
    cases hd : dup (b.drop o) with
    | error e => rw [hd] at hs; simp at hs
    | ok d => rw [hd] at hs; simp at hs; subst hs; exact fillLast hA h0 ha hr0 hne h (by omega) hd
  | succ max ih =>
    intro m o ps ds qs h hr hs
    simp only [split] at hs
    unfold splitArrayLoopM
    cases hc : strchr delim (b.drop o) with
    | error e => rw [hc] at hs; simp at hs
    | ok r =>
      rw [hc] at hs
      refine Does.bind (does_readBytes h0 (h.old ha hne) (Does.bind (does_lift ((returns_liftC _ _).2 hc) ?_)))
      cases r with
      | none =>
        simp only at hs ⊢
        cases hd : dup (b.drop o) with
        | error e => rw [hd] at hs; simp at hs
        | ok d => rw [hd] at hs; simp at hs; subst hs; exact fillLast hA h0 ha hr0 hne h (by omega) hd
      | some p =>
        simp only at hs ⊢
        cases hd : dupBytes (b.drop o) p with
        | error e => rw [hd] at hs; simp at hs
        | ok d =>
          rw [hd] at hs
          simp only at hs
          cases hr' : split delim max ((b.drop o).drop (p + 1)) with
          | error e => rw [hr'] at hs; simp at hs
          | ok rs =>
            rw [hr'] at hs
            simp at hs
            subst hs
            refine Does.bind (dupsubstrM_spec hA h0 (h.old ha hne) hd (Does.bind ((h.push hA hr0 (by omega) d).mono fun _ _ g => ?_)))
            rw [List.drop_drop, ← Nat.add_assoc] at hr'
            have := ih g (by simp; omega) hr'
            rw [List.length_append] at this
            exact this.mono fun _ _ ⟨xs, e, g⟩ => ⟨xs, e, by simpa using g⟩

theorem splitIntoArrayM_spec (hA : A.Good) (h0 : a ≠ 0) (ha : m.get a = some (.bytes b)) (hr0 : array ≠ 0) (hr : m.get array = some (.slots arr))
    (o : Nat) (delim : UInt8) (max : Nat) (hmax : max < arr.length) {qs : List (List UInt8)} (h : split delim max (b.drop o) = .ok qs) :
    Does (splitIntoArrayM A a o delim array max) m (fun i m' => ∃ ps, i = ps.length - 1 ∧ Fills m m' array arr ps qs) := by
  have hne : a ≠ array := by rintro rfl; rw [hr] at ha; cases ha
  have hf : Fills m m array arr [] [] := ⟨by simpa using hr, .nil, by simp, by simp, fun _ _ => rfl⟩
  exact splitArrayLoopM_spec hA h0 ha hr0 hne delim max hf (by simpa using hmax) h

/-- What a function that returns NULL or a new string does to memory. -/
def Gives (m : Mem) (r : Option (List UInt8)) (p : Nat) (m' : Mem) : Prop := match r with
  | none => p = 0 ∧ ∀ x, m'.get x = m.get x
  | some d => p ≠ 0 ∧ m.get p = none ∧ m'.get p = some (.bytes d) ∧ Same m m' [p]

theorem does_get {Q : Mem → Mem → Prop} (q : Q m m) : Does (get : M Mem) m Q := ⟨m, m, rfl, q⟩

theorem vprintfM_spec (hA : A.Good) {fresh : Nat → List UInt8} (hfr : ∀ n, (fresh n).length = n) {fmt : Mem → Option (List UInt8)}
    (hloc : ∀ m', (∀ a, m.get a ≠ none → m'.get a = m.get a) → fmt m' = fmt m) {r : Option (List UInt8)}
    (h : (fmt m).filter (fun t => t.length < 2 ^ 31) = r) : Does (vprintfM A fresh fmt) m (Gives m (r.map (· ++ [0]))) := by
  subst h
  refine Does.bind (does_get ?_)
  cases hf : fmt m with
  | none => exact Does.pure ⟨rfl, fun _ => rfl⟩
  | some t =>
    by_cases hlen : t.length < 2 ^ 31
    · have hp0 := hA.nonnull m
      have hpn := hA.fresh m
      refine does_neg (by omega) (Does.bind (does_alloc hA (Does.bind (does_get ?_))))
      have hf' : fmt (m.set (A.pick m) (.bytes (fresh (t.length + 1)))) = some t := by
        rw [hloc _ fun a ha => Mem.get_set_ne (fun e => ha (by rw [← e]; exact hpn)) _, hf]
      rw [hf']
      refine Does.bind (does_readBytes hp0 (Mem.get_set_self _ _ _) (does_pos (by rw [hfr]) (Does.bind (does_write hp0 (Mem.get_set_self _ _ _) (Does.pure ?_)))))
      have hd : (fresh (t.length + 1)).drop (t.length + 1) = [] := List.drop_eq_nil_of_le (by rw [hfr])
      rw [hd]
      simp only [Option.filter, hlen, decide_true, if_true, Option.map_some]
      refine ⟨hp0, hpn, Mem.get_set_self _ _ _, fun a ha => ?_⟩
      have : A.pick m ≠ a := fun e => ha (by simp [e])
      rw [Mem.get_set_ne this, Mem.get_set_ne this]
    · refine does_pos (by omega) (Does.pure ?_)
      simp only [Option.filter, hlen, decide_false]
      exact ⟨rfl, fun _ => rfl⟩

/-! The hostname encoder. -/

section
open Verif.Puny Verif.Unicode

/-- A work area around the call. -/
theorem Gives.around {m m1 m2 : Mem} {w p : Nat} {c : Cell} {r : Option (List UInt8)} (hf : m.get w = none)
    (h1 : ∀ x, x ≠ w → m1.get x = m.get x) (h1w : m1.get w = some c) (h : Gives m1 r p m2) : Gives m r p (m2.del w) ∧ m2.get w = some c := by
  unfold Gives at h ⊢
  cases r with
  | none =>
    refine ⟨⟨h.1, fun x => ?_⟩, by rw [h.2]; exact h1w⟩
    rw [Mem.get_del, h.2 x]
    by_cases hx : w = x
    · subst hx; simp [hf]
    · rw [if_neg hx, h1 x (Ne.symm hx)]
  | some d =>
    obtain ⟨a1, a2, a3, a4⟩ := h
    have hpw : p ≠ w := by rintro rfl; rw [h1w] at a2; cases a2
    have hwp : w ∉ [p] := by simp; exact Ne.symm hpw
    refine ⟨⟨a1, by rw [← h1 p hpw]; exact a2, by rw [Mem.get_del_ne (Ne.symm hpw)]; exact a3, fun x hx => ?_⟩, by rw [a4 w hwp]; exact h1w⟩
    rw [Mem.get_del]
    by_cases hw : w = x
    · subst hw; simp [hf]
    · rw [if_neg hw, a4 x hx, h1 x (Ne.symm hw)]

variable {u : Ucd} {id : Idna} {fresh : Nat → List UInt8}

theorem encodeNfcM_spec (hA : A.Good) (h0 : a ≠ 0) (ha : m.get a = some (.bytes b)) {len : Nat} {r : Option (List UInt8)}
    (h : Returns (encodeNfc id fresh (b, some len)) r) : Does (encodeNfcM A id fresh a len) m (Gives m r) := by
  refine Does.bind (does_readBytes h0 ha (Does.bind (does_lift h ?_)))
  cases r with
  | none => exact Does.pure ⟨rfl, fun _ => rfl⟩
  | some d =>
    refine does_alloc hA ⟨hA.nonnull m, hA.fresh m, by simp, fun x hx => ?_⟩
    exact Mem.get_set_ne (by simp at hx; exact Ne.symm hx) _

theorem returns_bind_inv {α β : Type} {x : D α} {f : α → D β} {r : β} (h : Returns (x >>= f) r) : ∃ y, Returns x y ∧ Returns (f y) r := by
  cases hx : (x : Option (Except Err α)) with
  | none =>
    exfalso
    have : (x >>= f) = (none : Option (Except Err β)) := by
      show ExceptT.bind x f = _
      have hx' : x = (none : Option (Except Err α)) := hx
      rw [hx']; rfl
    rw [Returns, this] at h
    cases h
  | some o =>
    cases o with
    | error e =>
      exfalso
      have : (x >>= f) = (some (.error e) : Option (Except Err β)) := by
        show ExceptT.bind x f = _
        have hx' : x = (some (.error e) : Option (Except Err α)) := hx
        rw [hx']; rfl
      rw [Returns, this] at h
      cases h
    | ok y =>
      have hy : Returns x y := hx
      exact ⟨y, rfl, by rwa [returns_bind hy] at h⟩

theorem encodeNfdM_spec (hA : A.Good) (h0 : a ≠ 0) (ha : m.get a = some (.bytes b)) {len : Nat} {r : Option (List UInt8)}
    (h : Returns (encodeNfd u id fresh (b, some len)) r) : Does (encodeNfdM A u id fresh a len) m (Gives m r) := by
  obtain ⟨y, hy, hr⟩ := returns_bind_inv (f := _) h
  have hw0 := hA.nonnull m
  have hwf := hA.fresh m
  refine Does.bind (does_alloc hA ?_)
  generalize A.pick m = w at hw0 hwf
  have hwa : w ≠ a := by rintro rfl; rw [ha] at hwf; cases hwf
  refine Does.bind (does_readBytes (b := b) h0 (by rw [Mem.get_set_ne hwa]; exact ha) ?_)
  refine Does.bind (does_readBytes hw0 (Mem.get_set_self _ _ _) (Does.bind (does_lift hy ?_)))
  obtain ⟨o, w'⟩ := y
  cases o with
  | null e =>
    simp only at hr ⊢
    have hr' : r = none := by simpa using hr.symm
    subst hr'
    refine Does.bind (does_write hw0 (Mem.get_set_self _ _ _) (Does.bind (does_free hw0 (Mem.get_set_self _ _ _) (Does.pure ⟨rfl, fun x => ?_⟩))))
    rw [Mem.get_del]
    by_cases hx : w = x
    · subst hx; simp [hwf]
    · rw [if_neg hx, Mem.get_set_ne hx, Mem.get_set_ne hx]
  | ptr q =>
    simp only at hr ⊢
    refine Does.bind (does_write hw0 (Mem.get_set_self _ _ _) (Does.bind ((encodeNfcM_spec hA hw0 (Mem.get_set_self _ _ _) hr).mono fun p m2 g => ?_)))
    obtain ⟨g1, g2⟩ := g.around hwf (fun x hx => by rw [Mem.get_set_ne (Ne.symm hx), Mem.get_set_ne (Ne.symm hx)]) (Mem.get_set_self _ _ _)
    exact Does.bind (does_free hw0 g2 (Does.pure g1))

theorem idnaEncodeM_spec (hA : A.Good) (h0 : a ≠ 0) (ha : m.get a = some (.bytes b)) {r : Option (List UInt8)}
    (h : Returns (idnaEncode u id fresh b) r) : Does (idnaEncodeM A u id fresh a) m (Gives m r) := by
  unfold idnaEncode at h
  unfold idnaEncodeM
  obtain ⟨asc, h1, h⟩ := returns_bind_inv h
  refine Does.bind (does_readBytes h0 ha (Does.bind (does_lift h1 ?_)))
  cases asc with
  | true =>
    simp only [if_true] at h ⊢
    obtain ⟨d, h2, h⟩ := returns_bind_inv h
    obtain ⟨d', h3, h⟩ := returns_bind_inv h
    have hr : r = some d' := by simpa using h.symm
    subst hr
    rw [returns_liftC] at h2
    have hp0 := hA.nonnull m
    have hpf := hA.fresh m
    refine Does.bind (dupstrM_spec (A := A) (o := 0) hA h0 ha h2 ?_)
    generalize A.pick m = p at hp0 hpf
    refine Does.bind (does_readBytes hp0 (Mem.get_set_self _ _ _) (Does.bind (does_lift h3 (Does.bind (does_write hp0 (Mem.get_set_self _ _ _) (Does.pure ?_))))))
    refine ⟨hp0, hpf, by simp, fun x hx => ?_⟩
    have hx' : p ≠ x := by simp at hx; exact Ne.symm hx
    rw [Mem.get_set_ne hx', Mem.get_set_ne hx']
  | false =>
    simp only [Bool.false_eq_true, if_false] at h ⊢
    obtain ⟨n, h2, h⟩ := returns_bind_inv h
    refine Does.bind (does_lift h2 ?_)
    obtain ⟨c, h3, h⟩ := returns_bind_inv h
    refine Does.bind (does_lift h3 ?_)
    cases c with
    | true =>
      simp only [if_true] at h ⊢
      exact encodeNfcM_spec hA h0 ha h
    | false =>
      simp only [Bool.false_eq_true, if_false] at h ⊢
      obtain ⟨c, h4, h⟩ := returns_bind_inv h
      refine Does.bind (does_lift h4 ?_)
      cases c with
      | true =>
        simp only [if_true] at h ⊢
        exact encodeNfdM_spec hA h0 ha h
      | false =>
        simp only [Bool.false_eq_true, if_false] at h ⊢
        obtain ⟨y, hy, h⟩ := returns_bind_inv h
        have hw0 := hA.nonnull m
        have hwf := hA.fresh m
        refine Does.bind (does_alloc hA ?_)
        generalize A.pick m = w at hw0 hwf
        have hwa : w ≠ a := by rintro rfl; rw [ha] at hwf; cases hwf
        refine Does.bind (does_readBytes (b := b) h0 (by rw [Mem.get_set_ne hwa]; exact ha) ?_)
        refine Does.bind (does_readBytes hw0 (Mem.get_set_self _ _ _) (Does.bind (does_lift hy ?_)))
        obtain ⟨o, w'⟩ := y
        cases o with
        | null e =>
          simp only at h ⊢
          have hr' : r = none := by simpa using h.symm
          subst hr'
          refine Does.bind (does_write hw0 (Mem.get_set_self _ _ _) (Does.bind (does_free hw0 (Mem.get_set_self _ _ _) (Does.pure ⟨rfl, fun x => ?_⟩))))
          rw [Mem.get_del]
          by_cases hx : w = x
          · subst hx; simp [hwf]
          · rw [if_neg hx, Mem.get_set_ne hx, Mem.get_set_ne hx]
        | ptr q =>
          simp only at h ⊢
          refine Does.bind (does_write hw0 (Mem.get_set_self _ _ _) (Does.bind ((encodeNfdM_spec hA hw0 (Mem.get_set_self _ _ _) h).mono fun p m2 g => ?_)))
          obtain ⟨g1, g2⟩ := g.around hwf (fun x hx => by rw [Mem.get_set_ne (Ne.symm hx), Mem.get_set_ne (Ne.symm hx)]) (Mem.get_set_self _ _ _)
          exact Does.bind (does_free hw0 g2 (Does.pure g1))

/-! The converse: if the call returns, so does the computation on strings. -/

theorem run_bind_inv {α β : Type} {x : M α} {f : α → M β} {m m'' : Mem} {r : β} (h : Run (x >>= f) m r m'') :
    ∃ y m', Run x m y m' ∧ Run (f y) m' r m'' := by
  have : (x >>= f) m = (x m >>= fun p => f p.1 p.2) := rfl
  rw [Run, this] at h
  obtain ⟨y, h1, h2⟩ := returns_bind_inv h
  exact ⟨y.1, y.2, h1, h2⟩

unseal M.lift in
theorem run_lift_inv {α : Type} {x : D α} {m m' : Mem} {r : α} (h : Run (M.lift x) m r m') : Returns x r ∧ m' = m := by
  rw [Run, M.lift] at h
  obtain ⟨y, h1, h2⟩ := returns_bind_inv h
  rw [returns_pure] at h2
  cases h2
  exact ⟨h1, rfl⟩

/-- Steps whose outcome is known. -/
theorem run_past {α β : Type} {x : M α} {f : α → M β} {m m1 m' : Mem} {y : α} {r : β} (h : Run (x >>= f) m r m') (hx : Run x m y m1) :
    Run (f y) m1 r m' := (run_bind_iff hx).1 h

theorem run_lift_past {α β : Type} {x : D α} {f : α → M β} {m m' : Mem} {r : β} (h : Run (M.lift x >>= f) m r m') :
    ∃ y, Returns x y ∧ Run (f y) m r m' := by
  obtain ⟨y, m1, h1, h2⟩ := run_bind_inv h
  obtain ⟨h3, rfl⟩ := run_lift_inv h1
  exact ⟨y, h3, h2⟩

theorem returns_bind_of {α β : Type} {x : D α} {f : α → D β} {y : α} {r : β} (h : Returns x y) (h' : Returns (f y) r) : Returns (x >>= f) r := by
  rw [returns_bind h]; exact h'

theorem encodeNfcM_inv (h0 : a ≠ 0) (ha : m.get a = some (.bytes b)) {len p : Nat} {m' : Mem}
    (h : Run (encodeNfcM A id fresh a len) m p m') : ∃ r, Returns (encodeNfc id fresh (b, some len)) r := by
  have h := run_past h (run_readBytes h0 ha)
  obtain ⟨r, h1, -⟩ := run_lift_past h
  exact ⟨r, h1⟩

theorem encodeNfdM_inv (hA : A.Good) (h0 : a ≠ 0) (ha : m.get a = some (.bytes b)) {len p : Nat} {m' : Mem}
    (h : Run (encodeNfdM A u id fresh a len) m p m') : ∃ r, Returns (encodeNfd u id fresh (b, some len)) r := by
  have hw0 := hA.nonnull m
  have hwf := hA.fresh m
  have h := run_past h (run_alloc hA _ m)
  generalize A.pick m = w at h hw0 hwf
  have hwa : w ≠ a := by rintro rfl; rw [ha] at hwf; cases hwf
  have h := run_past h (run_readBytes h0 (by rw [Mem.get_set_ne hwa]; exact ha))
  have h := run_past h (run_readBytes hw0 (Mem.get_set_self _ _ _))
  obtain ⟨y, hy, h⟩ := run_lift_past h
  obtain ⟨o, w'⟩ := y
  cases o with
  | null e => exact ⟨none, returns_bind_of hy ((returns_pure _ _).2 rfl)⟩
  | ptr q =>
    have h := run_past h (run_write hw0 (Mem.get_set_self _ _ _) _)
    obtain ⟨_, _, h, _⟩ := run_bind_inv h
    obtain ⟨r, hr⟩ := encodeNfcM_inv hw0 (Mem.get_set_self _ _ _) h
    exact ⟨r, returns_bind_of hy hr⟩

theorem idnaEncodeM_inv (hA : A.Good) (h0 : a ≠ 0) (ha : m.get a = some (.bytes b)) {p : Nat} {m' : Mem}
    (h : Run (idnaEncodeM A u id fresh a) m p m') : ∃ r, Returns (idnaEncode u id fresh b) r := by
  unfold idnaEncode
  unfold idnaEncodeM at h
  have h := run_past h (run_readBytes h0 ha)
  obtain ⟨asc, h1, h⟩ := run_lift_past h
  cases asc with
  | true =>
    simp only [if_true] at h
    obtain ⟨q, m1, h2, h⟩ := run_bind_inv h
    have h2 := run_past h2 (run_readBytes h0 ha)
    obtain ⟨n, h3, h2⟩ := run_lift_past h2
    have h2 := run_past h2 (run_readBytes h0 ha)
    obtain ⟨d, h4, h2⟩ := run_lift_past h2
    obtain ⟨rfl, rfl⟩ := h2.unique (run_alloc hA _ m)
    have h := run_past h (run_readBytes (hA.nonnull m) (Mem.get_set_self _ _ _))
    obtain ⟨d', h5, h⟩ := run_lift_past h
    rw [returns_liftC] at h3 h4
    have hdup : dup b = .ok d := by
      simp only [List.drop_zero] at h3 h4
      simp only [dup, dupstr, h3, h4]
    refine ⟨some d', returns_bind_of h1 ?_⟩
    simp only [if_true]
    exact returns_bind_of ((returns_liftC _ _).2 hdup) (returns_bind_of h5 ((returns_pure _ _).2 rfl))
  | false =>
    simp only [Bool.false_eq_true, if_false] at h
    obtain ⟨n, h2, h⟩ := run_lift_past h
    obtain ⟨c, h3, h⟩ := run_lift_past h
    cases c with
    | true =>
      simp only [if_true] at h
      obtain ⟨r, hr⟩ := encodeNfcM_inv h0 ha h
      exact ⟨r, returns_bind_of h1 (returns_bind_of h2 (returns_bind_of h3 hr))⟩
    | false =>
      simp only [Bool.false_eq_true, if_false] at h
      obtain ⟨c, h4, h⟩ := run_lift_past h
      cases c with
      | true =>
        simp only [if_true] at h
        obtain ⟨r, hr⟩ := encodeNfdM_inv hA h0 ha h
        exact ⟨r, returns_bind_of h1 (returns_bind_of h2 (returns_bind_of h3 (returns_bind_of h4 hr)))⟩
      | false =>
        simp only [Bool.false_eq_true, if_false] at h
        have hw0 := hA.nonnull m
        have hwf := hA.fresh m
        have h := run_past h (run_alloc hA _ m)
        generalize A.pick m = w at h hw0 hwf
        have hwa : w ≠ a := by rintro rfl; rw [ha] at hwf; cases hwf
        have h := run_past h (run_readBytes h0 (by rw [Mem.get_set_ne hwa]; exact ha))
        have h := run_past h (run_readBytes hw0 (Mem.get_set_self _ _ _))
        obtain ⟨y, hy, h⟩ := run_lift_past h
        obtain ⟨o, w'⟩ := y
        cases o with
        | null e =>
          exact ⟨none, returns_bind_of h1 (returns_bind_of h2 (returns_bind_of h3 (returns_bind_of h4
            (returns_bind_of hy ((returns_pure _ _).2 rfl)))))⟩
        | ptr q =>
          have h := run_past h (run_write hw0 (Mem.get_set_self _ _ _) _)
          obtain ⟨_, _, h, _⟩ := run_bind_inv h
          obtain ⟨r, hr⟩ := encodeNfdM_inv hA hw0 (Mem.get_set_self _ _ _) h
          exact ⟨r, returns_bind_of h1 (returns_bind_of h2 (returns_bind_of h3 (returns_bind_of h4 (returns_bind_of hy hr))))⟩

end

end Verif.Owned
