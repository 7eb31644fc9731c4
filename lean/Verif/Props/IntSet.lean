import Verif.Proofs.IntSet

/-! Properties C25 to C28 and C80: `intset.c`. -/

namespace Verif.IntSet
open Verif.Spec.IntSet (apply after IsNext)

/-- Model calls as abstract calls. -/
def Op.abs : Op → Spec.IntSet.Op
  | .add e => .add e.toNat
  | .remove e => .remove e.toNat
  | .fill => .fill

/-- The words of `s` hold the set `S` of numbers below the size. -/
def Rep (s : IntSet) (S : Nat → Bool) : Prop :=
  Wf s ∧ (∀ i, i < s.size.toNat → bitAt s i = S i) ∧ ∀ i, s.size.toNat ≤ i → S i = false

theorem step_spec {s : IntSet} {S : Nat → Bool} (h : Rep s S) (hsz : s.size.toNat ≤ 2 ^ 38 - 64) (op : Op) :
    ∃ s', Returns (step s op) s' ∧ s'.size = s.size ∧ Rep s' (apply s.size.toNat S op.abs) := by
  obtain ⟨hw, hb, ho⟩ := h
  cases op with
  | add e =>
    obtain ⟨s', h1, h2, h3, h4⟩ := add_spec hw e
    refine ⟨s', (returns_liftC _ _).mpr h1, h3, h2, ?_, ?_⟩
    · intro i hi
      rw [h3] at hi
      rw [h4 i hi]
      simp only [Op.abs, apply, hi, decide_true, hb i hi]
    · intro i hi
      rw [h3] at hi
      simp only [Op.abs, apply, ho i hi]
      simp; omega
  | remove e =>
    obtain ⟨s', h1, h2, h3, h4⟩ := remove_spec hw e
    refine ⟨s', (returns_liftC _ _).mpr h1, h3, h2, ?_, ?_⟩
    · intro i hi
      rw [h3] at hi
      rw [h4 i hi]
      simp only [Op.abs, apply, hb i hi]
    · intro i hi
      rw [h3] at hi
      simp [Op.abs, apply, ho i hi]
  | fill =>
    obtain ⟨s', h1, h2, h3, h4⟩ := fillLoop_spec s 0 hw hsz (by simp) (by simp)
    refine ⟨s', h1, h3, h2, ?_, ?_⟩
    · intro i hi
      rw [h3] at hi
      simp [h4 i hi, Op.abs, apply, hi]
    · intro i hi
      rw [h3] at hi
      simp only [Op.abs, apply]
      simp; omega

theorem run_spec (ops : List Op) {s : IntSet} {S : Nat → Bool} (h : Rep s S) (hsz : s.size.toNat ≤ 2 ^ 38 - 64) :
    ∃ s', Returns (run s ops) s' ∧ s'.size = s.size ∧ Rep s' ((ops.map Op.abs).foldl (apply s.size.toNat) S) := by
  induction ops generalizing s S with
  | nil => exact ⟨s, (returns_pure _ _).mpr rfl, rfl, h⟩
  | cons op ops ih =>
    obtain ⟨s1, h1, hs1, hr1⟩ := step_spec h hsz op
    obtain ⟨s2, h2, hs2, hr2⟩ := ih hr1 (by rw [hs1]; exact hsz)
    refine ⟨s2, ?_, by rw [hs2, hs1], ?_⟩
    · unfold Returns
      simp only [run]
      rw [run_bind_some h1]
      exact h2
    · rw [hs1] at hr2
      exact hr2

/-- Every reachable set represents the abstract one. -/
theorem reachable (n : UInt64) (hn : n.toNat ≤ 2 ^ 38 - 64) (ops : List Op) :
    ∃ s, Returns (run (make n) ops) s ∧ s.size = n ∧ Rep s (after n.toNat (ops.map Op.abs)) := by
  obtain ⟨h1, h2, h3⟩ := make_spec n (by omega)
  exact run_spec ops ⟨h1, fun i _ => h3 i, fun _ _ => rfl⟩ hn

/-- C25, C28. After any sequence of add, remove and fill on a new set no access left the array, the calls returned, and
`intset_has` answers for every `unsigned` as the abstract set does. (The bound 2^38 - 64 is where the `unsigned` counter of
`intset_fill` still reaches every word.) -/
theorem intset_membership (n : UInt64) (hn : n.toNat ≤ 2 ^ 38 - 64) (ops : List Op) :
    ∃ s, Returns (run (make n) ops) s ∧ ∀ e : UInt32, has s e = .ok (after n.toNat (ops.map Op.abs) e.toNat) := by
  obtain ⟨s, h1, h2, hw, hb, ho⟩ := reachable n hn ops
  refine ⟨s, h1, fun e => ?_⟩
  rw [has_spec hw]
  by_cases h : e.toNat < s.size.toNat
  · simp [h, hb _ h]
  · simp [h, ho _ (Nat.not_lt.mp h)]

example : after 100 [.add 3, .fill, .remove 7, .add 200] 7 = false ∧ after 100 [.add 3, .fill, .remove 7, .add 200] 99 = true ∧
    after 100 [.add 3, .fill, .remove 7, .add 200] 200 = false := by decide

/-- C26. On a set of size up to 2^31 (the range of the result type), reached by any sequence of calls, `intset_find_next_hit`
returns the least member at or above its argument, or -1. -/
theorem intset_find_next_hit_least (n : UInt64) (hn : n.toNat ≤ 2 ^ 31) (ops : List Op) (e : UInt32) :
    ∃ s r, Returns (run (make n) ops) s ∧ Returns (findNextHit s e) r ∧
      IsNext n.toNat (fun i => after n.toNat (ops.map Op.abs) i = true) e.toNat r := by
  obtain ⟨s, h1, h2, hw, hb, ho⟩ := reachable n (by omega) ops
  obtain ⟨r, hr, hu⟩ := findNext_spec s true hw (by rw [h2]; omega) e
  refine ⟨s, r, h1, hr, ?_⟩
  rw [h2] at hu hb
  exact isNext_of_isNextU (isNextU_congr hu fun i hi => by rw [hb i hi]) hn

/-- C27. Same for the least non-member below the size; holds after `intset_fill` too, which sets the spare bits of the last
word. -/
theorem intset_find_next_miss_least (n : UInt64) (hn : n.toNat ≤ 2 ^ 31) (ops : List Op) (e : UInt32) :
    ∃ s r, Returns (run (make n) ops) s ∧ Returns (findNextMiss s e) r ∧
      IsNext n.toNat (fun i => after n.toNat (ops.map Op.abs) i = false) e.toNat r := by
  obtain ⟨s, h1, h2, hw, hb, ho⟩ := reachable n (by omega) ops
  obtain ⟨r, hr, hu⟩ := findNext_spec s false hw (by rw [h2]; omega) e
  refine ⟨s, r, h1, hr, ?_⟩
  rw [h2] at hu hb
  exact isNext_of_isNextU (isNextU_congr hu fun i hi => by rw [hb i hi]) hn

example : IsNext 100 (fun i => after 100 [.fill, .remove 70] i = false) 65 70 := by
  refine .inr ⟨70, rfl, by omega, by omega, by decide, ?_⟩
  intro i h1 h2
  interval_cases i <;> decide

/-- C28. `intset_empty` is true iff the set has no member. -/
theorem intset_empty_iff (n : UInt64) (hn : n.toNat ≤ 2 ^ 31) (ops : List Op) :
    ∃ s b, Returns (run (make n) ops) s ∧ Returns (empty s) b ∧
      (b = true ↔ ∀ i, after n.toNat (ops.map Op.abs) i = false) := by
  obtain ⟨s, r, h1, hr, hnx⟩ := intset_find_next_hit_least n hn ops 0
  obtain ⟨s', h1', h2, hw, hb, ho⟩ := reachable n (by omega) ops
  have : s = s' := returns_unique h1 h1'
  subst this
  refine ⟨s, decide (r < 0), h1, ?_, ?_⟩
  · unfold empty
    rw [Returns, run_bind_some hr]
    rfl
  · simp only [decide_eq_true_eq]
    rw [h2] at ho
    rcases hnx with ⟨rfl, h⟩ | ⟨m, rfl, h3, h4, h5, h6⟩
    · simp only [Int.reduceNeg, Int.reduceLT, true_iff]
      intro i
      by_cases hi : i < n.toNat
      · have := h i (by simp) hi
        simpa using this
      · exact ho i (Nat.not_lt.mp hi)
    · constructor
      · intro h; omega
      · intro h
        have h7 := h m
        exact absurd h5 (by simp [h7])

/-- C80 (up to 2^32 - 64). Between 2^31 and 2^32 - 64 the search still ends with the right element, but converted to `int`. -/
theorem intset_find_next_large_partial (n : UInt64) (hn : n.toNat ≤ 2 ^ 32 - 64) (ops : List Op) (e : UInt32) :
    ∃ s r, Returns (run (make n) ops) s ∧ Returns (findNextHit s e) r ∧
      IsNextU n.toNat (fun i => after n.toNat (ops.map Op.abs) i = true) e.toNat r := by
  obtain ⟨s, h1, h2, hw, hb, ho⟩ := reachable n (by omega) ops
  obtain ⟨r, hr, hu⟩ := findNext_spec s true hw (by rw [h2]; omega) e
  refine ⟨s, r, h1, hr, ?_⟩
  rw [h2] at hu hb
  exact isNextU_congr hu fun i hi => by rw [hb i hi]

/-- C80 fails: in a set of size 2^31 + 1 the member 2^31 is reported as a negative number, so `intset_empty` calls the set
empty. -/
theorem intset_large_element_negative :
    ∃ s, Returns (run (make 0x80000001) [.add 0x80000000]) s ∧ has s 0x80000000 = .ok true ∧
      Returns (findNextHit s 0) (-(2 ^ 31)) ∧ Returns (empty s) true := by
  have hsz : (0x80000001 : UInt64).toNat = 0x80000001 := rfl
  obtain ⟨s, r, h1, h2, h3⟩ := intset_find_next_large_partial 0x80000001 (by rw [hsz]; omega) [.add 0x80000000] 0
  obtain ⟨s', h1', h4⟩ := intset_membership 0x80000001 (by rw [hsz]; omega) [.add 0x80000000]
  have : s = s' := returns_unique h1 h1'
  subst this
  have hmem : ∀ i, after (0x80000001 : UInt64).toNat ([Op.add 0x80000000].map Op.abs) i = true ↔ i = 0x80000000 := by
    intro i
    simp only [after, List.map_cons, List.map_nil, List.foldl_cons, List.foldl_nil, Op.abs, apply]
    have ha : (0x80000000 : UInt32).toNat = 0x80000000 := rfl
    have hb : (0x80000001 : UInt64).toNat = 0x80000001 := rfl
    rw [ha, hb]
    split
    · simp; omega
    · simp; omega
  have hr : r = -(2 ^ 31) := by
    rcases h3 with ⟨_, h⟩ | ⟨m, rfl, _, _, h, _⟩
    · exact absurd ((hmem 0x80000000).mpr rfl) (h _ (by simp) (by decide))
    · rw [hmem] at h
      simp only [toInt, h]
      decide
  subst hr
  refine ⟨s, h1, ?_, h2, ?_⟩
  · rw [h4]
    exact congrArg Except.ok ((hmem _).mpr rfl)
  · unfold empty
    rw [Returns, run_bind_some h2]
    rfl

theorem findLoop_diverges (s : IntSet) (hit : Bool) (hs : 2 ^ 32 - 64 < s.size.toNat) (hl : ∀ e : UInt32, e.toNat % 64 = 0 → load s hit e = .ok 0)
    (e : UInt32) (he : e.toNat % 64 = 0) : Diverges (findLoop s hit e 0) := by
  have key : ∀ (e : UInt32) x, x = 0 ∧ e.toNat % 64 = 0 → findLoop s hit e x = ExceptT.mk none := by
    apply findLoop.fixpoint_induct s hit (fun f => ∀ (e : UInt32) x, x = 0 ∧ e.toNat % 64 = 0 → f e x = ExceptT.mk none)
    · refine Lean.Order.admissible_pi_apply (fun (e : UInt32) (g : UInt64 → D Int) => ∀ x, x = 0 ∧ e.toNat % 64 = 0 → g x = ExceptT.mk none) fun e => ?_
      refine Lean.Order.admissible_pi_apply (fun x (y : D Int) => x = 0 ∧ e.toNat % 64 = 0 → y = ExceptT.mk none) fun x => ?_
      exact Lean.Order.admissible_flatOrder (b := (none : Option (Except Err Int)))
        (fun y => x = 0 ∧ e.toNat % 64 = 0 → y = (none : Option (Except Err Int))) (fun _ => rfl)
    · intro f ih e x hx
      obtain ⟨rfl, he⟩ := hx
      have hm : (e + 64).toNat % 64 = 0 := by
        have h1 : (e + 64).toNat = (e.toNat + 64) % 2 ^ 32 := UInt32.toNat_add e 64
        omega
      simp only [if_true, hl _ hm]
      have : ¬ (e + 64).toUInt64 ≥ s.size := by
        rw [ge_iff_le, UInt64.le_iff_toNat_le, UInt32.toNat_toUInt64]
        have h1 := (e + 64).toNat_lt
        omega
      rw [if_neg this, run_bind_some ((returns_liftC _ _).mpr rfl)]
      exact ih _ _ ⟨rfl, hm⟩
  exact key e 0 ⟨rfl, he⟩

/-- C80 fails: in a set of any size above 2^32 - 64 a search for a member never returns if there is none, because the
`unsigned` position wraps around. -/
theorem intset_find_next_hit_diverges (n : UInt64) (hn : 2 ^ 32 - 64 < n.toNat) (hn' : n.toNat < 2 ^ 64 - 64) (e : UInt32) (he : e.toNat < n.toNat) :
    Diverges (findNextHit (make n) e) ∧ Diverges (empty (make n)) := by
  have hsz : (make n).size = n := rfl
  have hl : ∀ e : UInt32, e.toNat < n.toNat ∨ e.toNat % 64 = 0 → load (make n) true e = .ok 0 := by
    intro e he
    have hd : (e / 64).toNat < (bitsToLongs n).toNat := by
      rw [div_toNat, bitsToLongs_toNat _ hn']
      have h1 := e.toNat_lt
      omega
    simp only [load, word, make, List.getElem?_replicate, hd, if_true]
  have key : ∀ e : UInt32, e.toNat < n.toNat → Diverges (findNextHit (make n) e) := by
    intro e he
    unfold findNextHit findNext
    have : ¬ e.toUInt64 ≥ (make n).size := by
      rw [hsz, ge_iff_le, UInt64.le_iff_toNat_le, UInt32.toNat_toUInt64]
      omega
    rw [if_neg this, run_bind_some ((returns_liftC _ _).mpr (hl e (.inl he)))]
    simp only [UInt64.zero_and]
    refine findLoop_diverges _ _ (by rw [hsz]; exact hn) (fun e he => hl e (.inr he)) _ ?_
    have h1 : (e % 64).toNat = e.toNat % 64 := rfl
    have h2 : (e - e % 64).toNat = e.toNat - e.toNat % 64 := by
      rw [UInt32.toNat_sub_of_le _ _ (by rw [UInt32.le_iff_toNat_le, h1]; omega), h1]
    omega
  refine ⟨key e he, ?_⟩
  unfold empty
  have h0 : (0 : UInt32).toNat = 0 := rfl
  have hk := key 0 (by rw [h0]; omega)
  unfold Diverges at hk ⊢
  rw [ExceptT.run_bind, hk]; rfl

example : ∃ n : UInt64, 2 ^ 32 - 64 < n.toNat ∧ n.toNat < 2 ^ 64 - 64 ∧ (5 : UInt32).toNat < n.toNat := ⟨0x100000000, by decide, by decide, by decide⟩

end Verif.IntSet
