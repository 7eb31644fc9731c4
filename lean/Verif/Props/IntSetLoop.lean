import Verif.Props.IntSet

/-!
Property C127: loops over the members or the non-members of an integer set.
-/

set_option autoImplicit false

namespace Verif.IntSet
open Verif.Spec.IntSet (apply after IsNext)

/-- The user's loop `for (e = find(s, start); e >= 0; e = find(s, e + 1)) body`, where `find` is `intset_find_next_hit` or
`intset_find_next_miss`. The calls of the body may depend on everything visited before. `e + 1` is computed in `int`. -/
def sweep (hit : Bool) (body : List Nat → Nat → List Op) (s : IntSet) (seen : List Nat) (start : UInt32) : D (List Nat × IntSet) := do
  let r ← findNext s start hit
  if r < 0 then pure (seen, s)
  else if r + 1 < 2 ^ 31 then
    let s ← run s (body seen r.toNat)
    sweep hit body s (seen ++ [r.toNat]) (UInt32.ofNat (r.toNat + 1))
  else liftC (.error .ub)
partial_fixpoint

/-- A call that only concerns numbers up to `m`. -/
def Upto (m : Nat) : Op → Prop
  | .add e => e.toNat ≤ m
  | .remove e => e.toNat ≤ m
  | .fill => False

/-- The calls of all bodies when `vs` is visited. -/
def calls (body : List Nat → Nat → List Op) : List Nat → List Nat → List Op
  | _, [] => []
  | seen, v :: vs => body seen v ++ calls body (seen ++ [v]) vs

theorem apply_above (n m : Nat) (S : Nat → Bool) (op : Op) (h : Upto m op) (i : Nat) (hi : m < i) : apply n S op.abs i = S i := by
  cases op with
  | add e => simp only [Upto] at h; simp only [Op.abs, apply]; rw [if_neg (by omega)]
  | remove e => simp only [Upto] at h; simp only [Op.abs, apply]; rw [if_neg (by omega)]
  | fill => exact h.elim

theorem foldl_above (n m : Nat) (ops : List Op) (S : Nat → Bool) (h : ∀ op ∈ ops, Upto m op) (i : Nat) (hi : m < i) :
    (ops.map Op.abs).foldl (apply n) S i = S i := by
  induction ops generalizing S with
  | nil => rfl
  | cons op ops ih =>
    rw [List.map_cons, List.foldl_cons, ih _ fun o ho => h o (by simp [ho])]
    exact apply_above n m S op (h op (by simp)) i hi

theorem filter_next (P : Nat → Bool) (n p m : Nat) (h1 : p ≤ m) (h2 : m < n) (h3 : P m = true) (h4 : ∀ i, p ≤ i → i < m → P i = false) :
    (List.range' p (n - p)).filter P = m :: (List.range' (m + 1) (n - (m + 1))).filter P := by
  have e : List.range' p (n - p) = List.range' p (m - p) ++ List.range' m (n - m) := by
    have := List.range'_append_1 (s := p) (m := m - p) (n := n - m)
    rw [show p + (m - p) = m by omega, show m - p + (n - m) = n - p by omega] at this
    exact this.symm
  have e2 : List.range' m (n - m) = m :: List.range' (m + 1) (n - (m + 1)) := by
    rw [show n - m = (n - (m + 1)) + 1 by omega, List.range'_succ]
  rw [e, List.filter_append, e2, List.filter_cons_of_pos h3]
  have : (List.range' p (m - p)).filter P = [] := by
    rw [List.filter_eq_nil_iff]
    intro i hi
    rw [List.mem_range'_1] at hi
    rw [h4 i hi.1 (by omega)]
    simp
  rw [this, List.nil_append]

/-- C127. On a set of size below 2^31 the loop visits exactly the members (`hit`) or the non-members (otherwise) the set had when the loop began,
each once and in ascending order, even if its body adds and removes numbers up to the current one; the set then is what all those calls make
of it. -/
theorem intset_sweep (n : UInt64) (hn : n.toNat < 2 ^ 31) (ops : List Op) (hit : Bool) (body : List Nat → Nat → List Op)
    (hb : ∀ seen m, (∀ v ∈ seen, v < m) → ∀ op ∈ body seen m, Upto m op) :
    ∃ s vs s', Returns (run (make n) ops) s ∧ Returns (sweep hit body s [] 0) (vs, s') ∧
      vs = (List.range n.toNat).filter (fun i => after n.toNat (ops.map Op.abs) i = hit) ∧
      ∀ e : UInt32, has s' e = .ok (after n.toNat ((ops ++ calls body [] vs).map Op.abs) e.toNat) := by
  obtain ⟨s, h1, hs, hrep⟩ := reachable n (by omega) ops
  have key : ∀ (k p : Nat) (s : IntSet) (S : Nat → Bool) (seen : List Nat), n.toNat - p = k → p ≤ n.toNat → s.size = n → Rep s S →
      (∀ v ∈ seen, v < p) →
      ∃ s', Returns (sweep hit body s seen (UInt32.ofNat p)) (seen ++ (List.range' p (n.toNat - p)).filter (fun i => S i = hit), s') ∧ s'.size = n ∧
        Rep s' (((calls body seen ((List.range' p (n.toNat - p)).filter (fun i => S i = hit))).map Op.abs).foldl (apply n.toNat) S) := by
    intro k
    induction k using Nat.strong_induction_on with
    | _ k ih =>
      intro p s S seen hk hp hsz hr hlow
      have hpn : (UInt32.ofNat p).toNat = p := by simp only [UInt32.toNat_ofNat']; omega
      obtain ⟨r, hr1, hu⟩ := findNext_spec s hit hr.1 (by rw [hsz]; omega) (UInt32.ofNat p)
      rw [hpn, hsz] at hu
      have hn' := isNext_of_isNextU (isNextU_congr hu (Q := fun i => S i = hit) fun i hi => by rw [hr.2.1 i (by rw [hsz]; exact hi)]) (by omega)
      rw [sweep]
      rw [returns_bind hr1]
      rcases hn' with ⟨rfl, hnone⟩ | ⟨m, rfl, h2, h3, h4, h5⟩
      · rw [if_pos (by omega)]
        have : (List.range' p (n.toNat - p)).filter (fun i => S i = hit) = [] := by
          rw [List.filter_eq_nil_iff]
          intro i hi
          rw [List.mem_range'_1] at hi
          simpa using hnone i hi.1 (by omega)
        rw [this, List.append_nil]
        exact ⟨s, (returns_pure _ _).mpr rfl, hsz, hr⟩
      · rw [if_neg (by omega), if_pos (by omega)]
        have e := filter_next (fun i => S i = hit) n.toNat p m h2 h3 (by simpa using h4) (by intro i hi hi'; simpa using h5 i hi hi')
        obtain ⟨t, ht, hts, htr⟩ := run_spec (body seen m) hr (by rw [hsz]; omega)
        simp only [Int.toNat_natCast]
        rw [returns_bind ht]
        rw [hsz] at hts htr
        obtain ⟨s', g1, g2, g3⟩ := ih (n.toNat - (m + 1)) (by omega) (m + 1) t _ (seen ++ [m]) rfl (by omega) hts htr (by
          intro v hv
          rcases List.mem_append.1 hv with hv | hv
          · have := hlow v hv; omega
          · rw [List.mem_singleton] at hv; omega)
        have e2 : (List.range' (m + 1) (n.toNat - (m + 1))).filter
            (fun i => (((body seen m).map Op.abs).foldl (apply n.toNat) S) i = hit) =
            (List.range' (m + 1) (n.toNat - (m + 1))).filter (fun i => S i = hit) := by
          apply List.filter_congr
          intro i hi
          rw [List.mem_range'_1] at hi
          rw [foldl_above n.toNat m _ S (hb seen m fun v hv => Nat.lt_of_lt_of_le (hlow v hv) h2) i (by omega)]
        rw [e2] at g1 g3
        refine ⟨s', ?_, g2, ?_⟩
        · rw [e]; simpa using g1
        · rw [e, calls, List.map_append, List.foldl_append]; exact g3
  obtain ⟨s', g1, g2, g3⟩ := key _ 0 s _ [] rfl (Nat.zero_le _) hs hrep (by simp)
  refine ⟨s, _, s', h1, g1, ?_, ?_⟩
  · simp [List.range_eq_range']
  · intro e
    obtain ⟨hw, hb1, ho1⟩ := g3
    rw [List.map_append, after, List.foldl_append, has_spec hw]
    simp only [List.nil_append]
    by_cases h : e.toNat < s'.size.toNat
    · rw [decide_eq_true h, Bool.true_and, hb1 _ h]; rfl
    · rw [decide_eq_false h, Bool.false_and]
      exact congrArg _ (ho1 _ (Nat.not_lt.mp h)).symm

/-- C127. A loop that removes what it visits empties the set. -/
theorem intset_sweep_empties (n : UInt64) (hn : n.toNat < 2 ^ 31) (ops : List Op) :
    ∃ s vs s', Returns (run (make n) ops) s ∧ Returns (sweep true (fun _ m => [.remove (UInt32.ofNat m)]) s [] 0) (vs, s') ∧
      ∀ e : UInt32, has s' e = .ok false := by
  have small : ∀ m : Nat, (UInt32.ofNat m).toNat ≤ m := by intro m; simp only [UInt32.toNat_ofNat']; exact Nat.mod_le _ _
  obtain ⟨s, vs, s', h1, h2, h3, h4⟩ := intset_sweep n hn ops true (fun _ m => [.remove (UInt32.ofNat m)]) (by
    intro _ m _ op ho; rw [List.mem_singleton] at ho; subst ho; exact small m)
  refine ⟨s, vs, s', h1, h2, fun e => ?_⟩
  rw [h4, List.map_append, after, List.foldl_append]
  have key : ∀ (vs seen : List Nat) (S : Nat → Bool) (i : Nat), (∀ v ∈ vs, v < 2 ^ 31) → (S i = true → i ∈ vs) →
      ((calls (fun _ m => [.remove (UInt32.ofNat m)]) seen vs).map Op.abs).foldl (apply n.toNat) S i = false := by
    intro vs
    induction vs with
    | nil => intro seen S i _ h; cases hS : S i with
      | false => exact hS
      | true => exact absurd (h hS) (by simp)
    | cons v vs ih =>
      intro seen S i hv h
      simp only [calls, List.cons_append, List.nil_append, List.map_cons, List.foldl_cons]
      refine ih _ _ i (fun w hw => hv w (by simp [hw])) ?_
      have hvn : (UInt32.ofNat v).toNat = v := by have := hv v (by simp); simp only [UInt32.toNat_ofNat']; omega
      simp only [Op.abs, apply, hvn]
      intro hi
      by_cases hiv : i = v
      · rw [if_pos hiv] at hi; cases hi
      · rw [if_neg hiv] at hi
        have := h hi
        simpa [hiv] using this
  refine congrArg _ (key vs [] _ e.toNat ?_ ?_)
  · intro v hv; rw [h3, List.mem_filter, List.mem_range] at hv; omega
  · intro hS
    rw [h3, List.mem_filter, List.mem_range]
    refine ⟨?_, decide_eq_true hS⟩
    by_contra hge
    obtain ⟨t, ht, hts, htr⟩ := reachable n (by omega) ops
    have := htr.2.2 e.toNat (by rw [hts]; omega)
    rw [after] at this
    rw [this] at hS
    cases hS

/-- C127 needs the size limit: with the largest `int` in the set, `e + 1` overflows. -/
theorem intset_sweep_overflow (body : List Nat → Nat → List Op) :
    ∃ s, Returns (run (make 0x80000000) [.add 0x7fffffff]) s ∧ sweep true body s [] 0 = liftC (.error .ub) := by
  obtain ⟨s, r, h1, h2, h3⟩ := intset_find_next_hit_least 0x80000000 (by decide) [.add 0x7fffffff] 0
  refine ⟨s, h1, ?_⟩
  have hin : ∀ i, after (0x80000000 : UInt64).toNat ([Op.add 0x7fffffff].map Op.abs) i = true ↔ i = 0x7fffffff := by
    intro i
    simp only [List.map_cons, List.map_nil, Op.abs, after, List.foldl_cons, List.foldl_nil, apply,
      show (0x7fffffff : UInt32).toNat = 0x7fffffff from rfl, show (0x80000000 : UInt64).toNat = 0x80000000 from rfl]
    by_cases hi : i = 0x7fffffff
    · simp [hi]
    · simp [hi]
  have hr : r = 0x7fffffff := by
    rcases h3 with ⟨rfl, h⟩ | ⟨m, rfl, _, _, h, _⟩
    · exact absurd ((hin _).2 rfl) (h 0x7fffffff (by decide) (by decide))
    · rw [hin] at h; rw [h]; rfl
  subst hr
  rw [sweep]
  have h2' : Returns (findNext s 0 true) 0x7fffffff := h2
  rw [returns_bind h2', if_neg (by decide), if_neg (by decide)]

/-- A loop over {3, 64} that removes 3 when it comes to 64. -/
example : ∃ s vs s', Returns (run (make 100) [.add 64, .add 3]) s ∧
    Returns (sweep true (fun seen _ => seen.map fun v => .remove (UInt32.ofNat v)) s [] 0) (vs, s') ∧ vs = [3, 64] := by
  obtain ⟨s, vs, s', h1, h2, h3, _⟩ := intset_sweep 100 (by decide) [.add 64, .add 3] true (fun seen _ => seen.map fun v => .remove (UInt32.ofNat v)) (by
    intro seen m hs op ho
    obtain ⟨v, hv, rfl⟩ := List.mem_map.1 ho
    have := hs v hv
    simp only [Upto, UInt32.toNat_ofNat']
    exact Nat.le_trans (Nat.mod_le _ _) (Nat.le_of_lt this))
  exact ⟨s, vs, s', h1, h2, by rw [h3]; decide +kernel⟩

end Verif.IntSet
