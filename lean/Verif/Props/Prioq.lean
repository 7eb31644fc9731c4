import Verif.Proofs.Prioq
import Verif.Proofs.PrioqEval

/-! Properties C20-C24: the priority queue. -/

namespace Verif.Prioq
open Verif.Spec.Prioq

variable {α : Type} {cmp : α → α → Int}

/-- One operation by the user; the locator of an element is the one `reloc` last reported for it. -/
def apply [DecidableEq α] (cmp : α → α → Int) (q : PQ α) : Op α → D (Option α × PQ α)
  | .enqueue v => do
    let q ← enqueue cmp q v
    pure (none, q)
  | .dequeue => dequeue cmp q
  | .peek => do
    let r ← liftC (peek q)
    pure (r, q)
  | .pop => liftC (pop q)
  | .remove v => do
    let loc ← liftC (match q.trace.find? (fun p => p.1 = v) with | some p => .ok p.2 | none => .error .ub)
    let r ← remove cmp q loc
    pure (some r.1, r.2)
  | .removeAt loc => do
    let r ← remove cmp q loc
    pure (some r.1, r.2)

/-- A sequence of operations. -/
def run [DecidableEq α] (cmp : α → α → Int) : PQ α → List (Op α) → D (List (Option α) × PQ α)
  | q, [] => pure ([], q)
  | q, op :: ops => do
    let r ← apply cmp q op
    let s ← run cmp r.2 ops
    pure (r.1 :: s.1, s.2)

theorem find_located [DecidableEq α] {tr : List (α × Nat)} {a : α} {i : Nat} (h : Located tr a i) :
    tr.find? (fun p => p.1 = a) = some (a, i) := by
  obtain ⟨pre, post, rfl, hp⟩ := h
  rw [List.find?_append]
  have : pre.find? (fun p => decide (p.1 = a)) = none := by
    rw [List.find?_eq_none]; intro p hpm; simpa using hp p hpm
  rw [this]
  simp

theorem coe_cons_of_perm {v : α} {xs ys : List α} (h : (v :: xs).Perm ys) : (ys : Multiset α) = v ::ₘ (xs : Multiset α) := by
  rw [Multiset.cons_coe]; exact (Multiset.coe_eq_coe.mpr h).symm

/-- One step of the simulation, for any order `le` that heads of the storage satisfy. -/
theorem apply_sim [DecidableEq α] (le : α → α → Prop) (ok : Multiset α → Op α → Prop) (Inv : List α → List (α × Nat) → Prop)
    (hroot : ∀ ys tr v, Inv ys tr → ys[0]? = some v → ∀ w ∈ ys, le v w)
    (henq : ∀ ys tr v, Inv ys tr → ok ys (.enqueue v) → ys.length < 2 ^ 60 ∧ ∀ q ys', Full q ys' → ys'.Perm (v :: ys) →
      (Preorder cmp → Heap cmp ys → Heap cmp ys') → (Loc ys tr → v ∉ ys → Loc ys' q.trace) → Inv ys' q.trace)
    (hdeq : ∀ ys tr ys' tr', Inv ys tr → (Preorder cmp → Heap cmp ys → Heap cmp ys') → (Loc ys tr → Loc ys' tr') → Inv ys' tr')
    (hrem : ∀ ys tr v, Inv ys tr → ok ys (.remove v) → ∃ i : Nat, ys[i]? = some v ∧ Located tr v i ∧
      (i + 1 < ys.length ∨ (Preorder cmp ∧ Heap cmp ys)))
    (hat : ∀ ys tr i, Inv ys tr → ok ys (.removeAt i) → i < ys.length ∧ (i + 1 < ys.length ∨ (Preorder cmp ∧ Heap cmp ys)))
    {q : PQ α} {ys : List α} (h : Full q ys) (hi : Inv ys q.trace) (hl : ys.length ≤ 2 ^ 60) (op : Op α) (hok : ok ys op) :
    ∃ r q' ys', Returns (apply cmp q op) (r, q') ∧ Full q' ys' ∧ Inv ys' q'.trace ∧ ys'.length ≤ 2 ^ 60 ∧
      Step le (ys : Multiset α) op r (ys' : Multiset α) := by
  cases op with
  | enqueue v =>
    obtain ⟨h1, h2⟩ := henq ys q.trace v hi hok
    obtain ⟨q', ys', g1, g2, g3, g4, g5⟩ := enqueue_all (cmp := cmp) h h1 v
    refine ⟨none, q', ys', ?_, g2, h2 q' ys' g2 g3 g4 g5, ?_, ?_⟩
    · simp only [apply]; rw [returns_bind g1]; simp
    · have := g3.length_eq; simp only [List.length_cons] at this; omega
    · rw [coe_cons_of_perm g3.symm]; exact Step.enqueue _ _
  | dequeue =>
    rcases dequeue_all (cmp := cmp) h hl with ⟨rfl, g⟩ | ⟨v, q', ys', g1, g2, g3, g4, g5, g6⟩
    · exact ⟨none, q, [], g, h, hi, by simp, Step.dequeueEmpty⟩
    · refine ⟨some v, q', ys', g2, g3, hdeq _ _ _ _ hi g5 g6, ?_, ?_⟩
      · have := g4.length_eq; simp only [List.length_cons] at this; omega
      · rw [coe_cons_of_perm g4]
        exact Step.dequeue _ _ fun w hw => hroot ys q.trace v hi g1 w (g4.subset (by simp at hw; simp [hw]))
  | peek =>
    refine ⟨ys[0]?, q, ys, ?_, h, hi, hl, ?_⟩
    · simp only [apply]; rw [liftC_bind (peek_all h)]; simp
    · cases hy : ys[0]? with
      | none =>
        have : ys = [] := by
          rw [List.getElem?_eq_none_iff] at hy
          exact List.eq_nil_of_length_eq_zero (by omega)
        subst this; exact Step.peekEmpty
      | some v => exact Step.peek _ _ (by simpa using List.mem_of_getElem? hy) (fun w hw => hroot ys q.trace v hi hy w (by simpa using hw))
  | pop =>
    rcases pop_all h with ⟨rfl, g⟩ | ⟨v, q', g1, g2, g3, g4, g5⟩
    · exact ⟨none, q, [], by simp only [apply]; rw [returns_liftC, g], h, hi, by simp, Step.popEmpty⟩
    · refine ⟨some v, q', ys.dropLast, by simp only [apply]; rw [returns_liftC, g1], g3, ?_, by simp; omega, ?_⟩
      · exact hdeq _ _ _ _ hi (fun _ hh => hh.dropLast) (fun hx => by rw [g5]; exact hx.dropLast)
      · rw [coe_cons_of_perm g4]; exact Step.pop _ _
  | remove v =>
    obtain ⟨i, h1, h2, h3⟩ := hrem ys q.trace v hi hok
    obtain ⟨q', ys', g1, g2, g3, g4, g5, g6⟩ := remove_all (cmp := cmp) h hl h1
    refine ⟨some v, q', ys', ?_, g2, hdeq _ _ _ _ hi g5 (g6 h3), by omega, ?_⟩
    · simp only [apply]
      rw [liftC_bind (a := i) (by rw [find_located h2]), returns_bind g1]
      simp
    · rw [coe_cons_of_perm (g4 h3)]; exact Step.remove _ _
  | removeAt i =>
    obtain ⟨h1, h3⟩ := hat ys q.trace i hi hok
    have hv : ys[i]? = some ys[i] := List.getElem?_eq_getElem _
    obtain ⟨q', ys', g1, g2, g3, g4, g5, g6⟩ := remove_all (cmp := cmp) h hl hv
    refine ⟨some ys[i], q', ys', ?_, g2, hdeq _ _ _ _ hi g5 (g6 h3), by omega, ?_⟩
    · simp only [apply]; rw [returns_bind g1]; simp
    · rw [coe_cons_of_perm (g4 h3)]; exact Step.removeAt _ _ _

/-- The simulation along a sequence of operations. -/
theorem run_sim [DecidableEq α] (le : α → α → Prop) (ok : Multiset α → Op α → Prop) (Inv : List α → List (α × Nat) → Prop)
    (step : ∀ {q : PQ α} {ys : List α}, Full q ys → Inv ys q.trace → ys.length ≤ 2 ^ 60 → ∀ op, ok ys op →
      ∃ r q' ys', Returns (apply cmp q op) (r, q') ∧ Full q' ys' ∧ Inv ys' q'.trace ∧ ys'.length ≤ 2 ^ 60 ∧
        Step le (ys : Multiset α) op r (ys' : Multiset α)) :
    ∀ (ops : List (Op α)) (q : PQ α) (ys : List α), Full q ys → Inv ys q.trace → ys.length ≤ 2 ^ 60 → Legal le ok (ys : Multiset α) ops →
    ∃ rs q' ys', Returns (run cmp q ops) (rs, q') ∧ Full q' ys' ∧ Inv ys' q'.trace ∧ ys'.length ≤ 2 ^ 60 ∧
      Steps le (ys : Multiset α) ops rs (ys' : Multiset α) := by
  intro ops
  induction ops with
  | nil => intro q ys h hi hl _; exact ⟨[], q, ys, by simp [run], h, hi, hl, Steps.nil _⟩
  | cons op ops ih =>
    intro q ys h hi hl hleg
    obtain ⟨r, q1, ys1, h1, h2, h3, h4, h5⟩ := step h hi hl op hleg.1
    obtain ⟨rs, q2, ys2, g1, g2, g3, g4, g5⟩ := ih q1 ys1 h2 h3 h4 (hleg.2 _ _ h5)
    refine ⟨r :: rs, q2, ys2, ?_, g2, g3, g4, Steps.cons h5 g5⟩
    simp only [run]
    rw [returns_bind h1, returns_bind g1]
    simp

theorem root_le (hc : Preorder cmp) {ys : List α} (h : Heap cmp ys) {v : α} (hv : ys[0]? = some v) : ∀ w ∈ ys, cmp v w ≤ 0 := by
  intro w hw
  obtain ⟨i, hi⟩ := List.mem_iff_getElem?.1 hw
  exact h.root hc hv i w hi

theorem sim_distinct [DecidableEq α] (hc : Preorder cmp) (ops : List (Op α))
    (h : Legal (fun a b => cmp a b ≤ 0) okDistinct 0 ops) :
    ∃ rs q ys, Returns (run cmp make ops) (rs, q) ∧ Full q ys ∧ (Heap cmp ys ∧ Loc ys q.trace) ∧ ys.length ≤ 2 ^ 60 ∧
      Steps (fun a b => cmp a b ≤ 0) 0 ops rs (ys : Multiset α) := by
  refine run_sim (cmp := cmp) (fun a b => cmp a b ≤ 0) okDistinct (fun ys tr => Heap cmp ys ∧ Loc ys tr) ?_ ops make [] make_full
    ⟨by intro i a b _ ha; simp at ha, by simp, by simp⟩ (by simp) h
  intro q ys hf hi hl op hok
  refine apply_sim (cmp := cmp) _ okDistinct (fun ys tr => Heap cmp ys ∧ Loc ys tr) ?_ ?_ ?_ ?_ ?_ hf hi hl op hok
  · exact fun ys tr v hx hv => root_le hc hx.1 hv
  · rintro ys tr v ⟨hh, hx⟩ ⟨h1, h2⟩
    refine ⟨by simpa using h2, fun q ys' _ _ h3 h4 => ⟨h3 hc hh, h4 hx (by simpa using h1)⟩⟩
  · rintro ys tr ys' tr' ⟨hh, hx⟩ h1 h2; exact ⟨h1 hc hh, h2 hx⟩
  · rintro ys tr v ⟨hh, hx⟩ hm
    have hm' : v ∈ ys := by simpa [okDistinct] using hm
    obtain ⟨i, hiv⟩ := List.mem_iff_getElem?.1 hm'
    exact ⟨i, hiv, hx.2 i v hiv, Or.inr ⟨hc, hh⟩⟩
  · rintro ys tr i ⟨hh, -⟩ hm
    exact ⟨by simpa [okDistinct] using hm, Or.inr ⟨hc, hh⟩⟩

theorem sim_repeated [DecidableEq α] (hc : Preorder cmp) (ops : List (Op α))
    (h : Legal (fun a b => cmp a b ≤ 0) okRepeated 0 ops) :
    ∃ rs q ys, Returns (run cmp make ops) (rs, q) ∧ Full q ys ∧ Heap cmp ys ∧ ys.length ≤ 2 ^ 60 ∧
      Steps (fun a b => cmp a b ≤ 0) 0 ops rs (ys : Multiset α) := by
  refine run_sim (cmp := cmp) (fun a b => cmp a b ≤ 0) okRepeated (fun ys _ => Heap cmp ys) ?_ ops make [] make_full
    (by intro i a b _ ha; simp at ha) (by simp) h
  intro q ys hf hi hl op hok
  refine apply_sim (cmp := cmp) _ okRepeated (fun ys _ => Heap cmp ys) ?_ ?_ ?_ ?_ ?_ hf hi hl op hok
  · exact fun ys tr v hx hv => root_le hc hx hv
  · exact fun ys tr v hh h2 => ⟨by simpa [okRepeated] using h2, fun q ys' _ _ h3 h4 => h3 hc hh⟩
  · exact fun ys tr ys' tr' hh h1 h2 => h1 hc hh
  · exact fun ys tr v _ hm => False.elim hm
  · exact fun ys tr i hh hm => ⟨by simpa [okRepeated] using hm, Or.inr ⟨hc, hh⟩⟩

/-- C20, C21: every admissible sequence of operations, elements possibly repeated, gives results the multiset specification allows:
`dequeue` and `peek` return a least element, and NULL exactly on the empty queue; the elements are conserved; `size` and `empty` are exact. -/
theorem priorq_refines [DecidableEq α] (hc : Preorder cmp) (ops : List (Op α))
    (h : Legal (fun a b => cmp a b ≤ 0) okRepeated 0 ops) :
    ∃ rs q m, Returns (run cmp make ops) (rs, q) ∧ Steps (fun a b => cmp a b ≤ 0) 0 ops rs m ∧ size q = m.card ∧
      (empty q = true ↔ m = 0) := by
  obtain ⟨rs, q, ys, h1, h2, -, -, h5⟩ := sim_repeated hc ops h
  refine ⟨rs, q, ys, h1, h5, by simp [size, h2.count], ?_⟩
  simp [empty, size, h2.count]

/-- C22: on distinct elements the locator last reported for a queued element makes `priorq_remove` remove and return it: `remove v` is
allowed whenever `v` is queued, and the specification lets it return and remove only `v`. -/
theorem priorq_locators [DecidableEq α] (hc : Preorder cmp) (ops : List (Op α))
    (h : Legal (fun a b => cmp a b ≤ 0) okDistinct 0 ops) :
    ∃ rs q m, Returns (run cmp make ops) (rs, q) ∧ Steps (fun a b => cmp a b ≤ 0) 0 ops rs m ∧ size q = m.card ∧
      (empty q = true ↔ m = 0) := by
  obtain ⟨rs, q, ys, h1, h2, -, -, h5⟩ := sim_distinct hc ops h
  refine ⟨rs, q, ys, h1, h5, by simp [size, h2.count], ?_⟩
  simp [empty, size, h2.count]

/-- C21: the elements are conserved whatever the comparator does, as long as the last slot is not removed by its locator. -/
theorem priorq_conserves_any_cmp [DecidableEq α] (cmp : α → α → Int) (ops : List (Op α))
    (h : Legal (fun _ _ => True) okNotLast 0 ops) :
    ∃ rs q m, Returns (run cmp make ops) (rs, q) ∧ Steps (fun _ _ => True) 0 ops rs m ∧ size q = m.card := by
  obtain ⟨rs, q, ys, h1, h2, -, -, h5⟩ := run_sim (cmp := cmp) (fun _ _ => True) okNotLast (fun _ _ => True) (by
      intro q ys hf hi hl op hok
      refine apply_sim (cmp := cmp) _ okNotLast (fun _ _ => True) ?_ ?_ ?_ ?_ ?_ hf hi hl op hok
      · intros; trivial
      · exact fun ys tr v _ h2 => ⟨by simpa [okNotLast] using h2, by intros; trivial⟩
      · intros; trivial
      · exact fun ys tr v _ hm => False.elim hm
      · intro ys tr i _ hm
        have : i + 1 < ys.length := by simpa [okNotLast] using hm
        exact ⟨by omega, Or.inl this⟩)
    ops make [] make_full trivial (by simp) h
  exact ⟨rs, q, ys, h1, h5, by simp [size, h2.count]⟩

/-- The state after an admissible sequence of operations. -/
theorem run_full_from [DecidableEq α] (cmp : α → α → Int) : ∀ (ops : List (Op α)) (q : PQ α) (ys : List α), Full q ys → ys.length ≤ 2 ^ 60 →
    Counted ys.length ops →
    ∃ rs q' ys', Returns (run cmp q ops) (rs, q') ∧ Full q' ys' ∧ ys'.length ≤ 2 ^ 60 ∧ size q' = countAfter ys.length ops := by
  intro ops
  induction ops with
  | nil => intro q ys hf hl _; exact ⟨[], q, ys, by simp [run], hf, hl, hf.count⟩
  | cons op ops ih =>
    intro q ys hf hl hcnt
    have finish : ∀ (r : Option α) (q1 : PQ α) (ys1 : List α), Returns (apply cmp q op) (r, q1) → Full q1 ys1 → ys1.length ≤ 2 ^ 60 →
        Counted ys1.length ops → countAfter ys1.length ops = countAfter ys.length (op :: ops) →
        ∃ rs q' ys', Returns (run cmp q (op :: ops)) (rs, q') ∧ Full q' ys' ∧ ys'.length ≤ 2 ^ 60 ∧ size q' = countAfter ys.length (op :: ops) := by
      intro r q1 ys1 h1 h2 h3 h4 h5
      obtain ⟨rs, q2, ys2, g1, g2, g3, g4⟩ := ih q1 ys1 h2 h3 h4
      refine ⟨r :: rs, q2, ys2, ?_, g2, g3, by rw [g4, h5]⟩
      simp only [run]
      rw [returns_bind h1, returns_bind g1]
      simp
    cases op with
    | enqueue v =>
      obtain ⟨h1, h2⟩ := hcnt
      obtain ⟨q', ys', g1, g2, g3, -, -⟩ := enqueue_all (cmp := cmp) hf h1 v
      have hlen := g3.length_eq
      simp only [List.length_cons] at hlen
      refine finish none q' ys' ?_ g2 (by omega) (by rw [hlen]; exact h2) (by rw [hlen]; rfl)
      simp only [apply]; rw [returns_bind g1]; simp
    | dequeue =>
      rcases dequeue_all (cmp := cmp) hf hl with ⟨rfl, g⟩ | ⟨v, q', ys', g1, g2, g3, g4, -, -⟩
      · exact finish none q [] g hf (by simp) hcnt rfl
      · have hlen : ys'.length = ys.length - 1 := by have := g4.length_eq; simp only [List.length_cons] at this; omega
        exact finish (some v) q' ys' g2 g3 (by omega) (by rw [hlen]; exact hcnt) (by rw [hlen]; rfl)
    | peek =>
      refine finish ys[0]? q ys ?_ hf hl hcnt rfl
      simp only [apply]; rw [liftC_bind (peek_all hf)]; simp
    | pop =>
      rcases pop_all hf with ⟨rfl, g⟩ | ⟨v, q', g1, g2, g3, -, -⟩
      · exact finish none q [] (by simp only [apply]; rw [returns_liftC, g]) hf (by simp) hcnt rfl
      · exact finish (some v) q' ys.dropLast (by simp only [apply]; rw [returns_liftC, g1]) g3 (by simp; omega)
          (by rw [List.length_dropLast]; exact hcnt) (by rw [List.length_dropLast]; rfl)
    | remove v => exact False.elim hcnt
    | removeAt i =>
      obtain ⟨h1, h2⟩ := hcnt
      have hv : ys[i]? = some ys[i] := List.getElem?_eq_getElem _
      obtain ⟨q', ys', g1, g2, g3, -, -, -⟩ := remove_all (cmp := cmp) hf hl hv
      have hlen : ys'.length = ys.length - 1 := by omega
      refine finish (some ys[i]) q' ys' ?_ g2 (by omega) (by rw [hlen]; exact h2) (by rw [hlen]; rfl)
      simp only [apply]; rw [returns_bind g1]; simp

theorem run_full [DecidableEq α] (cmp : α → α → Int) (ops : List (Op α)) (h : Counted 0 ops) :
    ∃ rs q ys, Returns (run cmp make ops) (rs, q) ∧ Full q ys ∧ ys.length ≤ 2 ^ 60 ∧ size q = countAfter 0 ops :=
  run_full_from cmp ops make [] make_full (by simp) h

/-- C24: whatever the comparator does, no admissible sequence of operations touches a slot outside the storage or reads one never written, or
fails to return; `size` counts the elements, and the storage has room for them. -/
theorem priorq_safe [DecidableEq α] (cmp : α → α → Int) (ops : List (Op α)) (h : Counted 0 ops) :
    ∃ rs q, Returns (run cmp make ops) (rs, q) ∧ size q = countAfter 0 ops ∧ q.capacity ≤ q.maxCapacity ∧
      q.storage.length = q.maxCapacity := by
  obtain ⟨rs, q, ys, h1, h2, -, h4⟩ := run_full cmp ops h
  exact ⟨rs, q, h1, h4, h2.cap, h2.len⟩

/-- Dequeue until the queue is empty. -/
def drain (cmp : α → α → Int) (q : PQ α) : D (List α × PQ α) := do
  let r ← dequeue cmp q
  match r.1 with
  | none => pure ([], r.2)
  | some v =>
    let s ← drain cmp r.2
    pure (v :: s.1, s.2)
partial_fixpoint

theorem drain_spec (hc : Preorder cmp) : ∀ (n : Nat) (q : PQ α) (ys : List α), ys.length = n → ys.length ≤ 2 ^ 60 → Full q ys → Heap cmp ys →
    ∃ vs q', Returns (drain cmp q) (vs, q') ∧ vs.Perm ys ∧ vs.Pairwise (fun a b => cmp a b ≤ 0) ∧ size q' = 0 := by
  intro n
  induction n with
  | zero =>
    intro q ys hn hl hf hh
    have : ys = [] := List.eq_nil_of_length_eq_zero hn
    subst this
    rcases dequeue_all (cmp := cmp) hf (by simp) with ⟨-, g⟩ | ⟨v, q', ys', g1, -⟩
    · rw [drain, returns_bind g]
      exact ⟨[], q, by simp, List.Perm.refl _, List.Pairwise.nil, hf.count⟩
    · simp at g1
  | succ n ih =>
    intro q ys hn hl hf hh
    rcases dequeue_all (cmp := cmp) hf hl with ⟨rfl, g⟩ | ⟨v, q', ys', g1, g2, g3, g4, g5, -⟩
    · simp at hn
    · have hlen := g4.length_eq
      simp only [List.length_cons] at hlen
      obtain ⟨vs, q2, k1, k2, k3, k4⟩ := ih q' ys' (by omega) (by omega) g3 (g5 hc hh)
      rw [drain, returns_bind g2]
      simp only
      rw [returns_bind k1]
      refine ⟨v :: vs, q2, by simp, (k2.cons v).trans g4, List.pairwise_cons.2 ⟨fun w hw => ?_, k3⟩, k4⟩
      exact root_le hc hh g1 w (g4.subset (List.mem_cons_of_mem _ (k2.subset hw)))

/-- C23: after any admissible sequence of operations, dequeueing until the queue is empty terminates and returns exactly the queued elements
in non-decreasing order. -/
theorem priorq_drain_sorts [DecidableEq α] (hc : Preorder cmp) (ops : List (Op α))
    (h : Legal (fun a b => cmp a b ≤ 0) okRepeated 0 ops) :
    ∃ rs q m vs q', Returns (run cmp make ops) (rs, q) ∧ Steps (fun a b => cmp a b ≤ 0) 0 ops rs m ∧ Returns (drain cmp q) (vs, q') ∧
      (vs : Multiset α) = m ∧ vs.Pairwise (fun a b => cmp a b ≤ 0) ∧ size q' = 0 := by
  obtain ⟨rs, q, ys, h1, h2, h3, h4, h5⟩ := sim_repeated hc ops h
  obtain ⟨vs, q', g1, g2, g3, g4⟩ := drain_spec hc _ q ys rfl h4 h2 h3
  exact ⟨rs, q, ys, vs, q', h1, h5, g1, Multiset.coe_eq_coe.mpr g2, g3, g4⟩

/-! Concrete cases. -/

/-- `apply` with fuel for the loops. -/
def applyF [DecidableEq α] (cmp : α → α → Int) (k : Nat) (q : PQ α) : Op α → D (Option α × PQ α)
  | .enqueue v => enqueueF cmp k q v >>= fun q => pure (none, q)
  | .dequeue => dequeueF cmp k q
  | .peek => liftC (peek q) >>= fun r => pure (r, q)
  | .pop => liftC (pop q)
  | .remove v => liftC (match q.trace.find? (fun p => p.1 = v) with | some p => .ok p.2 | none => .error .ub) >>= fun loc =>
      removeF cmp k q loc >>= fun r => pure (some r.1, r.2)
  | .removeAt loc => removeF cmp k q loc >>= fun r => pure (some r.1, r.2)

/-- `run` with fuel for the loops. -/
def runF [DecidableEq α] (cmp : α → α → Int) (k : Nat) : PQ α → List (Op α) → D (List (Option α) × PQ α)
  | q, [] => pure ([], q)
  | q, op :: ops => applyF cmp k q op >>= fun r => runF cmp k r.2 ops >>= fun s => pure (r.1 :: s.1, s.2)

theorem run_approx [DecidableEq α] (cmp : α → α → Int) (k : Nat) : ∀ (ops : List (Op α)) (q : PQ α), Approx (runF cmp k q ops) (run cmp q ops)
  | [], _ => Approx.refl _
  | op :: ops, q => by
    refine Approx.bind ?_ fun r => Approx.bind (run_approx cmp k ops r.2) fun s => Approx.refl _
    cases op with
    | enqueue v => exact Approx.bind (enqueue_approx cmp k q v) fun _ => Approx.refl _
    | dequeue => exact dequeue_approx cmp k q
    | peek => exact Approx.refl _
    | pop => exact Approx.refl _
    | remove v => exact Approx.bind (Approx.refl _) fun _ => Approx.bind (remove_approx cmp k q _) fun _ => Approx.refl _
    | removeAt loc => exact Approx.bind (remove_approx cmp k q _) fun _ => Approx.refl _

/-- The results of a run that `runF` computes. -/
theorem run_of_eval [DecidableEq α] (cmp : α → α → Int) (k : Nat) (ops : List (Op α)) (rs : List (Option α))
    (h : (runF cmp k make ops).run.map (fun r => r.toOption.map (·.1)) = some (some rs)) : ∃ q, Returns (run cmp make ops) (rs, q) := by
  match e : (runF cmp k make ops).run with
  | none => rw [e] at h; simp at h
  | some (.error _) => rw [e] at h; simp [Except.toOption] at h
  | some (.ok (rs', q)) =>
    rw [e] at h
    simp only [Option.map_some, Except.toOption, Option.some.injEq] at h
    subst h
    exact ⟨q, (run_approx cmp k ops make).returns e⟩

/-- Comparison of numbers. -/
def natCmp (a b : Nat) : Int := (a : Int) - b

theorem natCmp_preorder : Preorder natCmp := ⟨fun a b => by simp only [natCmp]; omega, fun a b c => by simp only [natCmp]; omega⟩

/-- Without removals, any sequence shorter than the address space is admissible. -/
theorem legal_of_length (le : α → α → Prop) (ops : List (Op α)) : ∀ (m : Multiset α), m.card + ops.length ≤ 2 ^ 60 →
    (∀ op ∈ ops, (∃ v, op = .enqueue v) ∨ op = .dequeue ∨ op = .peek ∨ op = .pop) → Legal le okRepeated m ops := by
  induction ops with
  | nil => intros; trivial
  | cons op ops ih =>
    intro m hm h
    simp only [List.length_cons] at hm
    refine ⟨?_, fun r m' hs => ih m' ?_ fun o ho => h o (by simp [ho])⟩
    · rcases h op (by simp) with ⟨v, rfl⟩ | rfl | rfl | rfl
      · simp only [okRepeated]; omega
      all_goals trivial
    · cases hs <;> simp_all <;> omega

example : Legal (fun a b => natCmp a b ≤ 0) okRepeated 0 [.enqueue 3, .enqueue 1, .enqueue 2, .dequeue, .peek, .pop] :=
  legal_of_length _ _ _ (by simp) (by simp)

example : ∃ q, Returns (run natCmp make [.enqueue 3, .enqueue 1, .enqueue 2, .enqueue 1, .dequeue, .peek, .removeAt 1, .dequeue, .dequeue, .dequeue])
    ([none, none, none, none, some 1, some 1, some 3, some 1, some 2, none], q) :=
  run_of_eval natCmp 10 _ _ (by decide +kernel)

theorem step_enqueue {le : α → α → Prop} {m m' : Multiset α} {v : α} {r : Option α} (h : Step le m (.enqueue v) r m') : m' = v ::ₘ m := by
  cases h; rfl

example : Legal (fun a b => natCmp a b ≤ 0) okDistinct 0 [.enqueue 3, .enqueue 1, .remove 3] := by
  refine ⟨⟨by simp, by simp⟩, fun r m h => ?_⟩
  rw [step_enqueue h]
  refine ⟨⟨by simp, by simp⟩, fun r m h => ?_⟩
  rw [step_enqueue h]
  exact ⟨by simp [okDistinct], fun r m h => trivial⟩

example : ∃ q, Returns (run natCmp make [.enqueue 3, .enqueue 1, .enqueue 2, .remove 3, .dequeue, .remove 2, .peek])
    ([none, none, none, some 3, some 1, some 2, none], q) := run_of_eval natCmp 10 _ _ (by decide +kernel)

example : Counted 0 ([.enqueue 3, .enqueue 1, .removeAt 1, .dequeue, .pop] : List (Op Nat)) := by simp [Counted]

example : Legal (fun (_ _ : Nat) => True) okNotLast 0 [.enqueue 3, .enqueue 1, .removeAt 0] := by
  refine ⟨by simp [okNotLast], fun r m h => ?_⟩
  rw [step_enqueue h]
  refine ⟨by simp [okNotLast], fun r m h => ?_⟩
  rw [step_enqueue h]
  exact ⟨by simp [okNotLast], fun r m h => trivial⟩

/-- C21 needs the comparator to be consistent when the last slot is removed: with a comparator that always answers -1 the element 1 is
returned twice and 2 is lost. -/
theorem priorq_remove_bad_cmp : ∃ q, Returns (run (fun _ _ => -1) (make : PQ Nat) [.enqueue 1, .enqueue 2, .removeAt 1, .dequeue, .dequeue])
    ([none, none, some 1, some 1, none], q) := run_of_eval _ 10 _ _ (by decide +kernel)

/-- C22 needs distinct elements, though priority_queue.h allows an element to be enqueued twice: `priorq_remove` reports the locator of the
element it removes, so that a second removal by locator returns 1 without removing it and loses 2. -/
theorem priorq_duplicate_stale_locator :
    ∃ q, Returns (run natCmp make [.enqueue 1, .enqueue 2, .enqueue 1, .remove 1, .remove 1, .dequeue, .dequeue])
      ([none, none, none, some 1, some 1, some 1, none], q) := run_of_eval natCmp 10 _ _ (by decide +kernel)

end Verif.Prioq
