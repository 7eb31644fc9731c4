import Verif.Model.Prioq
import Verif.Spec.Prioq
import Verif.Base.Tac

/-! Helper lemmas for `priority_queue.c`: the sifting loops are sequences of swaps of a list. -/

namespace Verif.Prioq
open Verif.Spec.Prioq

variable {α : Type} {cmp : α → α → Int}

/-- The storage has the size the queue thinks it has, and room for its elements. -/
structure Sized (q : PQ α) : Prop where
  len : q.storage.length = q.maxCapacity
  cap : q.capacity ≤ q.maxCapacity

/-- The slots of `q` hold `ys`. -/
structure Full (q : PQ α) (ys : List α) : Prop extends Sized q where
  count : q.capacity = ys.length
  slots : ∀ i, i < ys.length → q.storage[i]? = some ys[i]?

/-- The slots of `q` other than `slot` hold `ys`, where `slot` is to receive `v`. -/
structure At (q : PQ α) (ys : List α) (slot : Nat) (v : α) : Prop extends Sized q where
  count : q.capacity = ys.length
  hole : ys[slot]? = some v
  slots : ∀ i, i < ys.length → i ≠ slot → q.storage[i]? = some ys[i]?

theorem lt_of_get {l : List α} {i : Nat} {a : α} (h : l[i]? = some a) : i < l.length := by
  rcases Nat.lt_or_ge i l.length with h1 | h1
  · exact h1
  · rw [List.getElem?_eq_none h1] at h; simp at h

theorem Full.get {q : PQ α} {ys : List α} (h : Full q ys) {i : Nat} {a : α} (hi : ys[i]? = some a) : get q i = .ok a := by
  have := h.slots i (lt_of_get hi)
  simp [Prioq.get, this, hi]

theorem At.get {q : PQ α} {ys : List α} {slot : Nat} {v : α} (h : At q ys slot v) {i : Nat} {a : α} (hi : ys[i]? = some a)
    (hn : i ≠ slot) : get q i = .ok a := by
  have := h.slots i (lt_of_get hi) hn
  simp [Prioq.get, this, hi]

theorem At.lt {q : PQ α} {ys : List α} {slot : Nat} {v : α} (h : At q ys slot v) : slot < q.storage.length := by
  have := lt_of_get h.hole; have := h.count; have := h.len; have := h.cap; omega

theorem At.assign {q : PQ α} {ys : List α} {slot : Nat} {v : α} (h : At q ys slot v) (p : α) :
    assign q slot p = .ok { q with storage := q.storage.set slot (some p), trace := (p, slot) :: q.trace } := by
  simp [Prioq.assign, h.lt]

/-- Storing the value in the hole. -/
theorem At.fill {q : PQ α} {ys : List α} {slot : Nat} {v : α} (h : At q ys slot v) :
    Full { q with storage := q.storage.set slot (some v), trace := (v, slot) :: q.trace } ys := by
  refine ⟨⟨by simpa using h.len, h.cap⟩, h.count, fun i hi => ?_⟩
  by_cases hs : slot = i
  · subst hs; simp [h.lt, h.hole]
  · simp only [List.getElem?_set_ne hs]; exact h.slots i hi (Ne.symm hs)

/-- Moving the element of another slot into the hole moves the hole. -/
theorem At.move {q : PQ α} {ys : List α} {slot : Nat} {v : α} (h : At q ys slot v) {j : Nat} {p : α} (hj : ys[j]? = some p) (hn : j ≠ slot) :
    At { q with storage := q.storage.set slot (some p), trace := (p, slot) :: q.trace } ((ys.set slot p).set j v) j v := by
  have hjl := lt_of_get hj
  have hsl := lt_of_get h.hole
  refine ⟨⟨by simpa using h.len, h.cap⟩, by simpa using h.count, by simp [hjl], fun i hi hij => ?_⟩
  rw [List.getElem?_set_ne (Ne.symm hij)]
  by_cases hs : slot = i
  · subst hs; simp [h.lt, hsl]
  · simp only [List.getElem?_set_ne hs]
    exact h.slots i (by simpa using hi) (Ne.symm hs)

theorem swap_perm {ys : List α} {i j : Nat} {a b : α} (hi : ys[i]? = some a) (hj : ys[j]? = some b) : ((ys.set i b).set j a).Perm ys := by
  have h1 := lt_of_get hi
  have h2 := lt_of_get hj
  rw [List.getElem?_eq_getElem h1, Option.some.injEq] at hi
  rw [List.getElem?_eq_getElem h2, Option.some.injEq] at hj
  subst hi hj
  exact List.set_set_perm h1 h2

/-- Rule for `raise`: an invariant kept by each swap with a greater parent holds at the end. -/
theorem raise_rule {v : α} (P : List α → Nat → List (α × Nat) → Prop)
    (step : ∀ ys slot tr p, 0 < slot → ys[slot]? = some v → ys[(slot - 1) / 2]? = some p → cmp v p < 0 → P ys slot tr →
      P ((ys.set slot p).set ((slot - 1) / 2) v) ((slot - 1) / 2) ((p, slot) :: tr)) :
    ∀ (slot : Nat) (q : PQ α) (ys : List α), At q ys slot v → P ys slot q.trace →
    ∃ q' slot' ys', Returns (raise cmp q slot v) (q', slot') ∧ At q' ys' slot' v ∧ P ys' slot' q'.trace ∧ ys'.Perm ys ∧
      q'.maxCapacity = q.maxCapacity ∧ (slot' = 0 ∨ ∃ p, ys'[(slot' - 1) / 2]? = some p ∧ 0 ≤ cmp v p) := by
  intro slot
  induction slot using Nat.strongRecOn with
  | _ slot ih =>
    intro q ys h hP
    rw [raise]
    by_cases h0 : slot = 0
    · rw [if_pos h0]
      exact ⟨q, slot, ys, by simp, h, hP, List.Perm.refl _, rfl, Or.inl h0⟩
    · have hsl := lt_of_get h.hole
      have hp : ys[(slot - 1) / 2]? = some (ys[(slot - 1) / 2]'(by omega)) := List.getElem?_eq_getElem _
      generalize ys[(slot - 1) / 2]'(by omega) = p at hp
      rw [if_neg h0, liftC_bind (h.get hp (by omega))]
      by_cases hc : cmp v p ≥ 0
      · rw [if_pos hc]
        exact ⟨q, slot, ys, by simp, h, hP, List.Perm.refl _, rfl, Or.inr ⟨p, hp, hc⟩⟩
      · rw [if_neg hc, liftC_bind (h.assign p)]
        obtain ⟨q', s', ys', h1, h2, h3, h4, h5, h6⟩ := ih ((slot - 1) / 2) (by omega) _ _ (h.move hp (by omega))
          (step ys slot q.trace p (by omega) h.hole hp (by omega) hP)
        exact ⟨q', s', ys', h1, h2, h3, h4.trans (swap_perm h.hole hp), h5, h6⟩

/-- `b` at index `br` is the child of `slot` that `lower` follows. -/
def Branch (cmp : α → α → Int) (ys : List α) (slot br : Nat) (b : α) : Prop :=
  ys[br]? = some b ∧
  ((br = 2 * slot + 1 ∧ (ys.length ≤ 2 * slot + 2 ∨ ∃ r, ys[2 * slot + 2]? = some r ∧ cmp b r < 0)) ∨
   (br = 2 * slot + 2 ∧ ∃ l, ys[2 * slot + 1]? = some l ∧ 0 ≤ cmp l b))

theorem wrap_of_lt {n : Nat} (h : n < 2 ^ 64) : wrap n = n := Nat.mod_eq_of_lt h

theorem branch_spec {q : PQ α} {ys : List α} {slot : Nat} {v : α} (h : At q ys slot v) (hb : 2 * slot + 1 < ys.length) :
    ∃ br b, branchOf cmp q (2 * slot + 1) (2 * slot + 2) = .ok br ∧ Branch cmp ys slot br b := by
  have hl : ys[2 * slot + 1]? = some (ys[2 * slot + 1]'hb) := List.getElem?_eq_getElem _
  generalize ys[2 * slot + 1]'hb = l at hl
  unfold branchOf
  by_cases hr : 2 * slot + 2 ≥ q.capacity
  · rw [if_pos hr]
    exact ⟨_, l, rfl, hl, Or.inl ⟨rfl, Or.inl (by have := h.count; omega)⟩⟩
  · have hr' : 2 * slot + 2 < ys.length := by have := h.count; omega
    have hrr : ys[2 * slot + 2]? = some (ys[2 * slot + 2]'hr') := List.getElem?_eq_getElem _
    generalize ys[2 * slot + 2]'hr' = r at hrr
    rw [if_neg hr, h.get hl (by omega)]
    simp only
    rw [h.get hrr (by omega)]
    simp only
    by_cases hc : cmp l r < 0
    · exact ⟨_, l, by rw [if_pos hc], hl, Or.inl ⟨rfl, Or.inr ⟨r, hrr, hc⟩⟩⟩
    · exact ⟨_, r, by rw [if_neg hc], hrr, Or.inr ⟨rfl, l, hl, by omega⟩⟩

/-- Rule for `lower`: an invariant kept by each swap with the followed child holds before the last assignment. -/
theorem lower_rule {v : α} (P : List α → Nat → List (α × Nat) → Prop) (n : Nat) (hn : n ≤ 2 ^ 60)
    (step : ∀ ys slot tr br b, ys.length = n → ys[slot]? = some v → Branch cmp ys slot br b → 0 < cmp v b → P ys slot tr →
      P ((ys.set slot b).set br v) br ((b, slot) :: tr)) :
    ∀ (k slot : Nat) (q : PQ α) (ys : List α), n - slot = k → ys.length = n → At q ys slot v → P ys slot q.trace →
    ∃ q' slot' ys' tr, Returns (lower cmp q slot v) q' ∧ Full q' ys' ∧ ys'[slot']? = some v ∧ q'.trace = (v, slot') :: tr ∧ P ys' slot' tr ∧
      ys'.Perm ys ∧ q'.maxCapacity = q.maxCapacity ∧ (n ≤ 2 * slot' + 1 ∨ ∃ br b, Branch cmp ys' slot' br b ∧ cmp v b ≤ 0) := by
  intro k
  induction k using Nat.strongRecOn with
  | _ k ih =>
    intro slot q ys hk hl h hP
    have hsl := lt_of_get h.hole
    rw [lower]
    have e1 : wrap (slot * 2 + 1) = 2 * slot + 1 := by rw [wrap_of_lt (by omega)]; omega
    have e2 : wrap (2 * slot + 1 + 1) = 2 * slot + 2 := by rw [wrap_of_lt (by omega)]
    simp only [e1, e2]
    by_cases hb : 2 * slot + 1 ≥ q.capacity
    · rw [if_pos hb, h.assign]
      refine ⟨_, slot, ys, q.trace, (returns_liftC _ _).mpr rfl, h.fill, h.hole, rfl, hP, List.Perm.refl _, rfl, Or.inl ?_⟩
      have := h.count; omega
    · rw [if_neg hb]
      obtain ⟨br, b, h1, h2⟩ := branch_spec (cmp := cmp) h (by have := h.count; omega)
      have hbr : br ≠ slot ∧ slot < br := by rcases h2.2 with h | h <;> omega
      rw [liftC_bind h1, liftC_bind (h.get h2.1 hbr.1)]
      by_cases hc : cmp v b ≤ 0
      · rw [if_pos hc, h.assign]
        exact ⟨_, slot, ys, q.trace, (returns_liftC _ _).mpr rfl, h.fill, h.hole, rfl, hP, List.Perm.refl _, rfl, Or.inr ⟨br, b, h2, hc⟩⟩
      · rw [if_neg hc, liftC_bind (h.assign b)]
        obtain ⟨q', s', ys', tr, g1, g2, g3, g4, g5, g6, g7, g8⟩ := ih (n - br) (by omega) br _ _ rfl (by simpa using hl)
          (h.move h2.1 hbr.1) (step ys slot q.trace br b hl h.hole h2 (by omega) hP)
        exact ⟨q', s', ys', tr, g1, g2, g3, g4, g5, g6.trans (swap_perm h.hole h2.1), g7, g8⟩

/-- Every element is preceded by its parent. -/
def Heap (cmp : α → α → Int) (ys : List α) : Prop :=
  ∀ i a b, 0 < i → ys[(i - 1) / 2]? = some a → ys[i]? = some b → cmp a b ≤ 0

/-- A heap but for the element of `slot`. -/
def HeapBut (cmp : α → α → Int) (ys : List α) (slot : Nat) : Prop :=
  (∀ i a b, 0 < i → i ≠ slot → (i - 1) / 2 ≠ slot → ys[(i - 1) / 2]? = some a → ys[i]? = some b → cmp a b ≤ 0) ∧
  (∀ i a b, 0 < i → (i - 1) / 2 = slot → 0 < slot → ys[(slot - 1) / 2]? = some a → ys[i]? = some b → cmp a b ≤ 0)

/-- The element of `slot` is not after its children. -/
def Below (cmp : α → α → Int) (ys : List α) (slot : Nat) : Prop :=
  ∀ i a b, 0 < i → (i - 1) / 2 = slot → ys[slot]? = some a → ys[i]? = some b → cmp a b ≤ 0

/-- The element of `slot` is not before its parent. -/
def Above (cmp : α → α → Int) (ys : List α) (slot : Nat) : Prop :=
  ∀ a b, 0 < slot → ys[(slot - 1) / 2]? = some a → ys[slot]? = some b → cmp a b ≤ 0

theorem heap_of_but {ys : List α} {slot : Nat} (h : HeapBut cmp ys slot) (h1 : Above cmp ys slot) (h2 : Below cmp ys slot) : Heap cmp ys := by
  intro i a b hi ha hb
  by_cases e1 : i = slot
  · subst e1; exact h1 a b hi ha hb
  · by_cases e2 : (i - 1) / 2 = slot
    · exact h2 i a b hi e2 (by rw [← e2]; exact ha) hb
    · exact h.1 i a b hi e1 e2 ha hb

theorem but_of_heap (hc : Preorder cmp) {ys : List α} (h : Heap cmp ys) (slot : Nat) (v : α) : HeapBut cmp (ys.set slot v) slot := by
  refine ⟨fun i a b hi h1 h2 ha hb => ?_, fun i a b hi h1 h2 ha hb => ?_⟩
  · rw [List.getElem?_set_ne (Ne.symm h2)] at ha
    rw [List.getElem?_set_ne (Ne.symm h1)] at hb
    exact h i a b hi ha hb
  · rw [List.getElem?_set_ne (by omega)] at ha hb
    have hl : slot < ys.length := by have := lt_of_get hb; omega
    have hm : ys[slot]? = some ys[slot] := List.getElem?_eq_getElem _
    exact hc.trans _ _ _ (h slot a _ h2 ha hm) (h i _ b hi (by rw [h1]; exact hm) hb)

theorem Heap.take {ys : List α} (h : Heap cmp ys) (n : Nat) : Heap cmp (ys.take n) := by
  intro i a b hi ha hb
  have h1 := lt_of_get ha; have h2 := lt_of_get hb
  rw [List.length_take] at h1 h2
  rw [List.getElem?_take_of_lt (by omega)] at ha hb
  exact h i a b hi ha hb

/-- The root of a heap precedes everything. -/
theorem Heap.root (hc : Preorder cmp) {ys : List α} (h : Heap cmp ys) {r : α} (hr : ys[0]? = some r) :
    ∀ (i : Nat) (b : α), ys[i]? = some b → cmp r b ≤ 0 := by
  intro i
  induction i using Nat.strongRecOn with
  | _ i ih =>
    intro b hb
    by_cases h0 : i = 0
    · subst h0
      rw [hr, Option.some.injEq] at hb; subst hb
      have := hc.symm r r; omega
    · have hl := lt_of_get hb
      have hp : ys[(i - 1) / 2]? = some (ys[(i - 1) / 2]'(by omega)) := List.getElem?_eq_getElem _
      exact hc.trans _ _ _ (ih _ (by omega) _ hp) (h i _ b (by omega) hp hb)

/-- The swap of `raise`. -/
theorem raise_step (hc : Preorder cmp) {ys : List α} {slot : Nat} {v p : α} (h0 : 0 < slot) (hv : ys[slot]? = some v)
    (hp : ys[(slot - 1) / 2]? = some p) (hlt : cmp v p < 0) (h : HeapBut cmp ys slot) :
    HeapBut cmp ((ys.set slot p).set ((slot - 1) / 2) v) ((slot - 1) / 2) ∧
    Below cmp ((ys.set slot p).set ((slot - 1) / 2) v) ((slot - 1) / 2) := by
  have hs := lt_of_get hv
  have key : ∀ i, i ≠ (slot - 1) / 2 → ((ys.set slot p).set ((slot - 1) / 2) v)[i]? = if i = slot then some p else ys[i]? := by
    intro i hi
    rw [List.getElem?_set_ne (Ne.symm hi)]
    by_cases e : i = slot
    · subst e; simp [hs]
    · rw [if_neg e, List.getElem?_set_ne (Ne.symm e)]
  have kp : ((ys.set slot p).set ((slot - 1) / 2) v)[(slot - 1) / 2]? = some v := by
    rw [List.getElem?_set_self (by simp; omega)]
  have sib : ∀ i b, 0 < i → (i - 1) / 2 = (slot - 1) / 2 → i ≠ slot → ys[i]? = some b → cmp p b ≤ 0 := by
    intro i b hi e hne hb
    exact h.1 i p b hi hne (by omega) (by rw [e]; exact hp) hb
  refine ⟨⟨fun i a b hi h1 h2 ha hb => ?_, fun i a b hi h1 h2 ha hb => ?_⟩, fun i a b hi h1 ha hb => ?_⟩
  · rw [key _ h2] at ha
    rw [key _ h1] at hb
    by_cases e : i = slot
    · omega
    · rw [if_neg e] at hb
      by_cases e2 : (i - 1) / 2 = slot
      · rw [if_pos e2, Option.some.injEq] at ha
        subst ha
        exact h.2 i p b hi e2 h0 hp hb
      · rw [if_neg e2] at ha
        exact h.1 i a b hi e e2 ha hb
  · rw [key _ (by omega), if_neg (by omega)] at ha
    rw [key _ (by omega)] at hb
    have hap : cmp a p ≤ 0 := h.1 ((slot - 1) / 2) a p h2 (by omega) (by omega) ha hp
    by_cases e : i = slot
    · rw [if_pos e, Option.some.injEq] at hb
      subst hb; exact hap
    · rw [if_neg e] at hb
      exact hc.trans _ _ _ hap (sib i b hi h1 e hb)
  · rw [kp, Option.some.injEq] at ha
    subst ha
    rw [key _ (by omega)] at hb
    by_cases e : i = slot
    · rw [if_pos e, Option.some.injEq] at hb
      subst hb; omega
    · rw [if_neg e] at hb
      exact hc.trans _ _ _ (Int.le_of_lt hlt) (sib i b hi h1 e hb)

/-- A followed child precedes the other one. -/
theorem Branch.least (hc : Preorder cmp) {ys : List α} {slot br : Nat} {b : α} (h : Branch cmp ys slot br b) :
    ∀ i c, 0 < i → (i - 1) / 2 = slot → ys[i]? = some c → cmp b c ≤ 0 := by
  intro i c hi e hcc
  have hl := lt_of_get hcc
  have rfl' : cmp b b ≤ 0 := by have := hc.symm b b; omega
  have hi2 : i = 2 * slot + 1 ∨ i = 2 * slot + 2 := by omega
  rcases h.2 with ⟨h1, h2⟩ | ⟨h1, l, h2, h3⟩
  · rcases hi2 with e1 | e1
    · have := h.1; rw [h1, ← e1, hcc, Option.some.injEq] at this; subst this; exact rfl'
    · rcases h2 with h2 | ⟨r, h2, h3⟩
      · omega
      · rw [← e1, hcc, Option.some.injEq] at h2; subst h2; omega
  · rcases hi2 with e1 | e1
    · rw [← e1, hcc, Option.some.injEq] at h2; subst h2
      have := hc.symm c b
      have := hc.symm b c
      omega
    · have := h.1; rw [h1, ← e1, hcc, Option.some.injEq] at this; subst this; exact rfl'

/-- The swap of `lower`. -/
theorem lower_step (hc : Preorder cmp) {ys : List α} {slot br : Nat} {v b : α} (hv : ys[slot]? = some v) (hb : Branch cmp ys slot br b)
    (hgt : 0 < cmp v b) (h : HeapBut cmp ys slot) :
    HeapBut cmp ((ys.set slot b).set br v) br ∧ Above cmp ((ys.set slot b).set br v) br := by
  have hs := lt_of_get hv
  have hbl := lt_of_get hb.1
  have hpar : (br - 1) / 2 = slot ∧ 0 < br := by rcases hb.2 with h | h <;> omega
  have hbv : cmp b v ≤ 0 := by have := hc.symm b v; omega
  have key : ∀ i, i ≠ br → ((ys.set slot b).set br v)[i]? = if i = slot then some b else ys[i]? := by
    intro i hi
    rw [List.getElem?_set_ne (Ne.symm hi)]
    by_cases e : i = slot
    · subst e; simp [hs]
    · rw [if_neg e, List.getElem?_set_ne (Ne.symm e)]
  have kb : ((ys.set slot b).set br v)[br]? = some v := by rw [List.getElem?_set_self (by simpa using hbl)]
  refine ⟨⟨fun i x y hi h1 h2 hx hy => ?_, fun i x y hi h1 h2 hx hy => ?_⟩, fun x y h0 hx hy => ?_⟩
  · rw [key _ h2] at hx
    rw [key _ h1] at hy
    by_cases e : i = slot
    · subst e
      rw [if_pos rfl, Option.some.injEq] at hy
      subst hy
      rw [if_neg (by omega)] at hx
      exact h.2 br x b hpar.2 hpar.1 hi hx hb.1
    · rw [if_neg e] at hy
      by_cases e2 : (i - 1) / 2 = slot
      · rw [if_pos e2, Option.some.injEq] at hx
        subst hx
        exact hb.least hc i y hi e2 hy
      · rw [if_neg e2] at hx
        exact h.1 i x y hi e e2 hx hy
  · rw [key _ (by omega), if_pos hpar.1, Option.some.injEq] at hx
    subst hx
    rw [key _ (by omega), if_neg (by omega)] at hy
    exact h.1 i b y hi (by omega) (by omega) (by rw [h1]; exact hb.1) hy
  · rw [key _ (by omega), if_pos hpar.1, Option.some.injEq] at hx
    rw [kb, Option.some.injEq] at hy
    subst hx hy; exact hbv

theorem growLoop_spec (limit : Nat) (hl : limit ≤ 2 ^ 60) : ∀ (k n : Nat), limit - n = k → 0 < n → n < 2 * limit →
    ∃ m, Returns (growLoop limit n) m ∧ limit ≤ m ∧ m < 2 * limit := by
  intro k
  induction k using Nat.strongRecOn with
  | _ k ih =>
    intro n hk hn hb
    rw [growLoop]
    by_cases h : n < limit
    · rw [if_pos h, if_neg (by omega), wrap_of_lt (by omega)]
      exact ih _ (by omega) _ rfl (by omega) (by omega)
    · rw [if_neg h]
      exact ⟨n, by simp, by omega, hb⟩

theorem grow_spec {q : PQ α} {ys : List α} (h : Full q ys) (hl : ys.length < 2 ^ 60) :
    ∃ q', Returns (grow q) q' ∧ Full q' ys ∧ ys.length < q'.maxCapacity ∧ q'.trace = q.trace := by
  have hcount := h.count
  unfold grow
  by_cases e : q.capacity = q.maxCapacity
  · rw [if_pos e]
    rw [wrap_of_lt (by omega)]
    obtain ⟨m, h1, h2, h3⟩ := growLoop_spec (q.capacity + 1) (by omega) _ 1 rfl (by omega) (by omega)
    rw [returns_bind h1]
    have hw : wrap (m * 8) / 8 = m := by rw [wrap_of_lt (by omega)]; omega
    refine ⟨_, (returns_pure _ _).mpr rfl, ⟨⟨?_, ?_⟩, hcount, fun i hi => ?_⟩, by simp only; omega, rfl⟩
    · simp only [realloc, hw, List.length_take, List.length_append, List.length_replicate]; omega
    · simp only; omega
    · have hlen := h.len
      simp only [realloc, hw]
      rw [List.getElem?_take_of_lt (by omega), List.getElem?_append_left (by omega)]
      exact h.slots i hi
  · rw [if_neg e]
    refine ⟨q, by simp, h, ?_, rfl⟩
    have := h.cap; omega

/-! Locators. -/

/-- The locator last reported for an element. -/
def Located (tr : List (α × Nat)) (a : α) (i : Nat) : Prop := ∃ pre post, tr = pre ++ (a, i) :: post ∧ ∀ p ∈ pre, p.1 ≠ a

theorem located_cons_self (tr : List (α × Nat)) (a : α) (i : Nat) : Located ((a, i) :: tr) a i := ⟨[], tr, rfl, by simp⟩

theorem located_cons_ne {tr : List (α × Nat)} {a b : α} {i j : Nat} (h : Located tr a i) (hne : b ≠ a) : Located ((b, j) :: tr) a i := by
  obtain ⟨pre, post, e, hp⟩ := h
  refine ⟨(b, j) :: pre, post, by rw [e]; rfl, ?_⟩
  intro p hp'
  rcases List.mem_cons.1 hp' with rfl | h
  · exact hne
  · exact hp p h

theorem located_unique {tr : List (α × Nat)} {a : α} {i j : Nat} (h : Located tr a i) (h' : Located tr a j) : i = j := by
  induction tr with
  | nil => obtain ⟨pre, post, e, -⟩ := h; simp at e
  | cons x tr ih =>
    obtain ⟨pre, post, e, hp⟩ := h
    obtain ⟨pre', post', e', hp'⟩ := h'
    cases pre with
    | nil =>
      simp only [List.nil_append, List.cons.injEq] at e
      cases pre' with
      | nil =>
        simp only [List.nil_append, List.cons.injEq] at e'
        have := e.1.symm.trans e'.1; simpa using this
      | cons y pre' =>
        simp only [List.cons_append, List.cons.injEq] at e'
        exact absurd (by rw [← e'.1, e.1]) (hp' y (by simp))
    | cons y pre =>
      simp only [List.cons_append, List.cons.injEq] at e
      cases pre' with
      | nil =>
        simp only [List.nil_append, List.cons.injEq] at e'
        exact absurd (by rw [← e.1, e'.1]) (hp y (by simp))
      | cons y' pre' =>
        simp only [List.cons_append, List.cons.injEq] at e'
        exact ih ⟨pre, post, e.2, fun p h => hp p (by simp [h])⟩ ⟨pre', post', e'.2, fun p h => hp' p (by simp [h])⟩

/-- All elements but the one of `slot` are distinct and where their locators say. -/
def LocBut (ys : List α) (slot : Nat) (tr : List (α × Nat)) : Prop :=
  ys.Nodup ∧ ∀ i a, i ≠ slot → ys[i]? = some a → Located tr a i

/-- All elements are distinct and where their locators say. -/
def Loc (ys : List α) (tr : List (α × Nat)) : Prop := ys.Nodup ∧ ∀ i a, ys[i]? = some a → Located tr a i

theorem nodup_ne {ys : List α} (h : ys.Nodup) {i j : Nat} {a b : α} (hi : ys[i]? = some a) (hj : ys[j]? = some b) (hne : i ≠ j) : a ≠ b := by
  intro e
  subst e
  have h1 := lt_of_get hi
  exact hne ((List.getElem?_inj h1 h).mp (hi.trans hj.symm))

/-- Moving an element into the hole, with its report, keeps the locators right. -/
theorem LocBut.move {ys : List α} {slot j : Nat} {v p : α} {tr : List (α × Nat)} (h : LocBut ys slot tr) (hv : ys[slot]? = some v)
    (hj : ys[j]? = some p) : LocBut ((ys.set slot p).set j v) j ((p, slot) :: tr) := by
  have hperm := swap_perm hv hj
  refine ⟨hperm.nodup_iff.mpr h.1, fun i a hi ha => ?_⟩
  rw [List.getElem?_set_ne (Ne.symm hi)] at ha
  by_cases e : slot = i
  · subst e
    rw [List.getElem?_set_self (lt_of_get hv), Option.some.injEq] at ha
    subst ha; exact located_cons_self _ _ _
  · rw [List.getElem?_set_ne e] at ha
    exact located_cons_ne (h.2 i a (Ne.symm e) ha) (nodup_ne h.1 hj ha (Ne.symm hi))

theorem LocBut.fill {ys : List α} {slot : Nat} {v : α} {tr : List (α × Nat)} (h : LocBut ys slot tr) (hv : ys[slot]? = some v) :
    Loc ys ((v, slot) :: tr) := by
  refine ⟨h.1, fun i a ha => ?_⟩
  by_cases e : i = slot
  · subst e
    rw [hv, Option.some.injEq] at ha
    subst ha; exact located_cons_self _ _ _
  · exact located_cons_ne (h.2 i a e ha) (nodup_ne h.1 hv ha (Ne.symm e))

theorem Loc.but {ys : List α} {tr : List (α × Nat)} (h : Loc ys tr) (slot : Nat) : LocBut ys slot tr := ⟨h.1, fun i a _ => h.2 i a⟩

/-! The operations. Each takes the list of slots to a list of slots. -/

theorem raise_all {q : PQ α} {ys : List α} {slot : Nat} {v : α} (h : At q ys slot v) :
    ∃ q' slot' ys', Returns (raise cmp q slot v) (q', slot') ∧ At q' ys' slot' v ∧ ys'.Perm ys ∧ q'.maxCapacity = q.maxCapacity ∧
      (Preorder cmp → HeapBut cmp ys slot → HeapBut cmp ys' slot' ∧ Above cmp ys' slot' ∧ (Below cmp ys slot → Below cmp ys' slot')) ∧
      (LocBut ys slot q.trace → LocBut ys' slot' q'.trace) := by
  obtain ⟨q', s', ys', h1, h2, h3, h4, h5, h6⟩ := raise_rule (cmp := cmp) (v := v)
    (fun zs s tr => (Preorder cmp → HeapBut cmp ys slot → HeapBut cmp zs s ∧ (Below cmp ys slot → Below cmp zs s)) ∧
      (LocBut ys slot q.trace → LocBut zs s tr))
    (by
      intro zs s tr p h0 hv hp hlt ⟨hA, hB⟩
      refine ⟨fun hc hb => ?_, fun hb => (hB hb).move hv hp⟩
      obtain ⟨g1, g2⟩ := raise_step hc h0 hv hp hlt (hA hc hb).1
      exact ⟨g1, fun _ => g2⟩)
    slot q ys h ⟨fun _ hb => ⟨hb, id⟩, id⟩
  refine ⟨q', s', ys', h1, h2, h4, h5, fun hc hb => ⟨(h3.1 hc hb).1, ?_, (h3.1 hc hb).2⟩, h3.2⟩
  intro a b h0 ha hb
  rw [h2.hole, Option.some.injEq] at hb
  subst hb
  rcases h6 with h6 | ⟨p, hp, hge⟩
  · omega
  · rw [ha, Option.some.injEq] at hp
    subst hp
    have := hc.symm v a
    have := hc.symm a v
    omega

theorem lower_all {q : PQ α} {ys : List α} {slot : Nat} {v : α} (h : At q ys slot v) (hl : ys.length ≤ 2 ^ 60) :
    ∃ q' ys', Returns (lower cmp q slot v) q' ∧ Full q' ys' ∧ ys'.Perm ys ∧ q'.maxCapacity = q.maxCapacity ∧
      (Preorder cmp → HeapBut cmp ys slot → Above cmp ys slot → Heap cmp ys') ∧ (LocBut ys slot q.trace → Loc ys' q'.trace) := by
  obtain ⟨q', s', ys', tr, h1, h2, h3, h4, h5, h6, h7, h8⟩ := lower_rule (cmp := cmp) (v := v)
    (fun zs s tr => (Preorder cmp → HeapBut cmp ys slot → Above cmp ys slot → HeapBut cmp zs s ∧ Above cmp zs s) ∧
      (LocBut ys slot q.trace → LocBut zs s tr)) ys.length hl
    (by
      intro zs s tr br b hlen hv hb hgt ⟨hA, hB⟩
      exact ⟨fun hc h1 h2 => lower_step hc hv hb hgt (hA hc h1 h2).1, fun hx => (hB hx).move hv hb.1⟩)
    _ slot q ys rfl rfl h ⟨fun _ h1 h2 => ⟨h1, h2⟩, id⟩
  refine ⟨q', ys', h1, h2, h6, h7, fun hc hb ha => ?_, fun hx => by rw [h4]; exact (h5.2 hx).fill h3⟩
  obtain ⟨g1, g2⟩ := h5.1 hc hb ha
  refine heap_of_but g1 g2 ?_
  intro i a c hi e hva hic
  rw [h3, Option.some.injEq] at hva
  subst hva
  rcases h8 with h8 | ⟨br, b, hbr, hle⟩
  · have := lt_of_get hic; have := h6.length_eq; omega
  · exact hc.trans _ _ _ hle (hbr.least hc i c hi e hic)

theorem enqueue_all {q : PQ α} {ys : List α} (h : Full q ys) (hl : ys.length < 2 ^ 60) (v : α) :
    ∃ q' ys', Returns (enqueue cmp q v) q' ∧ Full q' ys' ∧ ys'.Perm (v :: ys) ∧ (Preorder cmp → Heap cmp ys → Heap cmp ys') ∧
      (Loc ys q.trace → v ∉ ys → Loc ys' q'.trace) := by
  obtain ⟨q1, h1, h2, h3, h4⟩ := grow_spec h hl
  have hc1 := h2.count
  have hat : At { q1 with capacity := wrap (q1.capacity + 1) } (ys ++ [v]) q1.capacity v := by
    refine ⟨⟨h2.len, ?_⟩, ?_, ?_, fun i hi hne => ?_⟩
    · simp only; rw [wrap_of_lt (by omega)]; omega
    · simp only; rw [wrap_of_lt (by omega)]; simp; omega
    · rw [hc1]; simp
    · simp only [List.length_append, List.length_cons, List.length_nil] at hi
      simp only
      rw [h2.slots i (by omega), List.getElem?_append_left (by omega)]
  obtain ⟨q2, s2, ys2, g1, g2, g3, g4, g5, g6⟩ := raise_all (cmp := cmp) hat
  unfold enqueue
  rw [returns_bind h1, returns_bind g1, g2.assign]
  refine ⟨_, ys2, (returns_liftC _ _).mpr rfl, g2.fill, g3.trans (List.perm_append_singleton v ys), fun hc hh => ?_, fun hx hv => ?_⟩
  · have hb : HeapBut cmp (ys ++ [v]) q1.capacity := by
      refine ⟨fun i a b hi e1 e2 ha hb => ?_, fun i a b hi e1 e2 ha hb => ?_⟩
      · have h5 := lt_of_get hb
        simp only [List.length_append, List.length_cons, List.length_nil] at h5
        rw [List.getElem?_append_left (by omega)] at ha hb
        exact hh i a b hi ha hb
      · have h5 := lt_of_get hb
        simp only [List.length_append, List.length_cons, List.length_nil] at h5
        omega
    have hbelow : Below cmp (ys ++ [v]) q1.capacity := by
      intro i a b hi e1 ha hb
      have h5 := lt_of_get hb
      simp only [List.length_append, List.length_cons, List.length_nil] at h5
      omega
    obtain ⟨k1, k2, k3⟩ := g5 hc hb
    exact heap_of_but k1 k2 (k3 hbelow)
  · refine (g6 ⟨?_, fun i a hi ha => ?_⟩).fill g2.hole
    · rw [List.nodup_append]
      refine ⟨hx.1, by simp, ?_⟩
      intro a ha b hb e
      simp only [List.mem_singleton] at hb
      subst hb e; exact hv ha
    · have h5 := lt_of_get ha
      simp only [List.length_append, List.length_cons, List.length_nil] at h5
      rw [List.getElem?_append_left (by omega)] at ha
      simp only [h4]
      exact hx.2 i a ha

theorem set_perm {l : List α} : ∀ {i : Nat} {a : α} (b : α), l[i]? = some a → (a :: l.set i b).Perm (b :: l) := by
  induction l with
  | nil => intro i a b h; simp at h
  | cons x l ih =>
    intro i a b h
    cases i with
    | zero =>
      simp only [List.getElem?_cons_zero, Option.some.injEq] at h
      subst h; exact List.Perm.swap _ _ _
    | succ i =>
      simp only [List.getElem?_cons_succ] at h
      rw [List.set_cons_succ]
      exact (List.Perm.swap x a _).trans (((ih b h).cons x).trans (List.Perm.swap b x _))

/-- What is left after the last element has replaced the one at `i`. -/
theorem replace_perm {ys : List α} {i : Nat} {a b : α} (hi : i + 1 < ys.length) (ha : ys[i]? = some a)
    (hb : ys[ys.length - 1]? = some b) : (a :: ys.dropLast.set i b).Perm ys := by
  have h1 : ys.dropLast[i]? = some a := by
    rw [List.getElem?_dropLast, if_pos (by omega)]; exact ha
  have h2 : ys = ys.dropLast ++ [b] := by
    have hne : ys ≠ [] := by intro e; subst e; simp at hi
    have := List.dropLast_concat_getLast hne
    rw [List.getLast_eq_getElem] at this
    rw [List.getElem?_eq_getElem (by omega), Option.some.injEq] at hb
    rw [hb] at this
    exact this.symm
  refine (set_perm b h1).trans ?_
  conv => rhs; rw [h2]
  exact (List.perm_append_singleton b _).symm

/-- The state in which `lower` or `raise` starts after the last element has been taken to replace the one at `i`. -/
theorem Full.shrink {q : PQ α} {ys : List α} (h : Full q ys) {i : Nat} (hi : i + 1 < ys.length) (b : α) :
    At { q with capacity := ys.length - 1 } (ys.dropLast.set i b) i b := by
  have hc := h.cap
  have hn := h.count
  refine ⟨⟨h.len, by simp only; omega⟩, by simp, by rw [List.getElem?_set_self (by simp; omega)], fun j hj hne => ?_⟩
  simp only [List.length_set, List.length_dropLast] at hj
  rw [List.getElem?_set_ne (Ne.symm hne), List.getElem?_dropLast, if_pos (by omega)]
  exact h.slots j (by omega)

theorem Full.dropLast {q : PQ α} {ys : List α} (h : Full q ys) : Full { q with capacity := ys.length - 1 } ys.dropLast := by
  have hc := h.cap
  have hn := h.count
  refine ⟨⟨h.len, by simp only; omega⟩, by simp, fun j hj => ?_⟩
  simp only [List.length_dropLast] at hj
  rw [List.getElem?_dropLast, if_pos (by omega)]
  exact h.slots j (by omega)

theorem Heap.dropLast {ys : List α} (h : Heap cmp ys) : Heap cmp ys.dropLast := by
  rw [List.dropLast_eq_take]; exact h.take _

theorem Loc.dropLast {ys : List α} {tr : List (α × Nat)} (h : Loc ys tr) : Loc ys.dropLast tr := by
  refine ⟨h.1.sublist (List.dropLast_sublist ys), fun i a ha => ?_⟩
  have hl := lt_of_get ha
  rw [List.length_dropLast] at hl
  rw [List.getElem?_dropLast, if_pos hl] at ha
  exact h.2 i a ha

theorem Loc.shrink {ys : List α} {tr : List (α × Nat)} (h : Loc ys tr) {i : Nat} {a b : α} (hi : i + 1 < ys.length)
    (ha : ys[i]? = some a) (hb : ys[ys.length - 1]? = some b) : LocBut (ys.dropLast.set i b) i tr := by
  refine ⟨?_, fun j c hj hc => ?_⟩
  · exact (List.nodup_cons.1 ((replace_perm hi ha hb).nodup_iff.mpr h.1)).2
  · rw [List.getElem?_set_ne (Ne.symm hj)] at hc
    exact h.dropLast.2 j c hc

theorem dequeue_all {q : PQ α} {ys : List α} (h : Full q ys) (hl : ys.length ≤ 2 ^ 60) :
    (ys = [] ∧ Returns (dequeue cmp q) (none, q)) ∨
    ∃ v q' ys', ys[0]? = some v ∧ Returns (dequeue cmp q) (some v, q') ∧ Full q' ys' ∧ (v :: ys').Perm ys ∧
      (Preorder cmp → Heap cmp ys → Heap cmp ys') ∧ (Loc ys q.trace → Loc ys' q'.trace) := by
  have hn := h.count
  unfold dequeue
  by_cases h0 : q.capacity = 0
  · rw [if_pos h0]
    exact Or.inl ⟨List.eq_nil_of_length_eq_zero (by omega), by simp⟩
  · right
    have hv : ys[0]? = some (ys[0]'(by omega)) := List.getElem?_eq_getElem _
    generalize ys[0]'(by omega) = v at hv
    rw [if_neg h0]
    by_cases h1 : q.capacity = 1
    · rw [if_pos h1, liftC_bind (h.get hv)]
      have hd : ys.dropLast = [] := List.eq_nil_of_length_eq_zero (by simp; omega)
      have hys : ys = [v] := by
        obtain ⟨x, rfl⟩ := List.length_eq_one_iff.1 (by omega : ys.length = 1)
        simpa using hv
      have := h.dropLast
      rw [show ys.length - 1 = 0 by omega, hd] at this
      refine ⟨v, _, [], hv, (returns_pure _ _).mpr rfl, this, by rw [hys], fun _ _ => ?_, fun _ => ⟨by simp, by simp⟩⟩
      intro i a b _ ha _; simp at ha
    · rw [if_neg h1, liftC_bind (h.get hv)]
      have ho : ys[ys.length - 1]? = some (ys[ys.length - 1]'(by omega)) := List.getElem?_eq_getElem _
      generalize ys[ys.length - 1]'(by omega) = o at ho
      rw [hn, liftC_bind (h.get ho)]
      obtain ⟨q', ys', g1, g2, g3, g4, g5, g6⟩ := lower_all (cmp := cmp) (h.shrink (i := 0) (by omega) o) (by simp; omega)
      rw [returns_bind g1]
      refine ⟨v, q', ys', hv, by simp, g2, (g3.cons v).trans (replace_perm (by omega) hv ho), fun hc hh => ?_, fun hx => ?_⟩
      · exact g5 hc (but_of_heap hc hh.dropLast 0 o) (by intro a b h0; omega)
      · exact g6 (hx.shrink (by omega) hv ho)

theorem pop_all {q : PQ α} {ys : List α} (h : Full q ys) :
    (ys = [] ∧ pop q = .ok (none, q)) ∨
    ∃ v q', pop q = .ok (some v, q') ∧ ys[ys.length - 1]? = some v ∧ Full q' ys.dropLast ∧ (v :: ys.dropLast).Perm ys ∧ q'.trace = q.trace := by
  have hn := h.count
  unfold pop
  by_cases h0 : q.capacity = 0
  · left
    refine ⟨List.eq_nil_of_length_eq_zero (by omega), ?_⟩
    rw [if_pos (by simp [empty, size, h0])]
  · right
    have ho : ys[ys.length - 1]? = some (ys[ys.length - 1]'(by omega)) := List.getElem?_eq_getElem _
    have hne : ys ≠ [] := by intro e; subst e; simp at hn; omega
    have hd := List.dropLast_concat_getLast hne
    rw [List.getLast_eq_getElem] at hd
    generalize ys[ys.length - 1]'(by omega) = o at ho hd
    rw [if_neg (by simp [empty, size, h0]), hn, h.get ho]
    refine ⟨o, _, rfl, ho, h.dropLast, ?_, rfl⟩
    conv => rhs; rw [← hd]
    exact (List.perm_append_singleton o _).symm

theorem peek_all {q : PQ α} {ys : List α} (h : Full q ys) : peek q = .ok ys[0]? := by
  have hn := h.count
  unfold peek
  by_cases h0 : q.capacity = 0
  · have : ys = [] := List.eq_nil_of_length_eq_zero (by omega)
    rw [if_pos (by simp [empty, size, h0]), this]; rfl
  · have hv : ys[0]? = some (ys[0]'(by omega)) := List.getElem?_eq_getElem _
    rw [if_neg (by simp [empty, size, h0]), h.get hv, hv]

/-- `raise` does not look at the number of elements. -/
theorem raise_capacity (c : Nat) (v : α) : ∀ (slot : Nat) (q q' : PQ α) (s' : Nat), Returns (raise cmp q slot v) (q', s') →
    Returns (raise cmp { q with capacity := c } slot v) ({ q' with capacity := c }, s') := by
  intro slot
  induction slot using Nat.strongRecOn with
  | _ slot ih =>
    intro q q' s' h
    rw [raise] at h ⊢
    by_cases h0 : slot = 0
    · rw [if_pos h0] at h ⊢
      rw [returns_pure, Prod.mk.injEq] at h ⊢
      obtain ⟨rfl, rfl⟩ := h; exact ⟨rfl, rfl⟩
    · rw [if_neg h0] at h ⊢
      have e : get { q with capacity := c } ((slot - 1) / 2) = get q ((slot - 1) / 2) := rfl
      rw [e]
      cases hg : get q ((slot - 1) / 2) with
      | error x =>
        rw [hg] at h
        exact absurd h (by intro hh; cases hh)
      | ok p =>
        rw [hg] at h
        rw [liftC_bind rfl] at h ⊢
        by_cases hcmp : cmp v p ≥ 0
        · rw [if_pos hcmp] at h ⊢
          rw [returns_pure, Prod.mk.injEq] at h ⊢
          obtain ⟨rfl, rfl⟩ := h; exact ⟨rfl, rfl⟩
        · rw [if_neg hcmp] at h ⊢
          by_cases hlt : slot < q.storage.length
          · have a1 : assign q slot p = .ok { q with storage := q.storage.set slot (some p), trace := (p, slot) :: q.trace } := by
              simp [assign, hlt]
            have a2 : assign { q with capacity := c } slot p =
                .ok { q with capacity := c, storage := q.storage.set slot (some p), trace := (p, slot) :: q.trace } := by
              simp [assign, hlt]
            rw [liftC_bind a1] at h
            rw [liftC_bind a2]
            exact ih _ (by omega) _ _ _ h
          · have a1 : assign q slot p = .error .ub := by simp [assign, hlt]
            rw [a1] at h
            exact absurd h (by intro hh; cases hh)

theorem remove_all {q : PQ α} {ys : List α} (h : Full q ys) (hl : ys.length ≤ 2 ^ 60) {slot : Nat} {v : α} (hv : ys[slot]? = some v) :
    ∃ q' ys', Returns (remove cmp q slot) (v, q') ∧ Full q' ys' ∧ ys'.length + 1 = ys.length ∧
      (slot + 1 < ys.length ∨ (Preorder cmp ∧ Heap cmp ys) → (v :: ys').Perm ys) ∧ (Preorder cmp → Heap cmp ys → Heap cmp ys') ∧
      (slot + 1 < ys.length ∨ (Preorder cmp ∧ Heap cmp ys) → Loc ys q.trace → Loc ys' q'.trace) := by
  have hn := h.count
  have hs := lt_of_get hv
  have ho : ys[ys.length - 1]? = some (ys[ys.length - 1]'(by omega)) := List.getElem?_eq_getElem _
  generalize ys[ys.length - 1]'(by omega) = o at ho
  have hw : wrap (ys.length + (2 ^ 64 - 1)) = ys.length - 1 := by unfold wrap; omega
  unfold remove
  simp only [hn, hw]
  rw [liftC_bind (h.get hv), liftC_bind (h.get ho)]
  by_cases hlast : slot + 1 < ys.length
  · obtain ⟨q1, s1, ys1, g1, g2, g3, g4, g5, g6⟩ := raise_all (cmp := cmp) (h.shrink hlast o)
    have hlen1 := g3.length_eq
    rw [List.length_set, List.length_dropLast] at hlen1
    obtain ⟨q2, ys2, k1, k2, k3, k4, k5, k6⟩ := lower_all (cmp := cmp) g2 (by omega)
    rw [returns_bind g1, returns_bind k1]
    have hp : (v :: ys2).Perm ys := (((k3.trans g3).cons v)).trans (replace_perm hlast hv ho)
    refine ⟨q2, ys2, by simp, k2, ?_, fun _ => hp, fun hc hh => ?_, fun _ hx => k6 (g6 (hx.shrink hlast hv ho))⟩
    · have := hp.length_eq; simpa using this
    · obtain ⟨m1, m2, -⟩ := g5 hc (but_of_heap hc hh.dropLast slot o)
      exact k5 hc m1 m2
  · have hse : slot = ys.length - 1 := by omega
    have hov : o = v := by rw [← hse, hv, Option.some.injEq] at ho; exact ho.symm
    subst hov
    have hat : At q ys slot o := ⟨h.toSized, h.count, hv, fun i hi _ => h.slots i hi⟩
    obtain ⟨q1, s1, ys1, g1, g2, g3, g4, g5, -⟩ := raise_rule (cmp := cmp) (v := o)
      (fun zs s tr => (Preorder cmp → Heap cmp ys → zs = ys ∧ s = slot ∧ tr = q.trace) ∧ (s = slot → zs = ys ∧ tr = q.trace) ∧ s ≤ slot)
      (by
        intro zs s tr p h0 h1 h2 h3 ⟨hA, hB, hC⟩
        refine ⟨fun hc hh => ?_, fun e => by omega, by omega⟩
        obtain ⟨rfl, rfl, rfl⟩ := hA hc hh
        have := hh s p o h0 h2 h1
        have := hc.symm o p
        omega)
      slot q ys hat ⟨fun _ _ => ⟨rfl, rfl, rfl⟩, fun _ => ⟨rfl, rfl⟩, Nat.le_refl _⟩
    obtain ⟨gA, gB, gC⟩ := g3
    rw [returns_bind (raise_capacity (ys.length - 1) o slot q q1 s1 g1)]
    by_cases hmove : s1 = slot
    · obtain ⟨rfl, ht⟩ := gB hmove
      have hf1 : Full { q1 with storage := q1.storage.set s1 (some o), trace := (o, s1) :: q1.trace } ys1 := g2.fill
      have hlow : Returns (lower cmp { q1 with capacity := ys1.length - 1 } s1 o)
          { q1 with capacity := ys1.length - 1, storage := q1.storage.set s1 (some o), trace := (o, s1) :: q1.trace } := by
        rw [lower]
        have e1 : wrap (s1 * 2 + 1) = 2 * s1 + 1 := by rw [wrap_of_lt (by omega)]; omega
        simp only [e1]
        rw [if_pos (by omega), returns_liftC]
        have := g2.lt
        simp [assign, this]
      rw [returns_bind hlow]
      have hp : (o :: ys1.dropLast).Perm ys1 := by
        have hne : ys1 ≠ [] := by intro e; subst e; simp at hs
        have hd := List.dropLast_concat_getLast hne
        rw [List.getLast_eq_getElem] at hd
        rw [List.getElem?_eq_getElem (by omega), Option.some.injEq] at ho
        rw [ho] at hd
        conv => rhs; rw [← hd]
        exact (List.perm_append_singleton o _).symm
      refine ⟨_, ys1.dropLast, (returns_pure _ _).mpr rfl, hf1.dropLast, ?_, fun _ => hp, fun _ hh => hh.dropLast, fun _ hx => ?_⟩
      · simp; omega
      · have hd := hx.dropLast
        refine ⟨hd.1, fun i a ha => ?_⟩
        simp only [ht]
        refine located_cons_ne (hd.2 i a ha) ?_
        rintro rfl
        exact (List.nodup_cons.1 (hp.nodup_iff.mpr hx.1)).1 (List.mem_of_getElem? ha)
    · have hlen := g4.length_eq
      have hat1 : At { q1 with capacity := ys.length - 1 } ys1.dropLast s1 o := by
        have hcap := g2.cap
        have hcnt := g2.count
        refine ⟨⟨g2.len, by simp only; omega⟩, by simp; omega, ?_, fun i hi hne => ?_⟩
        · rw [List.getElem?_dropLast, if_pos (by omega)]; exact g2.hole
        · rw [List.length_dropLast] at hi
          rw [List.getElem?_dropLast, if_pos (by omega)]
          exact g2.slots i (by omega) hne
      obtain ⟨q2, ys2, k1, k2, k3, k4, k5, k6⟩ := lower_all (cmp := cmp) hat1 (by simp; omega)
      rw [returns_bind k1]
      have hlen2 := k3.length_eq
      rw [List.length_dropLast] at hlen2
      refine ⟨q2, ys2, by simp, k2, by omega, ?_, ?_, ?_⟩
      · rintro (hx | ⟨hc, hh⟩)
        · omega
        · exact absurd (gA hc hh).2.1 hmove
      · intro hc hh; exact absurd (gA hc hh).2.1 hmove
      · rintro (hx | ⟨hc, hh⟩)
        · omega
        · exact absurd (gA hc hh).2.1 hmove

theorem make_full : Full (make : PQ α) [] := ⟨⟨rfl, Nat.le_refl _⟩, rfl, fun i hi => by simp at hi⟩

end Verif.Prioq
