import Verif.Spec.Cost
import Verif.Proofs.Prioq
import Verif.Proofs.AvlSim
import Verif.Proofs.HashSim

/-! Costs of the priority queue, the AVL tree and the hash table. -/

set_option autoImplicit false

namespace Verif
open Verif.Spec.Cost

section
variable {α β γ : Type} {cmp : α → α → Int}

theorem Asks.const (x : β) (n : Nat) : Asks (fun _ : α → α → Int => x) cmp n := ⟨[], by simp, by simp⟩

theorem Asks.mono {f : (α → α → Int) → β} {n k : Nat} (h : Asks f cmp n) (hk : n ≤ k) : Asks f cmp k := by
  obtain ⟨ps, h1, h2⟩ := h
  exact ⟨ps, h1.trans hk, h2⟩

theorem Asks.congr {f g : (α → α → Int) → β} {n : Nat} (h : ∀ c, f c = g c) (hg : Asks g cmp n) : Asks f cmp n := by
  rw [funext h]; exact hg

theorem returns_bind_inv {x : D α} {f : α → D β} {b : β} (h : Returns (x >>= f) b) : ∃ a, Returns x a ∧ Returns (f a) b := by
  rcases e : x.run with _ | (er | a)
  · have : x = (none : Option (Except Err α)) := e
    rw [this] at h; cases h
  · have : x = (some (.error er) : Option (Except Err α)) := e
    rw [this] at h; cases h
  · have hx : Returns x a := e
    rw [returns_bind hx] at h
    exact ⟨a, hx, h⟩

/-- Ask about one pair. -/
theorem Asks.step {f g : (α → α → Int) → β} {n : Nat} (a b : α) (h : ∀ c, c a b = cmp a b → f c = g c) (hg : Asks g cmp n) :
    Asks f cmp (n + 1) := by
  obtain ⟨ps, h1, h2⟩ := hg
  refine ⟨(a, b) :: ps, by simp; omega, fun c hc => ?_⟩
  rw [h c (hc (a, b) (by simp)), h2 c (fun p hp => hc p (by simp [hp])), ← h cmp rfl]

theorem Asks.map {f : (α → α → Int) → β} {n : Nat} (g : β → γ) (h : Asks f cmp n) : Asks (fun c => g (f c)) cmp n := by
  obtain ⟨ps, h1, h2⟩ := h
  exact ⟨ps, h1, fun c hc => by dsimp only; rw [h2 c hc]⟩

theorem Asks.bind {f : (α → α → Int) → D β} {g : (α → α → Int) → β → D γ} {n k : Nat} (hf : Asks f cmp n)
    (hg : ∀ x, Returns (f cmp) x → Asks (fun c => g c x) cmp k) : Asks (fun c => f c >>= g c) cmp (n + k) := by
  obtain ⟨ps, h1, h2⟩ := hf
  rcases e : (f cmp).run with _ | (er | x)
  · refine ⟨ps, by omega, fun c hc => ?_⟩
    dsimp only
    rw [h2 c hc]
    have : f cmp = (none : Option (Except Err β)) := e
    rw [this]; rfl
  · refine ⟨ps, by omega, fun c hc => ?_⟩
    dsimp only
    rw [h2 c hc]
    have : f cmp = (some (.error er) : Option (Except Err β)) := e
    rw [this]; rfl
  · obtain ⟨qs, k1, k2⟩ := hg x e
    refine ⟨ps ++ qs, by simp; omega, fun c hc => ?_⟩
    have hx : Returns (f cmp) x := e
    dsimp only
    rw [h2 c fun p hp => hc p (by simp [hp]), returns_bind hx, returns_bind hx]
    exact k2 c fun p hp => hc p (by simp [hp])

end

namespace Prioq
variable {α : Type} {cmp : α → α → Int}

theorem log_parent {slot : Nat} (h : 0 < slot) : Nat.log 2 ((slot - 1) / 2 + 1) + 1 = Nat.log 2 (slot + 1) := by
  have e : (slot - 1) / 2 + 1 = (slot + 1) / 2 := by omega
  rw [e, Nat.log_div_base]
  have : 0 < Nat.log 2 (slot + 1) := Nat.log_pos (by omega) (by omega)
  omega

theorem log_child {slot br : Nat} (h : br = 2 * slot + 1 ∨ br = 2 * slot + 2) : Nat.log 2 (br + 1) = Nat.log 2 (slot + 1) + 1 := by
  have hb : (br - 1) / 2 = slot := by omega
  rw [← log_parent (slot := br) (by omega), hb]

theorem raise_asks (v : α) : ∀ (slot : Nat) (q : PQ α), Asks (fun c => raise c q slot v) cmp (Nat.log 2 (slot + 1)) := by
  intro slot
  induction slot using Nat.strongRecOn with
  | _ slot ih =>
    intro q
    by_cases h0 : slot = 0
    · refine Asks.congr (g := fun _ => pure (q, slot)) (fun c => ?_) (Asks.const _ _)
      rw [raise, if_pos h0]
    · rw [← log_parent (Nat.pos_of_ne_zero h0)]
      cases hg : get q ((slot - 1) / 2) with
      | error e =>
        refine (Asks.congr (g := fun _ => liftC (.error e) >>= fun x => x) (fun c => ?_) (Asks.const _ _))
        rw [raise, if_neg h0, hg]; rfl
      | ok p =>
        refine Asks.step v p (g := fun c => if cmp v p ≥ 0 then pure (q, slot) else
          liftC (assign q slot p) >>= fun q => raise c q ((slot - 1) / 2) v) (fun c hc => ?_) ?_
        · rw [raise, if_neg h0, liftC_bind hg, hc]
        · by_cases hle : cmp v p ≥ 0
          · simp only [if_pos hle]; exact Asks.const _ _
          · simp only [if_neg hle]
            have := Asks.bind (cmp := cmp) (f := fun _ => liftC (assign q slot p)) (g := fun c q => raise c q ((slot - 1) / 2) v) (n := 0)
              (Asks.const _ _) (fun q' _ => ih ((slot - 1) / 2) (by omega) q')
            simpa using this

theorem assign_trace {q q' : PQ α} {slot : Nat} {v : α} (h : assign q slot v = .ok q') :
    q'.trace.length = q.trace.length + 1 ∧ q'.capacity = q.capacity := by
  unfold assign at h
  split at h
  · injection h with h; subst h; simp
  · cases h

theorem raise_trace (v : α) : ∀ (slot : Nat) (q q' : PQ α) (s' : Nat), Returns (raise cmp q slot v) (q', s') →
    q'.trace.length + Nat.log 2 (s' + 1) = q.trace.length + Nat.log 2 (slot + 1) ∧ q'.capacity = q.capacity := by
  intro slot
  induction slot using Nat.strongRecOn with
  | _ slot ih =>
    intro q q' s' h
    rw [raise] at h
    by_cases h0 : slot = 0
    · rw [if_pos h0] at h
      simp only [returns_pure, Prod.mk.injEq] at h
      obtain ⟨rfl, rfl⟩ := h
      simp
    · rw [if_neg h0] at h
      cases hg : get q ((slot - 1) / 2) with
      | error e => rw [hg] at h; cases h
      | ok p =>
        rw [liftC_bind hg] at h
        by_cases hle : cmp v p ≥ 0
        · rw [if_pos hle] at h
          simp only [returns_pure, Prod.mk.injEq] at h
          obtain ⟨rfl, rfl⟩ := h
          simp
        · rw [if_neg hle] at h
          cases ha : assign q slot p with
          | error e => rw [ha] at h; cases h
          | ok q1 =>
            rw [liftC_bind ha] at h
            obtain ⟨h1, h2⟩ := ih _ (by omega) _ _ _ h
            obtain ⟨h3, h4⟩ := assign_trace ha
            have := log_parent (Nat.pos_of_ne_zero h0)
            exact ⟨by omega, by rw [h2, h4]⟩

theorem branchOf_cases {q : PQ α} {l r b : Nat} (h : branchOf cmp q l r = .ok b) (hl : l < q.capacity) : b < q.capacity ∧ (b = l ∨ b = r) := by
  unfold branchOf at h
  split at h
  · cases h; exact ⟨hl, Or.inl rfl⟩
  · rename_i hr
    split at h
    · cases h
    · split at h
      · cases h
      · injection h with h
        subst h
        split
        · exact ⟨hl, Or.inl rfl⟩
        · exact ⟨by omega, Or.inr rfl⟩

theorem branchOf_asks (q : PQ α) (l r : Nat) : Asks (fun c => branchOf c q l r) cmp 1 := by
  unfold branchOf
  split
  · exact Asks.const _ _
  · cases get q l with
    | error e => exact Asks.const _ _
    | ok x => cases get q r with
      | error e => exact Asks.const _ _
      | ok y =>
        exact Asks.step x y (g := fun _ => .ok (if cmp x y < 0 then l else r)) (fun c hc => by simp only [hc]) (Asks.const _ 0)

theorem lower_asks (v : α) : ∀ (k : Nat) (slot : Nat) (q : PQ α), q.capacity - slot = k → q.capacity ≤ 2 ^ 60 → slot ≤ 2 ^ 60 →
    Asks (fun c => lower c q slot v) cmp (2 * (Nat.log 2 q.capacity - Nat.log 2 (slot + 1))) := by
  intro k
  induction k using Nat.strongRecOn with
  | _ k ih =>
    intro slot q hk hc hs
    have w1 : wrap (slot * 2 + 1) = slot * 2 + 1 := Nat.mod_eq_of_lt (by omega)
    have w2 : wrap (slot * 2 + 1 + 1) = slot * 2 + 2 := Nat.mod_eq_of_lt (by omega)
    by_cases hl : slot * 2 + 1 ≥ q.capacity
    · refine Asks.congr (g := fun _ => liftC (assign q slot v)) (fun c => ?_) (Asks.const _ _)
      rw [lower, w1, if_pos hl]
    · have hd : Nat.log 2 (slot + 1) + 1 ≤ Nat.log 2 q.capacity := by
        rw [← log_child (slot := slot) (br := 2 * slot + 1) (Or.inl rfl)]
        exact Nat.log_mono_right (by omega)
      have e : 2 * (Nat.log 2 q.capacity - Nat.log 2 (slot + 1)) =
          1 + (1 + 2 * (Nat.log 2 q.capacity - (Nat.log 2 (slot + 1) + 1))) := by omega
      rw [e]
      refine Asks.congr (g := fun c => liftC (branchOf c q (slot * 2 + 1) (slot * 2 + 2)) >>= fun branch =>
        liftC (get q branch) >>= fun b => if c v b ≤ 0 then liftC (assign q slot v) else
          liftC (assign q slot b) >>= fun q => lower c q branch v) (fun c => ?_) ?_
      · rw [lower, w1, if_neg hl, w2]
      · refine Asks.bind (Asks.map (fun x : C Nat => liftC x) (branchOf_asks q _ _)) fun br hbr => ?_
        rw [returns_liftC] at hbr
        obtain ⟨hb1, hb2⟩ := branchOf_cases hbr (by omega)
        cases hg : get q br with
        | error er => exact Asks.congr (g := fun _ => liftC (.error er) >>= fun x : D (PQ α) => x) (fun c => rfl) (Asks.const _ _)
        | ok b =>
          rw [Nat.add_comm 1]
          refine Asks.step v b (g := fun c => if cmp v b ≤ 0 then liftC (assign q slot v) else
            liftC (assign q slot b) >>= fun q => lower c q br v) (fun c hcv => ?_) ?_
          · show (liftC (.ok b) >>= fun b => _) = _
            rw [liftC_bind rfl, hcv]
          · by_cases hle : cmp v b ≤ 0
            · simp only [if_pos hle]; exact Asks.const _ _
            · simp only [if_neg hle]
              have := Asks.bind (cmp := cmp) (f := fun _ => liftC (assign q slot b)) (g := fun c q => lower c q br v) (n := 0)
                (k := 2 * (Nat.log 2 q.capacity - (Nat.log 2 (slot + 1) + 1)))
                (Asks.const _ _) (fun q' hq' => by
                  rw [returns_liftC] at hq'
                  have hcap := (assign_trace hq').2
                  have := ih (q'.capacity - br) (by rw [hcap]; omega) br q' rfl (by rw [hcap]; exact hc) (by omega)
                  rw [hcap, log_child (slot := slot) (by omega)] at this
                  exact this)
              simpa using this

theorem lower_trace (v : α) : ∀ (k : Nat) (slot : Nat) (q q' : PQ α), q.capacity - slot = k → q.capacity ≤ 2 ^ 60 → slot ≤ 2 ^ 60 →
    Returns (lower cmp q slot v) q' → q'.trace.length ≤ q.trace.length + (Nat.log 2 q.capacity - Nat.log 2 (slot + 1)) + 1 := by
  intro k
  induction k using Nat.strongRecOn with
  | _ k ih =>
    intro slot q q' hk hc hs h
    have w1 : wrap (slot * 2 + 1) = slot * 2 + 1 := Nat.mod_eq_of_lt (by omega)
    have w2 : wrap (slot * 2 + 1 + 1) = slot * 2 + 2 := Nat.mod_eq_of_lt (by omega)
    rw [lower, w1, w2] at h
    by_cases hl : slot * 2 + 1 ≥ q.capacity
    · rw [if_pos hl, returns_liftC] at h
      have := (assign_trace h).1
      omega
    · rw [if_neg hl] at h
      have hd : Nat.log 2 (slot + 1) + 1 ≤ Nat.log 2 q.capacity := by
        rw [← log_child (slot := slot) (br := 2 * slot + 1) (Or.inl rfl)]
        exact Nat.log_mono_right (by omega)
      cases hb : branchOf cmp q (slot * 2 + 1) (slot * 2 + 2) with
      | error e => rw [hb] at h; cases h
      | ok br =>
        rw [liftC_bind hb] at h
        obtain ⟨hb1, hb2⟩ := branchOf_cases hb (by omega)
        cases hg : get q br with
        | error e => rw [hg] at h; cases h
        | ok b =>
          rw [liftC_bind hg] at h
          by_cases hle : cmp v b ≤ 0
          · rw [if_pos hle, returns_liftC] at h
            have := (assign_trace h).1
            omega
          · rw [if_neg hle] at h
            cases ha : assign q slot b with
            | error e => rw [ha] at h; cases h
            | ok q1 =>
              rw [liftC_bind ha] at h
              obtain ⟨h3, h4⟩ := assign_trace ha
              have := ih (q1.capacity - br) (by rw [h4]; omega) br q1 q' rfl (by rw [h4]; exact hc) (by omega) h
              rw [h4, log_child (slot := slot) (by omega)] at this
              omega

end Prioq

theorem run_bind_eq {α β : Type} {x : M α} {f : α → M β} {m m' : Mem} {a : α} (h : Run x m a m') : (x >>= f) m = f a m' := by
  have : (x >>= f) m = (x m >>= fun p => f p.1 p.2) := rfl
  rw [this, returns_bind h]

/-- What follows does not ask. -/
theorem Asks.thenM {α β : Type} {cmp : Nat → Nat → Int} {f : (Nat → Nat → Int) → M α} {n : Nat} {m : Mem} (g : α → M β)
    (h : Asks (fun c => f c m) cmp n) : Asks (fun c => (f c >>= g) m) cmp n :=
  Asks.map (fun x : D (α × Mem) => x >>= fun p => g p.1 p.2) h

namespace Avl
open Verif.Spec.Avl T
variable [Ptrs] {cmp : Nat → Nat → Int} {m : Mem} {tree n : Nat}

omit [Ptrs] in
theorem run_key {e : AElem} {a : Nat} (h0 : a ≠ 0) (h : m.get a = some (.aelem e)) : Run (key a) m e.key m :=
  Run.bind (run_readAE h0 h) (Run.pure _ _)
omit [Ptrs] in
theorem run_left {e : AElem} {a : Nat} (h0 : a ≠ 0) (h : m.get a = some (.aelem e)) : Run (left a) m e.left m :=
  Run.bind (run_readAE h0 h) (Run.pure _ _)
omit [Ptrs] in
theorem run_right {e : AElem} {a : Nat} (h0 : a ≠ 0) (h : m.get a = some (.aelem e)) : Run (right a) m e.right m :=
  Run.bind (run_readAE h0 h) (Run.pure _ _)

omit [Ptrs] in
/-- A search down the tree: one question per level. -/
theorem down_asks {β : Type} (k : Nat) (loop : (Nat → Nat → Int) → Nat → β → M Nat) (stop : β → M Nat) (hstop : ∀ c x, loop c 0 x = stop x)
    (hloop : ∀ i b l r p x, Rep m p (node i b l r) → (∀ c, c k i.key = cmp k i.key → loop c i.elem x m = (pure i.elem : M Nat) m) ∨
      (∃ y, ∀ c, c k i.key = cmp k i.key → loop c i.elem x m = loop c l.ptr y m) ∨
      (∃ y, ∀ c, c k i.key = cmp k i.key → loop c i.elem x m = loop c r.ptr y m)) :
    ∀ (t : T) (p : Nat) (x : β), Rep m p t → Asks (fun c => loop c t.ptr x m) cmp t.height := by
  intro t
  induction t with
  | nil =>
    intro p x _
    exact Asks.congr (g := fun _ => stop x m) (fun c => by rw [ptr_nil, hstop]) (Asks.const _ _)
  | node i b l r ihl ihr =>
    intro p x h
    have hh : (node i b l r).height = max l.height r.height + 1 := by simp [height]
    rw [hh]
    rcases hloop i b l r p x h with h1 | ⟨y, h1⟩ | ⟨y, h1⟩
    · exact Asks.step k i.key h1 (Asks.const _ _)
    · exact Asks.step k i.key h1 (Asks.mono (ihl _ y h.2.2.1) (by omega))
    · exact Asks.step k i.key h1 (Asks.mono (ihr _ y h.2.2.2) (by omega))

omit [Ptrs] in
theorem getLoop_asks (k : Nat) (t : T) (p : Nat) (h : Rep m p t) : Asks (fun c => getLoop c k t.ptr m) cmp t.height := by
  refine down_asks k (fun c e (_ : Unit) => getLoop c k e) (fun _ => pure 0) (fun c x => by rw [getLoop, if_neg (by simp)]) ?_ t p () h
  rintro i b l r p x ⟨h0, h1, h2, h3⟩
  by_cases hc : cmp k i.key = 0
  · refine Or.inl fun c e => ?_
    rw [getLoop, if_pos h0, run_bind_eq (run_key h0 h1)]
    dsimp only
    rw [e, if_pos hc]
  by_cases hc2 : cmp k i.key > 0
  · refine Or.inr (Or.inr ⟨(), fun c e => ?_⟩)
    rw [getLoop, if_pos h0, run_bind_eq (run_key h0 h1)]
    dsimp only
    rw [e, if_neg hc, if_pos hc2, run_bind_eq (run_right h0 h1)]
  · refine Or.inr (Or.inl ⟨(), fun c e => ?_⟩)
    rw [getLoop, if_pos h0, run_bind_eq (run_key h0 h1)]
    dsimp only
    rw [e, if_neg hc, if_neg hc2, run_bind_eq (run_left h0 h1)]

omit [Ptrs] in
theorem beforeLoop_asks (k : Nat) (t : T) (p x : Nat) (h : Rep m p t) : Asks (fun c => beforeLoop c k t.ptr x m) cmp t.height := by
  refine down_asks k (fun c e x => beforeLoop c k e x) (fun x => pure x) (fun c x => by rw [beforeLoop, if_neg (by simp)]) ?_ t p x h
  rintro i b l r p x ⟨h0, h1, h2, h3⟩
  by_cases hc : cmp k i.key ≤ 0
  · refine Or.inr (Or.inl ⟨x, fun c e => ?_⟩)
    rw [beforeLoop, if_pos h0, run_bind_eq (run_key h0 h1)]
    dsimp only
    rw [e, if_pos hc, run_bind_eq (run_left h0 h1)]
  · refine Or.inr (Or.inr ⟨i.elem, fun c e => ?_⟩)
    rw [beforeLoop, if_pos h0, run_bind_eq (run_key h0 h1)]
    dsimp only
    rw [e, if_neg hc, run_bind_eq (run_right h0 h1)]

omit [Ptrs] in
theorem onOrBeforeLoop_asks (k : Nat) (t : T) (p x : Nat) (h : Rep m p t) : Asks (fun c => onOrBeforeLoop c k t.ptr x m) cmp t.height := by
  refine down_asks k (fun c e x => onOrBeforeLoop c k e x) (fun x => pure x) (fun c x => by rw [onOrBeforeLoop, if_neg (by simp)]) ?_ t p x h
  rintro i b l r p x ⟨h0, h1, h2, h3⟩
  by_cases hc : cmp k i.key < 0
  · refine Or.inr (Or.inl ⟨x, fun c e => ?_⟩)
    rw [onOrBeforeLoop, if_pos h0, run_bind_eq (run_key h0 h1)]
    dsimp only
    rw [e, if_pos hc, run_bind_eq (run_left h0 h1)]
  · refine Or.inr (Or.inr ⟨i.elem, fun c e => ?_⟩)
    rw [onOrBeforeLoop, if_pos h0, run_bind_eq (run_key h0 h1)]
    dsimp only
    rw [e, if_neg hc, run_bind_eq (run_right h0 h1)]

omit [Ptrs] in
theorem afterLoop_asks (k : Nat) (t : T) (p x : Nat) (h : Rep m p t) : Asks (fun c => afterLoop c k t.ptr x m) cmp t.height := by
  refine down_asks k (fun c e x => afterLoop c k e x) (fun x => pure x) (fun c x => by rw [afterLoop, if_neg (by simp)]) ?_ t p x h
  rintro i b l r p x ⟨h0, h1, h2, h3⟩
  by_cases hc : cmp k i.key ≥ 0
  · refine Or.inr (Or.inr ⟨x, fun c e => ?_⟩)
    rw [afterLoop, if_pos h0, run_bind_eq (run_key h0 h1)]
    dsimp only
    rw [e, if_pos hc, run_bind_eq (run_right h0 h1)]
  · refine Or.inr (Or.inl ⟨i.elem, fun c e => ?_⟩)
    rw [afterLoop, if_pos h0, run_bind_eq (run_key h0 h1)]
    dsimp only
    rw [e, if_neg hc, run_bind_eq (run_left h0 h1)]

omit [Ptrs] in
theorem onOrAfterLoop_asks (k : Nat) (t : T) (p x : Nat) (h : Rep m p t) : Asks (fun c => onOrAfterLoop c k t.ptr x m) cmp t.height := by
  refine down_asks k (fun c e x => onOrAfterLoop c k e x) (fun x => pure x) (fun c x => by rw [onOrAfterLoop, if_neg (by simp)]) ?_ t p x h
  rintro i b l r p x ⟨h0, h1, h2, h3⟩
  by_cases hc : cmp k i.key > 0
  · refine Or.inr (Or.inr ⟨x, fun c e => ?_⟩)
    rw [onOrAfterLoop, if_pos h0, run_bind_eq (run_key h0 h1)]
    dsimp only
    rw [e, if_pos hc, run_bind_eq (run_right h0 h1)]
  · refine Or.inr (Or.inl ⟨i.elem, fun c e => ?_⟩)
    rw [onOrAfterLoop, if_pos h0, run_bind_eq (run_key h0 h1)]
    dsimp only
    rw [e, if_neg hc, run_bind_eq (run_left h0 h1)]

theorem run_hole {c : Ctx} {p : Nat} (h : Around m tree n c p) : Run (hloc tree c).read m p m := by
  obtain ⟨⟨a, m', r, rfl, rfl⟩⟩ := read_hole (Q := fun a m' => a = p ∧ m' = m) h ⟨rfl, rfl⟩
  exact r

theorem put_asks {x : Item} (hx0 : x.elem ≠ 0) : ∀ (t : T) (c : Ctx), Z m tree n c t → t ≠ nil →
    (∃ q l r b, m.get x.elem = some (.aelem ⟨x.key, x.value, q, l, r, b⟩)) →
    Asks (fun cm => put cm tree (hloc tree c) x.elem m) cmp t.height := by
  intro t
  induction t with
  | nil => intro c _ h; exact absurd rfl h
  | node i b l r ihl ihr =>
    intro c h _ hx
    obtain ⟨h0, h1, hl, hr⟩ := h.sub
    have hx' := hx
    obtain ⟨xq, xl, xr, xb, hx⟩ := hx
    have hh : (node i b l r).height = max l.height r.height + 1 := by simp [height]
    rw [hh]
    have start : ∀ cm : Nat → Nat → Int, put cm tree (hloc tree c) x.elem m =
        (if cm x.key i.key < 0 then putLeft cm tree (hloc tree c) x.elem
        else if cm x.key i.key > 0 then putRight cm tree (hloc tree c) x.elem
        else if i.elem = x.elem then pure (false, 0)
        else do
          setParent x.elem (← parent i.elem)
          setLeft x.elem (← left i.elem)
          setRight x.elem (← right i.elem)
          setBalance x.elem (← balance i.elem)
          substitute tree x.elem i.elem
          adopt (← left x.elem) x.elem
          adopt (← right x.elem) x.elem
          pure (false, i.elem) : M (Bool × Nat)) m := by
      intro cm
      rw [put, run_bind_eq (run_hole h.around), ptr_node, run_bind_eq (run_key hx0 hx), run_bind_eq (run_key h0 h1)]
    by_cases hlt : cmp x.key i.key < 0
    · refine Asks.step x.key i.key (g := fun cm => putLeft cm tree (hloc tree c) x.elem m) (fun cm e => by rw [start, e, if_pos hlt]) ?_
      have step : ∀ cm : Nat → Nat → Int, putLeft cm tree (hloc tree c) x.elem m = (if l.ptr = 0 then do
            setParent x.elem i.elem
            setLeft i.elem x.elem
            incSize tree
            setBalance i.elem ((← balance i.elem) - 1)
            let r ← right i.elem
            pure (r = 0, 0)
          else do
            let (grew, removed) ← put cm tree (.left i.elem) x.elem
            if grew then
              setBalance i.elem ((← balance i.elem) - 1)
              let b ← balance i.elem
              if b = -2 then
                let top ← rotateRight i.elem
                (hloc tree c).write top
                pure (false, removed)
              else if b = -1 then pure (true, removed)
              else pure (false, removed)
            else pure (false, removed) : M (Bool × Nat)) m := by
        intro cm
        rw [putLeft, run_bind_eq (run_hole h.around), ptr_node, run_bind_eq (run_left h0 h1)]
      by_cases hn : l = nil
      · subst hn
        exact Asks.congr (fun cm => by rw [step, if_pos ptr_nil]) (Asks.const _ _)
      · have hne : ¬ l.ptr = 0 := fun e => hn (hl.ptr_eq_zero.1 e)
        refine Asks.congr (fun cm => by rw [step, if_neg hne]) ?_
        exact Asks.thenM _ (Asks.mono (ihl (.l i b r :: c) (Z.up.2 h) hn hx') (by omega))
    · by_cases hgt : cmp x.key i.key > 0
      · refine Asks.step x.key i.key (g := fun cm => putRight cm tree (hloc tree c) x.elem m)
          (fun cm e => by rw [start, e, if_neg hlt, if_pos hgt]) ?_
        have step : ∀ cm : Nat → Nat → Int, putRight cm tree (hloc tree c) x.elem m = (if r.ptr = 0 then do
              setParent x.elem i.elem
              setRight i.elem x.elem
              incSize tree
              setBalance i.elem ((← balance i.elem) + 1)
              let l ← left i.elem
              pure (l = 0, 0)
            else do
              let (grew, removed) ← put cm tree (.right i.elem) x.elem
              if grew then
                setBalance i.elem ((← balance i.elem) + 1)
                let b ← balance i.elem
                if b = 2 then
                  let top ← rotateLeft i.elem
                  (hloc tree c).write top
                  pure (false, removed)
                else if b = 1 then pure (true, removed)
                else pure (false, removed)
              else pure (false, removed) : M (Bool × Nat)) m := by
          intro cm
          rw [putRight, run_bind_eq (run_hole h.around), ptr_node, run_bind_eq (run_right h0 h1)]
        by_cases hn : r = nil
        · subst hn
          exact Asks.congr (fun cm => by rw [step, if_pos ptr_nil]) (Asks.const _ _)
        · have hne : ¬ r.ptr = 0 := fun e => hn (hr.ptr_eq_zero.1 e)
          refine Asks.congr (fun cm => by rw [step, if_neg hne]) ?_
          exact Asks.thenM _ (Asks.mono (ihr (.r i b l :: c) (Z.up.2 h) hn hx') (by omega))
      · exact Asks.step x.key i.key (fun cm e => by rw [start, e, if_neg hlt, if_neg hgt]) (Asks.const _ _)

theorem run_root {t : T} (h : Z m tree n [] t) : Run (root tree) m t.ptr m :=
  Run.bind (run_readA h.around.tree0 h.around.root) (Run.pure _ _)

theorem treePut_asks {A : Alloc} (hA : A.Good) {t : T} (h : Z m tree n [] t) (k v : Nat) :
    Asks (fun c => treePut A c tree k v m) cmp t.height := by
  obtain ⟨⟨a, m1, r, a0, af, ac, ao⟩⟩ := makeElement_spec hA m k v
  have z1 : Z m1 tree n [] t := h.frame ao (by simpa using h.fresh_not af)
  by_cases hn : t = nil
  · subst hn
    exact Asks.congr (fun c => by rw [treePut, run_bind_eq r, run_bind_eq (run_root z1), if_pos ptr_nil]) (Asks.const _ _)
  · have hne : ¬ t.ptr = 0 := fun e => hn (z1.sub.ptr_eq_zero.1 e)
    refine Asks.congr (fun c => by rw [treePut, run_bind_eq r, run_bind_eq (run_root z1), if_neg hne]) ?_
    exact Asks.thenM _ (put_asks (x := ⟨a, k, v⟩) a0 t [] z1 hn ⟨_, _, _, _, ac⟩)

end Avl

namespace Hash
open Verif.Spec.Hash CList
variable [Ptrs] {hash : Nat → Nat} {cmp : Nat → Nat → Int} {m m0 : Mem} {t tb cap sz : Nat} {bs : List Bucket} {det : List Item}

theorem getLoop_asks (h : HMem hash m0 t tb cap sz bs det m) {i l : Nat} (k : Nat) (ys : List Ent) : ∀ xs, bs[i]? = some (l, xs ++ ys) →
    Asks (fun c => getLoop c k (hd (ys.map Ent.pair) 0) m) cmp ys.length := by
  induction ys with
  | nil => intro xs _; exact Asks.congr (g := fun _ => (pure 0 : M Nat) m) (fun c => by rw [getLoop]; simp [hd]) (Asks.const _ _)
  | cons e ys ih =>
    intro xs hi
    have hr := h.rep_split hi
    obtain ⟨q1, q2, -⟩ := h.elem hi (e := e) (by simp)
    rw [List.map_cons, show hd (e.pair :: ys.map Ent.pair) 0 = e.le from rfl, List.length_cons]
    have start : ∀ c : Nat → Nat → Int, getLoop c k e.le m =
        (if c k e.key = 0 then pure e.he else CList.next e.le >>= fun le => getLoop c k le : M Nat) m := by
      intro c
      rw [getLoop, if_neg hr.cell.1, run_bind_eq (CList.getValue_spec hr), run_bind_eq (run_readHE q1 q2)]
    by_cases hc : cmp k e.key = 0
    · exact Asks.step k e.key (fun c hk => by rw [start, hk, if_pos hc]) (Asks.const _ _)
    · refine Asks.step k e.key (fun c hk => by rw [start, hk, if_neg hc, run_bind_eq (CList.next_spec hr)]) ?_
      exact ih (xs ++ [e]) (by simpa using hi)

theorem putLoop_asks {A : Alloc} (h : HMem hash m0 t tb cap sz bs det m) {i l : Nat} (k v : Nat) (ys : List Ent) : ∀ xs, bs[i]? = some (l, xs ++ ys) →
    Asks (fun c => putLoop A c t i l k v (hd (ys.map Ent.pair) 0) m) cmp ys.length := by
  induction ys with
  | nil => intro xs _; exact Asks.congr (fun c => by rw [putLoop, if_pos (by simp [hd])]) (Asks.const _ _)
  | cons e ys ih =>
    intro xs hi
    have hr := h.rep_split hi
    obtain ⟨q1, q2, -⟩ := h.elem hi (e := e) (by simp)
    rw [List.map_cons, show hd (e.pair :: ys.map Ent.pair) 0 = e.le from rfl, List.length_cons]
    have start : ∀ c : Nat → Nat → Int, putLoop A c t i l k v e.le m =
        (if c k e.key = 0 then do
          let v' ← getValue e.he
          if v' = v then pure 0
          else
            CList.remove l e.le
            addElement A t i k v
            pure e.he
        else CList.next e.le >>= fun le => putLoop A c t i l k v le : M Nat) m := by
      intro c
      rw [putLoop, if_neg hr.cell.1, run_bind_eq (CList.getValue_spec hr), run_bind_eq (run_readHE q1 q2)]
    by_cases hc : cmp k e.key = 0
    · exact Asks.step k e.key (fun c hk => by rw [start, hk, if_pos hc]) (Asks.const _ _)
    · refine Asks.step k e.key (fun c hk => by rw [start, hk, if_neg hc, run_bind_eq (CList.next_spec hr)]) ?_
      exact ih (xs ++ [e]) (by simpa using hi)

/-- The elements in the bucket of a key. -/
theorem HMem.bucket_count (h : HMem hash m0 t tb cap sz bs det m) {k l : Nat} {es : List Ent} (hi : bs[hash k % cap]? = some (l, es)) :
    es.length ≤ (((ents bs).map Ent.item).filter (fun i => hash i.key % cap = hash k % cap)).length := by
  obtain ⟨hlt, e⟩ := List.getElem?_eq_some_iff.1 hi
  have hb : bs = bs.take (hash k % cap) ++ (l, es) :: bs.drop (hash k % cap + 1) := by
    rw [← e, ← List.drop_eq_getElem_cons hlt, List.take_append_drop]
  have he : ents bs = ents (bs.take (hash k % cap)) ++ (es ++ ents (bs.drop (hash k % cap + 1))) := by
    conv_lhs => rw [hb]
    simp [ents]
  rw [he]
  simp only [List.map_append, List.filter_append, List.length_append]
  have : (es.map Ent.item).filter (fun i => hash i.key % cap = hash k % cap) = es.map Ent.item := by
    rw [List.filter_eq_self]
    intro i hm
    obtain ⟨x, hx, rfl⟩ := List.mem_map.1 hm
    exact decide_eq_true (h.elem hi hx).2.2
  rw [this, List.length_map]
  omega

theorem get_asks (h : HMem hash m0 t tb cap sz bs det m) (k : Nat) :
    Asks (fun c => get hash c t k m) cmp (((ents bs).map Ent.item).filter (fun i => hash i.key % cap = hash k % cap)).length := by
  obtain ⟨l, es, hi⟩ := h.lookup (Nat.mod_lt (hash k) h.pos)
  have start : ∀ c : Nat → Nat → Int, get hash c t k m =
      (if l = 0 then pure 0 else CList.getFirst l >>= fun le => getLoop c k le : M Nat) m := by
    intro c
    rw [get, run_bind_eq (run_readH h.t0 h.head)]
    dsimp only
    rw [if_neg (Nat.pos_iff_ne_zero.1 h.pos), run_bind_eq (bucket_does h hi)]
  by_cases hl : l = 0
  · exact Asks.congr (fun c => by rw [start, if_pos hl]) (Asks.const _ _)
  · refine Asks.congr (fun c => by rw [start, if_neg hl, run_bind_eq (CList.getFirst_spec (h.rep hi hl))]) ?_
    exact Asks.mono (getLoop_asks h k es [] hi) (h.bucket_count hi)

theorem put_asks {A : Alloc} (h : HMem hash m0 t tb cap sz bs det m) (k v : Nat) :
    Asks (fun c => put A hash c t k v m) cmp (((ents bs).map Ent.item).filter (fun i => hash i.key % cap = hash k % cap)).length := by
  obtain ⟨l, es, hi⟩ := h.lookup (Nat.mod_lt (hash k) h.pos)
  have start : ∀ c : Nat → Nat → Int, put A hash c t k v m =
      (if l = 0 then do
        let list ← CList.make A
        setBucket t (hash k % cap) list
        addElement A t (hash k % cap) k v
        incSize t
        pure 0
      else CList.getFirst l >>= fun le => putLoop A c t (hash k % cap) l k v le : M Nat) m := by
    intro c
    rw [put, run_bind_eq (run_readH h.t0 h.head)]
    dsimp only
    rw [if_neg (Nat.pos_iff_ne_zero.1 h.pos), run_bind_eq (bucket_does h hi)]
  by_cases hl : l = 0
  · exact Asks.congr (fun c => by rw [start, if_pos hl]) (Asks.const _ _)
  · refine Asks.congr (fun c => by rw [start, if_neg hl, run_bind_eq (CList.getFirst_spec (h.rep hi hl))]) ?_
    exact Asks.mono (putLoop_asks h k v es [] hi) (h.bucket_count hi)

end Hash
end Verif
