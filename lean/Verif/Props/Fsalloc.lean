import Verif.Model.Fsalloc
import Verif.Base.Tac

/-! Property C66 of `fsalloc.c`. -/

namespace Verif.Fsalloc

variable {σ : Type}

/-- The contract of a reallocator: an allocation either gives NULL and leaves the blocks alone, or gives a new block of the size asked
for, leaving the other blocks alone; size zero on a live block releases it. -/
structure Contract (r : Realloc σ) : Prop where
  alloc : ∀ n w p w', r 0 n w = .ok (p, w') →
    (p = 0 ∧ w'.1 = w.1) ∨ (p ≠ 0 ∧ w.1 p = none ∧ ∃ bs, bs.length = n ∧ w'.1 = fun q => if q = p then some bs else w.1 q)
  free : ∀ ptr w, ptr ≠ 0 → w.1 ptr ≠ none → ∃ p w', r ptr 0 w = .ok (p, w') ∧ w'.1 = fun q => if q = ptr then none else w.1 q

/-- C66. With any reallocator that meets its contract and any `nmemb`, `size` whose product is a `size_t` value, `fscalloc` gives NULL
with the blocks unchanged or a new block of exactly `nmemb * size` zero bytes, all other blocks unchanged, and it asks the installed
reallocator exactly once. -/
theorem fscalloc_zeroed_partial (st : St σ) (hr : Contract st.reallocator) (nmemb size : Nat) (hov : nmemb * size < 2 ^ 64)
    (e : C (Nat × (Heap × σ))) (he : st.reallocator 0 (nmemb * size) st.world = e) :
    (∀ x, e = .error x → fscalloc st nmemb size = .error x) ∧
    (∀ p w, e = .ok (p, w) → ∃ st', fscalloc st nmemb size = .ok (p, st') ∧ st'.world.2 = w.2 ∧
      ((p = 0 ∧ st'.world.1 = st.world.1) ∨ (p ≠ 0 ∧ st.world.1 p = none ∧
        ∀ q, st'.world.1 q = if q = p then some (List.replicate (nmemb * size) 0) else st.world.1 q))) := by
  have hs : size * nmemb % 2 ^ 64 = nmemb * size := by rw [Nat.mul_comm]; exact Nat.mod_eq_of_lt hov
  constructor
  · rintro x rfl
    simp only [fscalloc, hs, fsalloc, call, he]
  · rintro p w rfl
    have hc := hr.alloc _ _ _ _ he
    simp only [fscalloc, hs, fsalloc, call, he]
    rcases hc with ⟨rfl, h1⟩ | ⟨h0, hn, bs, hl, h1⟩
    · refine ⟨{ st with world := w }, by simp, rfl, .inl ⟨rfl, h1⟩⟩
    · rw [if_pos h0]
      simp only [zero, h1, if_true, hl, Nat.le_refl]
      refine ⟨_, rfl, rfl, .inr ⟨h0, hn, ?_⟩⟩
      intro q
      simp only
      by_cases hq : q = p
      · simp [hq, ← hl]
      · simp [hq]

/-- C66. The product is not checked: for `2^63 + 1` members of 2 bytes a block of 2 bytes is requested, and the caller
gets a block far smaller than what was asked for. -/
theorem fscalloc_overflow (st : St σ) (hr : Contract st.reallocator) (p : Nat) (st' : St σ) (hp : p ≠ 0)
    (h : fscalloc st (2 ^ 63 + 1) 2 = .ok (p, st')) :
    st'.world.1 p = some [0, 0] ∧ 2 < (2 ^ 63 + 1) * 2 := by
  refine ⟨?_, by decide⟩
  have hs : 2 * (2 ^ 63 + 1) % 2 ^ 64 = 2 := by decide
  simp only [fscalloc, hs, fsalloc, call] at h
  split at h
  · cases h
  · rename_i obj st1 heq
    split at heq
    · cases heq
    · rename_i obj1 w1 hcall
      simp only [Except.ok.injEq, Prod.mk.injEq] at heq
      obtain ⟨rfl, rfl⟩ := heq
      split at h
      · split at h
        · cases h
        · rename_i hp hz hw
          simp only [Except.ok.injEq, Prod.mk.injEq] at h
          obtain ⟨rfl, rfl⟩ := h
          rcases hr.alloc _ _ _ _ hcall with ⟨h1, _⟩ | ⟨_, _, bs, hl, h1⟩
          · contradiction
          · simp only [zero, h1, if_true, hl, Nat.le_refl] at hw
            obtain rfl := Except.ok.inj hw
            have hd : bs.drop 2 = [] := List.drop_eq_nil_of_le (by omega)
            simp only [if_true, hd]
            rfl
      · rename_i h0
        simp only [Except.ok.injEq, Prod.mk.injEq] at h
        obtain ⟨rfl, _⟩ := h
        exact absurd hp h0

/-- C66. `fsalloc`, `fsrealloc` and `fsfree` of a non-NULL pointer are one call of the reallocator installed last, whatever was
installed before; `fsfree(NULL)` does nothing. -/
theorem fsalloc_uses_installed (st : St σ) (r : Realloc σ) (p n : Nat) :
    getReallocator (setReallocator st r) = r ∧
    (fsalloc (setReallocator st r) n).map (fun x => (x.1, x.2.world)) = r 0 n st.world ∧
    (fsrealloc (setReallocator st r) p n).map (fun x => (x.1, x.2.world)) = r p n st.world ∧
    (p ≠ 0 → (fsfree (setReallocator st r) p).map (fun x => x.world) = (r p 0 st.world).map (fun x => x.2)) ∧
    fsfree st 0 = .ok st := by
  refine ⟨rfl, ?_, ?_, ?_, rfl⟩
  · simp only [fsalloc, call, setReallocator]
    cases r 0 n st.world <;> rfl
  · simp only [fsrealloc, call, setReallocator]
    cases r p n st.world <;> rfl
  · intro hp
    simp only [fsfree, call, setReallocator, if_pos hp]
    cases r p 0 st.world <;> rfl

/-- C66. With any reallocator that meets its contract, freeing what `fsalloc` returned restores the blocks. -/
theorem fsalloc_fsfree (st : St σ) (hr : Contract st.reallocator) (n p : Nat) (st' : St σ) (h : fsalloc st n = .ok (p, st')) :
    ∃ st'', fsfree st' p = .ok st'' ∧ st''.world.1 = st.world.1 := by
  simp only [fsalloc, call] at h
  split at h
  · cases h
  · rename_i q w heq
    simp only [Except.ok.injEq, Prod.mk.injEq] at h
    obtain ⟨rfl, rfl⟩ := h
    rcases hr.alloc _ _ _ _ heq with ⟨rfl, h1⟩ | ⟨h0, hn, bs, _, h1⟩
    · exact ⟨_, rfl, h1⟩
    · obtain ⟨p', w', e, h2⟩ := hr.free q w h0 (by rw [h1]; simp)
      refine ⟨{ st with world := w' }, ?_, ?_⟩
      · simp only [fsfree, if_pos h0, call, e]
      · simp only [h2, h1]
        funext x
        by_cases hx : x = q <;> simp [hx, hn]

/-- C66. The default reallocator never gives NULL for a non-zero size: it stops the program instead. -/
theorem default_reallocator_not_null (libc : Realloc σ) (w : Heap × σ) (n : Nat) (hn : n ≠ 0) (p : Nat) (st' : St σ)
    (h : fsalloc (init libc w) n = .ok (p, st')) : p ≠ 0 := by
  simp only [fsalloc, call, init, naiveRealloc] at h
  intro hp
  subst hp
  cases hl : libc 0 n w with
  | error e => rw [hl] at h; cases h
  | ok x =>
    obtain ⟨q, w'⟩ := x
    rw [hl] at h
    simp only at h
    by_cases hq : q = 0
    · rw [if_pos ⟨hq, hn⟩] at h; cases h
    · rw [if_neg (by tauto)] at h
      simp only [Except.ok.injEq, Prod.mk.injEq] at h
      exact hq h.1

/-- C66. `fs_reallocator_skew` calls the counter installed last with the given number and touches no block; before any is installed
it does nothing at all. -/
theorem skew_forwarded (st : St σ) (c : Counter σ) (n : Int) (libc : Realloc σ) (w : Heap × σ) :
    getCounter (setCounter st c) = c ∧
    (skew (setCounter st c) n).world = (st.world.1, c n st.world.2) ∧ (skew (init libc w) n).world = w := ⟨rfl, rfl, rfl⟩

/-- A reallocator that meets the contract: a bump allocator whose state is the next address. -/
def bump : Realloc Nat := fun ptr size w =>
  if ptr = 0 then
    if w.1 (w.2 + 1) = none then .ok (w.2 + 1, (fun q => if q = w.2 + 1 then some (List.replicate size 170) else w.1 q, w.2 + 1))
    else .ok (0, w)
  else .ok (0, (fun q => if q = ptr then none else w.1 q, w.2))

theorem bump_contract : Contract bump := by
  constructor
  · intro n w p w' h
    simp only [bump, if_true] at h
    split at h
    · rename_i hf
      simp only [Except.ok.injEq, Prod.mk.injEq] at h
      obtain ⟨rfl, rfl⟩ := h
      exact .inr ⟨by omega, hf, _, List.length_replicate, rfl⟩
    · simp only [Except.ok.injEq, Prod.mk.injEq] at h
      obtain ⟨rfl, rfl⟩ := h
      exact .inl ⟨rfl, rfl⟩
  · intro ptr w h0 _
    exact ⟨0, (fun q => if q = ptr then none else w.1 q, w.2), by simp only [bump, if_neg h0], rfl⟩

example : ∃ st', fscalloc (σ := Nat) { world := (fun _ => none, 0), reallocator := bump, counter := fun _ s => s } 3 2 = .ok (1, st') ∧
    st'.world.1 1 = some [0, 0, 0, 0, 0, 0] := by
  refine ⟨_, rfl, ?_⟩
  decide

end Verif.Fsalloc
