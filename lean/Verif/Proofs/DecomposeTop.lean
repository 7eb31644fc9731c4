import Verif.Proofs.SortCC

/-! Proofs about `charstr_unicode_decompose`, continued. -/

namespace Verif.Unicode
open Verif.Utf8 Verif.Spec.Utf8 Verif.Spec.Unicode

/-- One turn of the loop of `charstr_unicode_decompose`. -/
theorem decomposeLoop_nil (u : Ucd) {p : Pos} (h : Input p []) (buf : List UInt8) (q : Nat) (e : Option Nat) :
    decomposeLoop u p buf q e = pure (.ok q, buf) := by
  rw [decomposeLoop]
  rcases input_nil h with h0 | ⟨h0, r, hr⟩
  · rw [if_pos h0]
  · rw [if_neg h0, hr]; simp

theorem decomposeLoop_bad (u : Ucd) {p : Pos} {t : List UInt8} (h : Input p t) (ht : t ≠ []) (hb : ∀ p cp r, Loose p cp → t ≠ p ++ r)
    (buf : List UInt8) (q : Nat) (e : Option Nat) : decomposeLoop u p buf q e = pure (.error .eilseq, buf) := by
  obtain ⟨h0, ⟨c, s, hc, hc0⟩, h3⟩ := input_cons h ht
  rw [decomposeLoop, if_neg h0, hc]
  simp only [if_neg hc0]
  rcases h3 with ⟨hd, _⟩ | ⟨pre, t', cp, q, hd, hl, he, _⟩
  · rw [liftC_bind hd]
  · exact absurd he (hb _ _ _ hl)

theorem decomposeLoop_cons (u : Ucd) {p : Pos} {pre t : List UInt8} {cp : Nat} (h : Input p (pre ++ t)) (hl : Loose pre cp)
    (buf : List UInt8) (q : Nat) (e : Option Nat) : ∃ p', Input p' t ∧ decomposeLoop u p buf q e = (do
      let (q, buf) ← decomposeFully u cp buf q e
      match q with
      | none => pure (.error .eoverflow, buf)
      | some q => decomposeLoop u p' buf q e) := by
  obtain ⟨h0, ⟨c, s, hc, hc0⟩, h3⟩ := input_cons h (by intro h; exact loose_ne_nil hl (List.append_eq_nil_iff.1 h).1)
  rcases h3 with ⟨_, hd⟩ | ⟨pre', t', cp', q', hd, hl', he, hq⟩
  · exact absurd rfl (hd _ _ _ hl)
  · obtain ⟨rfl, rfl, rfl⟩ := loose_unique hl hl' he
    refine ⟨q', hq, ?_⟩
    rw [decomposeLoop, if_neg h0, hc]
    simp only [if_neg hc0]
    rw [liftC_bind hd]
    rfl

theorem decomposeLoop_fits (u : Ucd) {t : List UInt8} {cps : List Nat} {b : Bool} (hs : Scan Loose t cps b) :
    ∀ {p : Pos} {d : List Nat} {buf : List UInt8} {q e : Nat}, Input p t → FullAll u.decomp cps d → (∀ c ∈ d, IsScalar c) →
    q + (encs d).length ≤ e → e ≤ buf.length →
    Returns (decomposeLoop u p buf q (some e)) (if b then .ok (q + (encs d).length) else .error .eilseq, splice buf q (encs d)) := by
  induction hs with
  | nil =>
    intro p d buf q e hp hd hsc hf he
    cases hd
    rw [decomposeLoop_nil u hp]; simp
  | bad h1 h2 =>
    intro p d buf q e hp hd hsc hf he
    cases hd
    rw [decomposeLoop_bad u hp h1 h2]; simp
  | @cons pre cp r cps b hl hs ih =>
    intro p d buf q e hp hd hsc hf he
    cases hd with
    | @cons _ _ x y h1 h2 =>
      obtain ⟨p', hp', heq⟩ := decomposeLoop_cons u hp hl buf q (some e)
      simp only [encs_append, List.length_append] at hf ⊢
      rw [heq, returns_bind (decomposeFully_fits u h1 (fun c hc => hsc c (List.mem_append_left _ hc)) (by omega) he)]
      simp only []
      have := ih (buf := splice buf q (encs x)) (q := q + (encs x).length) (e := e) hp' h2
        (fun c hc => hsc c (List.mem_append_right _ hc)) (by omega) (by rw [splice_length (by omega)]; exact he)
      rw [splice_splice (by omega), Nat.add_assoc] at this
      exact this

theorem decomposeLoop_overflow (u : Ucd) (hm : ∀ cp l, u.decomp cp = some l → ∀ c ∈ l, ¬ IsSyllable c) {t : List UInt8} {cps : List Nat}
    {b : Bool} (hs : Scan Loose t cps b) : ∀ {p : Pos} {d : List Nat} {buf : List UInt8} {q e : Nat}, Input p t → FullAll u.decomp cps d →
    (∀ c ∈ d, IsScalar c) → (∀ c ∈ cps, ¬ IsSyllable c) → q ≤ e → e < q + (encs d).length → e ≤ buf.length →
    ∃ buf', Returns (decomposeLoop u p buf q (some e)) (.error .eoverflow, buf') ∧ Keeps buf q e none buf' := by
  induction hs with
  | nil =>
    intro p d buf q e hp hd hsc hn hq hf he
    cases hd
    simp at hf; omega
  | bad h1 h2 =>
    intro p d buf q e hp hd hsc hn hq hf he
    cases hd
    simp at hf; omega
  | @cons pre cp r cps b hl hs ih =>
    intro p d buf q e hp hd hsc hn hq hf he
    cases hd with
    | @cons _ _ x y h1 h2 =>
      obtain ⟨p', hp', heq⟩ := decomposeLoop_cons u hp hl buf q (some e)
      simp only [encs_append, List.length_append] at hf
      rw [heq]
      have hsx : ∀ c ∈ x, IsScalar c := fun c hc => hsc c (List.mem_append_left _ hc)
      by_cases hfx : q + (encs x).length ≤ e
      · rw [returns_bind (decomposeFully_fits u h1 hsx hfx he)]
        simp only []
        have hk : Keeps buf q e (some (q + (encs x).length)) (splice buf q (encs x)) :=
          splice_keeps hfx he (fun j hj => by simp only [Option.some.injEq] at hj; omega)
        obtain ⟨buf', h3, h4⟩ := ih (buf := splice buf q (encs x)) (q := q + (encs x).length) (e := e) hp' h2
          (fun c hc => hsc c (List.mem_append_right _ hc)) (fun c hc => hn c (by simp [hc])) hfx (by omega) (by rw [hk.length]; exact he)
        exact ⟨buf', h3, hk.trans h4⟩
      · obtain ⟨buf', h3, h4⟩ := decomposeFully_overflow u hm h1 (buf := buf) (hn _ (by simp)) hsx hq (by omega) he
        rw [returns_bind h3]
        exact ⟨buf', by simp, h4⟩

/-- The offset reached, if the loop came to its end. -/
def reached : Except Errno Nat → Option Nat
  | .ok q => some q
  | .error _ => none

theorem decomposeLoop_wrote (u : Ucd) {t : List UInt8} {cps : List Nat} {b : Bool} (hs : Scan Loose t cps b) :
    ∀ {p : Pos} {d : List Nat} {buf : List UInt8} {q e : Nat}, Input p t → FullAll u.decomp cps d → (∀ c ∈ d, IsScalar c) → q ≤ e →
    e ≤ buf.length → ∃ r buf', Returns (decomposeLoop u p buf q (some e)) (r, buf') ∧ Wrote buf q e (reached r) buf' := by
  have triv : ∀ {buf : List UInt8} {q e : Nat}, q ≤ e → e ≤ buf.length → Wrote buf q e (some q) buf := by
    intro buf q e hq he
    have := splice_wrote (buf := buf) (s := q) (e := e) (d := []) (by simp) (by simpa using hq) he
    simpa using this
  induction hs with
  | nil =>
    intro p d buf q e hp hd hsc hq he
    rw [decomposeLoop_nil u hp]
    exact ⟨.ok q, buf, by rw [returns_pure], triv hq he⟩
  | bad h1 h2 =>
    intro p d buf q e hp hd hsc hq he
    rw [decomposeLoop_bad u hp h1 h2]
    exact ⟨.error .eilseq, buf, by rw [returns_pure], Keeps.wrote ⟨rfl, rfl, rfl, by simp⟩⟩
  | @cons pre cp r cps b hl hs ih =>
    intro p d buf q e hp hd hsc hq he
    cases hd with
    | @cons _ _ x y h1 h2 =>
      obtain ⟨p', hp', heq⟩ := decomposeLoop_cons u hp hl buf q (some e)
      rw [heq]
      obtain ⟨r, buf', h3, h4⟩ := decomposeFully_wrote u h1 (fun c hc => hsc c (List.mem_append_left _ hc)) hq he
      rw [returns_bind h3]
      cases r with
      | none => exact ⟨.error .eoverflow, buf', by simp only []; rw [returns_pure], h4⟩
      | some j =>
        obtain ⟨r, buf'', h5, h6⟩ := ih hp' h2 (fun c hc => hsc c (List.mem_append_right _ hc)) (h4.1.bound j rfl).2
          (show e ≤ buf'.length by rw [h4.1.length]; exact he)
        exact ⟨r, buf'', h5, h4.trans h6 he⟩

/-- Enough room: the canonical decomposition. -/
theorem decompose_fits (u : Ucd) {t : List UInt8} {cps d : List Nat} {p : Pos} {buf : List UInt8} {e : Nat} (hp : Input p t)
    (hs : Scan Loose t cps true) (hd : FullAll u.decomp cps d) (hsc : ∀ c ∈ d, IsScalar c) (hf : (encs d).length < e) (he : e ≤ buf.length) :
    Returns (decompose u p buf (some e)) (.ptr (encs d).length, encs (ord u.ccc d) ++ 0 :: buf.drop ((encs d).length + 1)) := by
  have h1 := decomposeLoop_fits u hs (buf := buf) (q := 0) hp hd hsc (by omega) he
  simp only [if_true, Nat.zero_add] at h1
  rw [decompose, returns_bind h1]
  simp only []
  rw [if_neg (by simp only [Option.some.injEq]; omega)]
  have hlen : (splice buf 0 (encs d)).length = buf.length := splice_length (by omega)
  rw [liftC_bind (wr_ok (by omega) _)]
  have hbuf : (splice buf 0 (encs d)).set (encs d).length 0 = encs d ++ 0 :: buf.drop ((encs d).length + 1) := by
    rw [splice_zero, List.set_append_right _ _ (Nat.le_refl _), Nat.sub_self]
    congr 1
    cases hdr : buf.drop (encs d).length with
    | nil => have := congrArg List.length hdr; simp at this; omega
    | cons c r =>
      rw [List.set_cons_zero]
      congr 1
      have := congrArg List.tail hdr
      simpa using this.symm
  rw [hbuf]
  have h2 := sortLoop_spec u d (0 :: buf.drop ((encs d).length + 1)) [] [] 0 (by simpa using hsc) ordered_nil (by simp) List.Pairwise.nil
    (by simp) (Or.inl ⟨rfl, rfl⟩)
  simp only [List.nil_append, List.append_nil, encs_nil, List.length_nil] at h2
  rw [returns_bind h2]
  simp

/-- A badly encoded text is reported, if what comes before fits. -/
theorem decompose_bad (u : Ucd) {t : List UInt8} {cps d : List Nat} {p : Pos} {buf : List UInt8} {e : Nat} (hp : Input p t)
    (hs : Scan Loose t cps false) (hd : FullAll u.decomp cps d) (hsc : ∀ c ∈ d, IsScalar c) (hf : (encs d).length ≤ e) (he : e ≤ buf.length) :
    Returns (decompose u p buf (some e)) (.null .eilseq, splice buf 0 (encs d)) := by
  have h1 := decomposeLoop_fits u hs (buf := buf) (q := 0) hp hd hsc (by omega) he
  simp only [Bool.false_eq_true, if_false] at h1
  rw [decompose, returns_bind h1]
  simp

/-- Too little room. -/
theorem decompose_overflow (u : Ucd) (hm : ∀ cp l, u.decomp cp = some l → ∀ c ∈ l, ¬ IsSyllable c) {t : List UInt8} {cps d : List Nat} {b : Bool}
    {p : Pos} {buf : List UInt8} {e : Nat} (hp : Input p t) (hs : Scan Loose t cps b) (hd : FullAll u.decomp cps d)
    (hsc : ∀ c ∈ d, IsScalar c) (hn : ∀ c ∈ cps, ¬ IsSyllable c) (hf : e < (encs d).length ∨ b = true ∧ e = (encs d).length) (he : e ≤ buf.length) :
    ∃ buf', Returns (decompose u p buf (some e)) (.null .eoverflow, buf') ∧ buf'.length = buf.length ∧ buf'.drop e = buf.drop e := by
  rcases hf with hf | ⟨rfl, hf⟩
  · obtain ⟨buf', h1, h2⟩ := decomposeLoop_overflow u hm hs (buf := buf) (q := 0) hp hd hsc hn (by omega) (by omega) he
    rw [decompose, returns_bind h1]
    exact ⟨buf', by simp, h2.length, h2.after⟩
  · have h1 := decomposeLoop_fits u hs (buf := buf) (q := 0) (e := e) hp hd hsc (by omega) he
    simp only [if_true, Nat.zero_add] at h1
    rw [decompose, returns_bind h1]
    simp only []
    rw [if_pos (by simp only [Option.some.injEq]; exact hf)]
    have hk : Keeps buf 0 e none (splice buf 0 (encs d)) := splice_keeps (by omega) he (by simp)
    exact ⟨_, by rw [returns_pure], hk.length, hk.after⟩

/-- Whatever the room, the call returns and writes nothing outside; the result is NUL-terminated UTF-8. -/
theorem decompose_safe (u : Ucd) {t : List UInt8} {cps d : List Nat} {b : Bool} {p : Pos} {buf : List UInt8} {e : Nat} (hp : Input p t)
    (hs : Scan Loose t cps b) (hd : FullAll u.decomp cps d) (hsc : ∀ c ∈ d, IsScalar c) (he : e ≤ buf.length) :
    ∃ r buf', Returns (decompose u p buf (some e)) (r, buf') ∧ buf'.length = buf.length ∧ buf'.drop e = buf.drop e ∧
      ∀ q, r = .ptr q → q < e ∧ ∃ out, (∀ c ∈ out, IsScalar c) ∧ buf'.take (q + 1) = encs out ++ [0] := by
  obtain ⟨r, buf', h1, h2⟩ := decomposeLoop_wrote u hs (buf := buf) (q := 0) (e := e) hp hd hsc (by omega) he
  rw [decompose, returns_bind h1]
  cases r with
  | error errno => exact ⟨_, _, by simp only []; rw [returns_pure], h2.1.length, h2.1.after, by simp⟩
  | ok q =>
    simp only []
    obtain ⟨d', h3, h4, h5⟩ := h2.2 q rfl
    simp only [Nat.zero_add, List.drop_zero] at h4 h5
    have hq := h2.1.bound q rfl
    by_cases hqe : (some e : Option Nat) = some q
    · rw [if_pos hqe]
      exact ⟨_, _, by rw [returns_pure], h2.1.length, h2.1.after, by simp⟩
    · rw [if_neg hqe]
      simp only [Option.some.injEq] at hqe
      have hql : q < buf'.length := by rw [h2.1.length]; omega
      rw [liftC_bind (wr_ok hql _)]
      have hbuf : buf'.set q 0 = encs d' ++ 0 :: buf'.drop (q + 1) := by
        rw [List.set_eq_take_append_cons_drop, if_pos hql, h5]
      rw [hbuf]
      have h6 := sortLoop_spec u d' (0 :: buf'.drop (q + 1)) [] [] 0 (by simpa using h3) ordered_nil (by simp) List.Pairwise.nil
        (by simp) (Or.inl ⟨rfl, rfl⟩)
      simp only [List.nil_append, List.append_nil, encs_nil, List.length_nil] at h6
      rw [h4] at *
      rw [returns_bind h6]
      have hperm : (ord u.ccc d').Perm d' := ord_perm d'
      have hlen : (encs (ord u.ccc d')).length = (encs d').length := encs_perm_length hperm
      refine ⟨_, _, by rw [returns_pure], ?_, ?_, ?_⟩
      · simp only [List.length_append, List.length_cons, List.length_drop, hlen, h2.1.length]; omega
      · rw [List.drop_append, List.drop_eq_nil_of_le (by omega), List.nil_append, ← h2.1.after, hlen,
          show e - (encs d').length = (e - (encs d').length - 1) + 1 by omega, List.drop_succ_cons, List.drop_drop]
        congr 1; omega
      · intro q' hq'
        simp only [Res.ptr.injEq] at hq'
        subst hq'
        refine ⟨by omega, ord u.ccc d', fun c hc => h3 c (hperm.mem_iff.1 hc), ?_⟩
        rw [← hlen, List.take_append, List.take_of_length_le (by omega), show (encs (ord u.ccc d')).length + 1 - (encs (ord u.ccc d')).length = 1 by omega]
        simp

end Verif.Unicode
