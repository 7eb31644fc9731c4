import Verif.Model.Unicode
import Verif.Proofs.Text
import Verif.Proofs.Canon

/-! Proofs about `charstr_unicode_decompose`. -/

namespace Verif.Unicode
open Verif.Utf8 Verif.Spec.Utf8 Verif.Spec.Unicode

/-! ### Writing code points -/

@[simp] theorem encs_nil : encs [] = [] := rfl
@[simp] theorem encs_cons (c : Nat) (l : List Nat) : encs (c :: l) = enc c ++ encs l := rfl
@[simp] theorem encs_append (x y : List Nat) : encs (x ++ y) = encs x ++ encs y := by simp [encs]

theorem encs_perm_length {x y : List Nat} (h : x.Perm y) : (encs x).length = (encs y).length := by
  induction h with
  | nil => rfl
  | cons a _ ih => simp [ih]
  | swap a b l => simp; omega
  | trans _ _ ih1 ih2 => exact ih1.trans ih2

theorem enc_length (c : Nat) : (enc c).length = width c := form_length (width_bounds c).1 (width_bounds c).2

theorem enc_pos (c : Nat) : 0 < (enc c).length := by have := (width_bounds c).1; rw [enc_length]; omega

/-- What a call writing from offset `s` on leaves alone. -/
structure Keeps (buf : List UInt8) (s e : Nat) (r : Option Nat) (buf' : List UInt8) : Prop where
  length : buf'.length = buf.length
  before : buf'.take s = buf.take s
  after : buf'.drop e = buf.drop e
  bound : ∀ j, r = some j → s ≤ j ∧ j ≤ e

theorem splice_keeps {buf bs : List UInt8} {s e : Nat} {r : Option Nat} (h : s + bs.length ≤ e) (he : e ≤ buf.length)
    (hr : ∀ j, r = some j → s ≤ j ∧ j ≤ e) : Keeps buf s e r (splice buf s bs) := by
  refine ⟨splice_length (by omega), ?_, ?_, hr⟩
  · simp only [splice]
    rw [List.append_assoc, List.take_left' (by simp; omega)]
  · simp only [splice]
    rw [List.drop_append, List.drop_eq_nil_of_le (by simp; omega), List.nil_append, List.drop_drop]
    congr 1
    simp only [List.length_append, List.length_take]
    omega

theorem Keeps.trans {buf buf' buf'' : List UInt8} {s s' e : Nat} {r : Option Nat} (h : Keeps buf s e (some s') buf')
    (h' : Keeps buf' s' e r buf'') : Keeps buf s e r buf'' := by
  have hs := h.bound s' rfl
  refine ⟨h'.length.trans h.length, ?_, h'.after.trans h.after, fun j hj => ?_⟩
  · have := congrArg (List.take s) h'.before
    rw [List.take_take, List.take_take, Nat.min_eq_left hs.1] at this
    rw [this, h.before]
  · have := h'.bound j hj; omega

theorem encode_scalar {cp : Nat} (h : IsScalar cp) {buf : List UInt8} {s e : Nat} (hs : s ≤ e) (he : e ≤ buf.length) :
    (s + (enc cp).length ≤ e → encode cp buf s (some e) = .ok (some (s + (enc cp).length), splice buf s (enc cp))) ∧
    (e < s + (enc cp).length → ∃ buf', encode cp buf s (some e) = .ok (none, buf') ∧ Keeps buf s e none buf') := by
  have hlt : cp < 0x200000 := by simp only [IsScalar] at h; omega
  rw [encBytes_form hlt, putSeq_some _ _ _ _ hs he]
  constructor
  · intro h
    rw [if_pos h, List.take_of_length_le (by omega)]
  · intro h
    rw [if_neg (by omega)]
    exact ⟨_, rfl, splice_keeps (by simp; omega) he (by simp)⟩

theorem encode_keeps {cp : Nat} (h : IsScalar cp) {buf : List UInt8} {s e : Nat} (hs : s ≤ e) (he : e ≤ buf.length) :
    ∃ r buf', encode cp buf s (some e) = .ok (r, buf') ∧ Keeps buf s e r buf' := by
  by_cases hf : s + (enc cp).length ≤ e
  · exact ⟨_, _, (encode_scalar h hs he).1 hf, splice_keeps hf he (fun j hj => by simp only [Option.some.injEq] at hj; omega)⟩
  · obtain ⟨buf', h1, h2⟩ := (encode_scalar h hs he).2 (by omega)
    exact ⟨_, _, h1, h2⟩

/-- Encoding one code point after the other until one fails. -/
def encodeAll : List Nat → List UInt8 → Option Nat → Option Nat → C (Option Nat × List UInt8)
  | [], buf, s, _ => .ok (s, buf)
  | c :: cs, buf, s, e => do
    let (s, buf) ← encodeN c buf s e
    encodeAll cs buf s e

theorem encodeAll_null (l : List Nat) (buf : List UInt8) (e : Option Nat) : encodeAll l buf none e = .ok (none, buf) := by
  induction l with
  | nil => rfl
  | cons c l ih => simp only [encodeAll, encodeN]; exact ih

theorem encodeAll_spec {l : List Nat} {buf : List UInt8} {s e : Nat} (hl : ∀ c ∈ l, IsScalar c) (hs : s ≤ e) (he : e ≤ buf.length) :
    (s + (encs l).length ≤ e → encodeAll l buf (some s) (some e) = .ok (some (s + (encs l).length), splice buf s (encs l))) ∧
    (e < s + (encs l).length → ∃ buf', encodeAll l buf (some s) (some e) = .ok (none, buf') ∧ Keeps buf s e none buf') := by
  induction l generalizing buf s with
  | nil =>
    constructor
    · intro _; simp [encodeAll]
    · intro h; simp at h; omega
  | cons c l ih =>
    have hc := hl c (by simp)
    have hle : ∀ d ∈ l, IsScalar d := fun d hd => hl d (by simp [hd])
    by_cases hf : s + (enc c).length ≤ e
    · have h1 := (encode_scalar hc hs he).1 hf
      have hk : Keeps buf s e (some (s + (enc c).length)) (splice buf s (enc c)) :=
        splice_keeps hf he (fun j hj => by simp only [Option.some.injEq] at hj; omega)
      have ih := ih (buf := splice buf s (enc c)) (s := s + (enc c).length) hle hf (by rw [hk.length]; exact he)
      have heq : encodeAll (c :: l) buf (some s) (some e) = encodeAll l (splice buf s (enc c)) (some (s + (enc c).length)) (some e) := by
        simp only [encodeAll, encodeN, h1]; rfl
      rw [heq]
      simp only [encs_cons, List.length_append]
      constructor
      · intro h
        rw [ih.1 (by omega), splice_splice (by omega)]
        congr 3; omega
      · intro h
        obtain ⟨buf', h2, h3⟩ := ih.2 (by omega)
        exact ⟨buf', h2, hk.trans h3⟩
    · obtain ⟨buf', h1, h2⟩ := (encode_scalar hc hs he).2 (by omega)
      constructor
      · intro h; simp at h; omega
      · intro _
        refine ⟨buf', ?_, h2⟩
        simp only [encodeAll, encodeN, h1]
        exact encodeAll_null l buf' _

/-! ### Hangul -/

theorem decomposeHangul_syllable {l v t : Nat} (hl : l < 19) (hv : v < 21) (ht : t < 28) (buf : List UInt8) (s e : Option Nat) :
    decomposeHangul (syllable l v t) buf s e = encodeAll (jamo l v t) buf s e := by
  have hi : ((syllable l v t : Nat) : Int) - 0xAC00 = (((l * 21 + v) * 28 + t : Nat) : Int) := by simp only [syllable]; omega
  have h1 : (((l * 21 + v) * 28 + t : Nat) : Int).tdiv 588 = l := by
    rw [Int.tdiv_eq_ediv_of_nonneg (by omega)]; omega
  have h2 : ((((l * 21 + v) * 28 + t : Nat) : Int).tmod 588).tdiv 28 = v := by
    rw [Int.tmod_eq_emod_of_nonneg (by omega), Int.tdiv_eq_ediv_of_nonneg (by omega)]; omega
  have h3 : (((l * 21 + v) * 28 + t : Nat) : Int).tmod 28 = t := by
    rw [Int.tmod_eq_emod_of_nonneg (by omega)]; omega
  simp only [decomposeHangul, hi, h1, h2, h3]
  rw [if_neg (by omega)]
  by_cases h0 : t = 0
  · subst h0
    simp only [jamo, if_true, encodeAll]
    rfl
  · have h0' : (t : Int) ≠ 0 := by omega
    simp only [jamo, if_neg h0, encodeAll, if_pos h0', Nat.cast_add, Nat.cast_ofNat]
    congr 1; funext x; obtain ⟨s, buf⟩ := x
    congr 1; funext x; obtain ⟨s, buf⟩ := x
    simp only []
    cases hx : encodeN (4519 + (t : Int)) buf s e <;> rfl

theorem decomposeHangul_other {cp : Nat} (h : ¬ IsSyllable cp) (buf : List UInt8) (s e : Option Nat) :
    decomposeHangul cp buf s e = .ok (none, buf) := by
  simp only [decomposeHangul]
  rw [if_pos]
  · rfl
  · by_contra hn
    refine h ⟨(cp - 0xAC00) / 588, (cp - 0xAC00) % 588 / 28, (cp - 0xAC00) % 28, ?_, ?_, ?_, ?_⟩
    · omega
    · omega
    · omega
    · simp only [syllable]; omega

/-! ### Decomposing -/

theorem syllable_scalar {l v t : Nat} (hl : l < 19) (hv : v < 21) (ht : t < 28) : IsScalar (syllable l v t) := by
  left; simp only [syllable]; omega

theorem decomposeEach_nil (u : Ucd) (buf : List UInt8) (s : Option Nat) (e : Option Nat) : decomposeEach u [] buf s e = pure (s, buf) := by
  rw [decomposeEach.eq_def]
  split
  · rename_i h; cases h
  · rfl

theorem decomposeEach_null (u : Ucd) (l : List Nat) (buf : List UInt8) (e : Option Nat) : decomposeEach u l buf none e = pure (none, buf) := by
  rw [decomposeEach.eq_def]

mutual
theorem decomposeFully_fits (u : Ucd) {cp : Nat} {d : List Nat} : (h : Full u.decomp cp d) → ∀ {buf : List UInt8} {s e : Nat},
    (∀ c ∈ d, IsScalar c) → s + (encs d).length ≤ e → e ≤ buf.length →
    Returns (decomposeFully u cp buf s (some e)) (some (s + (encs d).length), splice buf s (encs d))
  | .mapped h1 h2, buf, s, e, hsc, hf, he => by
    rw [decomposeFully, h1]
    exact decomposeEach_fits u h2 hsc hf he
  | .hangul h1 hl hv ht, buf, s, e, hsc, hf, he => by
    rw [decomposeFully, h1]
    simp only []
    rw [liftC_bind (by rw [decomposeHangul_syllable hl hv ht, (encodeAll_spec hsc (by omega) he).1 hf])]
    simp
  | .self h1 h2, buf, s, e, hsc, hf, he => by
    rw [decomposeFully, h1]
    simp only []
    rw [liftC_bind (decomposeHangul_other h2 buf _ _)]
    simp only [encs_cons, encs_nil, List.append_nil] at hf ⊢
    rw [returns_liftC]
    exact (encode_scalar (hsc _ (by simp)) (by omega) he).1 hf
theorem decomposeEach_fits (u : Ucd) {cps d : List Nat} : (h : FullAll u.decomp cps d) → ∀ {buf : List UInt8} {s e : Nat},
    (∀ c ∈ d, IsScalar c) → s + (encs d).length ≤ e → e ≤ buf.length →
    Returns (decomposeEach u cps buf (some s) (some e)) (some (s + (encs d).length), splice buf s (encs d))
  | .nil, buf, s, e, hsc, hf, he => by
    rw [decomposeEach_nil]; simp
  | @FullAll.cons _ cp cps a b h1 h2, buf, s, e, hsc, hf, he => by
    rw [decomposeEach]
    simp only [encs_append, List.length_append] at hf ⊢
    rw [returns_bind (decomposeFully_fits u h1 (fun c hc => hsc c (List.mem_append_left _ hc)) (by omega) he)]
    have := decomposeEach_fits u h2 (buf := splice buf s (encs a)) (s := s + (encs a).length) (e := e)
      (fun c hc => hsc c (List.mem_append_right _ hc)) (by omega) (by rw [splice_length (by omega)]; exact he)
    rw [splice_splice (by omega), Nat.add_assoc] at this
    exact this
end

/-- What was written is the encoding of some scalar values, unless the call failed. Between the result and `e` anything may be left. -/
def Wrote (buf : List UInt8) (s e : Nat) (r : Option Nat) (buf' : List UInt8) : Prop :=
  Keeps buf s e r buf' ∧ ∀ j, r = some j → ∃ d, (∀ c ∈ d, IsScalar c) ∧ j = s + (encs d).length ∧ (buf'.take j).drop s = encs d

theorem take_splice {buf bs : List UInt8} {s : Nat} (h : s ≤ buf.length) : (splice buf s bs).take (s + bs.length) = buf.take s ++ bs := by
  simp only [splice]
  rw [List.take_left' (by simp; omega)]

theorem splice_wrote {buf : List UInt8} {s e : Nat} {d : List Nat} (hd : ∀ c ∈ d, IsScalar c) (h : s + (encs d).length ≤ e)
    (he : e ≤ buf.length) : Wrote buf s e (some (s + (encs d).length)) (splice buf s (encs d)) := by
  refine ⟨splice_keeps h he (fun j hj => by simp only [Option.some.injEq] at hj; omega), fun j hj => ⟨d, hd, ?_, ?_⟩⟩
  · simpa using hj.symm
  · simp only [Option.some.injEq] at hj
    subst hj
    rw [take_splice (by omega), List.drop_left' (by simp; omega)]

theorem Keeps.wrote {buf buf' : List UInt8} {s e : Nat} (h : Keeps buf s e none buf') : Wrote buf s e none buf' := ⟨h, by simp⟩

theorem encode_wrote {cp : Nat} (h : IsScalar cp) {buf : List UInt8} {s e : Nat} (hs : s ≤ e) (he : e ≤ buf.length) :
    ∃ r buf', encode cp buf s (some e) = .ok (r, buf') ∧ Wrote buf s e r buf' := by
  by_cases hf : s + (enc cp).length ≤ e
  · have := splice_wrote (buf := buf) (s := s) (e := e) (d := [cp]) (by simpa using h) (by simpa using hf) he
    simp only [encs_cons, encs_nil, List.append_nil] at this
    exact ⟨_, _, (encode_scalar h hs he).1 hf, this⟩
  · obtain ⟨buf', h1, h2⟩ := (encode_scalar h hs he).2 (by omega)
    exact ⟨_, _, h1, h2.wrote⟩

theorem Wrote.after_failure {buf buf' buf'' : List UInt8} {s e : Nat} {r : Option Nat} (h : Keeps buf s e none buf')
    (h' : Wrote buf' s e r buf'') : Wrote buf s e r buf'' :=
  ⟨⟨h'.1.length.trans h.length, h'.1.before.trans h.before, h'.1.after.trans h.after, h'.1.bound⟩, h'.2⟩

theorem Wrote.trans {buf buf' buf'' : List UInt8} {s s' e : Nat} {r : Option Nat} (h : Wrote buf s e (some s') buf')
    (h' : Wrote buf' s' e r buf'') (he : e ≤ buf.length) : Wrote buf s e r buf'' := by
  refine ⟨h.1.trans h'.1, fun j hj => ?_⟩
  obtain ⟨d, h1, h2, h3⟩ := h.2 s' rfl
  obtain ⟨d', h4, h5, h6⟩ := h'.2 j hj
  refine ⟨d ++ d', fun c hc => ?_, by simp only [encs_append, List.length_append]; omega, ?_⟩
  · rcases List.mem_append.1 hc with hc | hc
    · exact h1 c hc
    · exact h4 c hc
  · have hb := h'.1.bound j hj
    have hs := h.1.bound s' rfl
    have hj : buf''.take j = buf'.take s' ++ encs d' := by
      rw [← h6, ← h'.1.before]
      have : (buf''.take j).take s' = buf''.take s' := by rw [List.take_take, Nat.min_eq_left hb.1]
      rw [← this, List.take_append_drop]
    rw [hj, List.drop_append_of_le_length (by rw [List.length_take, h.1.length]; omega), h3, encs_append]

mutual
theorem decomposeFully_wrote (u : Ucd) {cp : Nat} {d : List Nat} : (h : Full u.decomp cp d) → ∀ {buf : List UInt8} {s e : Nat},
    (∀ c ∈ d, IsScalar c) → s ≤ e → e ≤ buf.length →
    ∃ r buf', Returns (decomposeFully u cp buf s (some e)) (r, buf') ∧ Wrote buf s e r buf'
  | .mapped h1 h2, buf, s, e, hsc, hs, he => by
    rw [decomposeFully, h1]
    exact decomposeEach_wrote u h2 hsc hs he
  | @Full.hangul _ l v t h1 hl hv ht, buf, s, e, hsc, hs, he => by
    rw [decomposeFully, h1]
    simp only []
    by_cases hf : s + (encs (jamo l v t)).length ≤ e
    · rw [liftC_bind (by rw [decomposeHangul_syllable hl hv ht, (encodeAll_spec hsc (by omega) he).1 hf])]
      simp only []
      exact ⟨_, _, by rw [returns_pure], splice_wrote hsc hf he⟩
    · obtain ⟨buf', h3, h4⟩ := (encodeAll_spec hsc (by omega) he).2 (Nat.lt_of_not_le hf)
      rw [liftC_bind (by rw [decomposeHangul_syllable hl hv ht, h3])]
      simp only []
      obtain ⟨r, buf'', h5, h6⟩ := encode_wrote (syllable_scalar hl hv ht) hs (show e ≤ buf'.length by rw [h4.length]; exact he)
      refine ⟨r, buf'', by rw [returns_liftC]; exact h5, h6.after_failure h4⟩
  | @Full.self _ cp h1 h2, buf, s, e, hsc, hs, he => by
    rw [decomposeFully, h1]
    simp only []
    rw [liftC_bind (decomposeHangul_other h2 buf _ _)]
    obtain ⟨r, buf', h3, h4⟩ := encode_wrote (hsc cp (by simp)) hs he
    exact ⟨r, buf', by rw [returns_liftC]; exact h3, h4⟩
theorem decomposeEach_wrote (u : Ucd) {cps d : List Nat} : (h : FullAll u.decomp cps d) → ∀ {buf : List UInt8} {s e : Nat},
    (∀ c ∈ d, IsScalar c) → s ≤ e → e ≤ buf.length →
    ∃ r buf', Returns (decomposeEach u cps buf (some s) (some e)) (r, buf') ∧ Wrote buf s e r buf'
  | .nil, buf, s, e, hsc, hs, he => by
    have := splice_wrote (buf := buf) (s := s) (e := e) (d := []) (by simp) (by simpa using hs) he
    simp only [encs_nil, splice_nil, List.length_nil, Nat.add_zero] at this
    exact ⟨some s, buf, by rw [decomposeEach_nil]; simp, this⟩
  | .cons h1 h2, buf, s, e, hsc, hs, he => by
    rw [decomposeEach]
    obtain ⟨r, buf', h3, h4⟩ := decomposeFully_wrote u h1 (fun c hc => hsc c (List.mem_append_left _ hc)) hs he
    rw [returns_bind h3]
    cases r with
    | none => exact ⟨none, buf', by simp only []; rw [decomposeEach_null]; simp, h4⟩
    | some j =>
      obtain ⟨r, buf'', h5, h6⟩ := decomposeEach_wrote u h2 (fun c hc => hsc c (List.mem_append_right _ hc)) (h4.1.bound j rfl).2
        (show e ≤ buf'.length by rw [h4.1.length]; exact he)
      exact ⟨r, buf'', h5, h4.trans h6 he⟩
end

mutual
theorem decomposeFully_overflow (u : Ucd) (hm : ∀ cp l, u.decomp cp = some l → ∀ c ∈ l, ¬ IsSyllable c) {cp : Nat} {d : List Nat} :
    (h : Full u.decomp cp d) → ∀ {buf : List UInt8} {s e : Nat}, ¬ IsSyllable cp → (∀ c ∈ d, IsScalar c) → s ≤ e → e < s + (encs d).length →
    e ≤ buf.length → ∃ buf', Returns (decomposeFully u cp buf s (some e)) (none, buf') ∧ Keeps buf s e none buf'
  | .mapped h1 h2, buf, s, e, hn, hsc, hs, hf, he => by
    rw [decomposeFully, h1]
    exact decomposeEach_overflow u hm h2 (hm _ _ h1) hsc hs hf he
  | .hangul h1 hl hv ht, buf, s, e, hn, hsc, hs, hf, he => absurd ⟨_, _, _, hl, hv, ht, rfl⟩ hn
  | .self h1 h2, buf, s, e, hn, hsc, hs, hf, he => by
    rw [decomposeFully, h1]
    simp only []
    rw [liftC_bind (decomposeHangul_other h2 buf _ _)]
    simp only [encs_cons, encs_nil, List.append_nil] at hf
    obtain ⟨buf', h3, h4⟩ := (encode_scalar (hsc _ (by simp)) hs he).2 hf
    exact ⟨buf', by rw [returns_liftC]; exact h3, h4⟩
theorem decomposeEach_overflow (u : Ucd) (hm : ∀ cp l, u.decomp cp = some l → ∀ c ∈ l, ¬ IsSyllable c) {cps d : List Nat} :
    (h : FullAll u.decomp cps d) → ∀ {buf : List UInt8} {s e : Nat}, (∀ c ∈ cps, ¬ IsSyllable c) → (∀ c ∈ d, IsScalar c) → s ≤ e →
    e < s + (encs d).length → e ≤ buf.length →
    ∃ buf', Returns (decomposeEach u cps buf (some s) (some e)) (none, buf') ∧ Keeps buf s e none buf'
  | .nil, buf, s, e, hn, hsc, hs, hf, he => by simp at hf; omega
  | @FullAll.cons _ cp cps a b h1 h2, buf, s, e, hn, hsc, hs, hf, he => by
    rw [decomposeEach]
    simp only [encs_append, List.length_append] at hf
    have hsa : ∀ c ∈ a, IsScalar c := fun c hc => hsc c (List.mem_append_left _ hc)
    by_cases hfa : s + (encs a).length ≤ e
    · rw [returns_bind (decomposeFully_fits u h1 hsa hfa he)]
      have hk : Keeps buf s e (some (s + (encs a).length)) (splice buf s (encs a)) :=
        splice_keeps hfa he (fun j hj => by simp only [Option.some.injEq] at hj; omega)
      obtain ⟨buf', h3, h4⟩ := decomposeEach_overflow u hm h2 (buf := splice buf s (encs a)) (s := s + (encs a).length) (e := e)
        (fun c hc => hn c (by simp [hc])) (fun c hc => hsc c (List.mem_append_right _ hc)) hfa (by omega) (by rw [hk.length]; exact he)
      exact ⟨buf', h3, hk.trans h4⟩
    · obtain ⟨buf', h3, h4⟩ := decomposeFully_overflow u hm h1 (buf := buf) (hn _ (by simp)) hsa hs (by omega) he
      rw [returns_bind h3]
      exact ⟨buf', by simp only []; rw [decomposeEach_null]; simp, h4⟩
end

end Verif.Unicode
