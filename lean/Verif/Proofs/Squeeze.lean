import Verif.Proofs.UnidataFacts
import Verif.Proofs.DecomposeTop
import Verif.Proofs.Normal

/-! Decomposition into a buffer that may be too small. -/

set_option autoImplicit false

namespace Verif.Unicode
open Verif.Utf8 Verif.Spec.Utf8 Verif.Spec.Unicode

/-- What becomes of a string in a room of `n` bytes: each character is decomposed if the decomposition fits; a Hangul syllable whose
decomposition does not fit is copied if it fits itself. -/
inductive Squeezed (dm : Nat → Option (List Nat)) : Nat → List Nat → List Nat → Prop
  | nil {n} : Squeezed dm n [] []
  | whole {n c cs d r} : Full dm c d → (encs d).length ≤ n → Squeezed dm (n - (encs d).length) cs r → Squeezed dm n (c :: cs) (d ++ r)
  | left {n c cs d r} : IsSyllable c → Full dm c d → n < (encs d).length → (enc c).length ≤ n → Squeezed dm (n - (enc c).length) cs r →
      Squeezed dm n (c :: cs) (c :: r)

theorem squeezed_length {dm : Nat → Option (List Nat)} {n : Nat} {cps d : List Nat} (h : Squeezed dm n cps d) : (encs d).length ≤ n := by
  induction h with
  | nil => simp
  | whole _ h _ ih => simp only [encs_append, List.length_append]; omega
  | left _ _ _ h _ ih => simp only [encs_cons, List.length_append]; omega

theorem squeezed_unique {dm : Nat → Option (List Nat)} {n : Nat} {cps d d' : List Nat} (h : Squeezed dm n cps d) (h' : Squeezed dm n cps d') :
    d' = d := by
  induction h generalizing d' with
  | nil => cases h'; rfl
  | whole h1 h2 _ ih =>
    cases h' with
    | whole h3 h4 h5 => obtain rfl := full_unique h1 h3; rw [ih h5]
    | left _ h3 h4 => obtain rfl := full_unique h1 h3; omega
  | left _ h1 h2 _ _ ih =>
    cases h' with
    | whole h3 h4 h5 => obtain rfl := full_unique h1 h3; omega
    | left _ _ _ _ h5 => rw [ih h5]

theorem squeezed_scalar {dm : Nat → Option (List Nat)} {n : Nat} {cps d f : List Nat} (h : Squeezed dm n cps d) (hf : FullAll dm cps f)
    (hsc : ∀ c ∈ f, IsScalar c) : ∀ c ∈ d, IsScalar c := by
  induction h generalizing f with
  | nil => simp
  | whole g1 _ _ ih =>
    cases hf with
    | cons k1 k2 =>
      obtain rfl := full_unique g1 k1
      intro c hc
      rcases List.mem_append.1 hc with hc | hc
      · exact hsc c (List.mem_append_left _ hc)
      · exact ih k2 (fun c hc => hsc c (List.mem_append_right _ hc)) c hc
  | left g0 _ _ _ _ ih =>
    cases hf with
    | cons k1 k2 =>
      intro c hc
      rcases List.mem_cons.1 hc with rfl | hc
      · obtain ⟨l, v, t, hl, hv, ht, rfl⟩ := g0
        exact syllable_scalar hl hv ht
      · exact ih k2 (fun c hc => hsc c (List.mem_append_right _ hc)) c hc

/-- `d` was written at offset `s`. -/
def WroteIt (buf : List UInt8) (s e : Nat) (d : List Nat) (buf' : List UInt8) : Prop :=
  Keeps buf s e (some (s + (encs d).length)) buf' ∧ (buf'.take (s + (encs d).length)).drop s = encs d

theorem splice_wroteIt {buf : List UInt8} {s e : Nat} {d : List Nat} (h : s + (encs d).length ≤ e) (he : e ≤ buf.length) :
    WroteIt buf s e d (splice buf s (encs d)) := by
  refine ⟨splice_keeps h he (fun j hj => by simp only [Option.some.injEq] at hj; omega), ?_⟩
  rw [take_splice (by omega), List.drop_left' (by simp; omega)]

theorem WroteIt.trans {buf buf' buf'' : List UInt8} {s e : Nat} {d d' : List Nat} (h : WroteIt buf s e d buf')
    (h' : WroteIt buf' (s + (encs d).length) e d' buf'') (he : e ≤ buf.length) : WroteIt buf s e (d ++ d') buf'' := by
  have hs := h.1.bound _ rfl
  have hb := h'.1.bound _ rfl
  refine ⟨?_, ?_⟩
  · have := h.1.trans h'.1
    rwa [Nat.add_assoc, ← List.length_append, ← encs_append] at this
  · have hj : buf''.take (s + (encs d).length + (encs d').length) = buf'.take (s + (encs d).length) ++ encs d' := by
      have := (List.take_append_drop (s + (encs d).length) (buf''.take (s + (encs d).length + (encs d').length))).symm
      rw [h'.2, List.take_take, Nat.min_eq_left hb.1, h'.1.before] at this
      exact this
    rw [encs_append, List.length_append, ← Nat.add_assoc, hj,
      List.drop_append_of_le_length (by rw [List.length_take, h.1.length]; omega), h.2]

/-- One character. -/
theorem decomposeFully_squeezed {u : Ucd} (tb : Tables u) (hm : ∀ cp l, u.decomp cp = some l → ∀ c ∈ l, ¬ IsSyllable c) {cp : Nat} {d : List Nat}
    (h : Full u.decomp cp d) {buf : List UInt8} {s e : Nat} (hsc : ∀ c ∈ d, IsScalar c) (hs : s ≤ e) (he : e ≤ buf.length) :
    ∃ r buf', Returns (decomposeFully u cp buf s (some e)) (r, buf') ∧
      ((s + (encs d).length ≤ e ∧ r = some (s + (encs d).length) ∧ WroteIt buf s e d buf') ∨
       (e < s + (encs d).length ∧ IsSyllable cp ∧ s + (enc cp).length ≤ e ∧ r = some (s + (enc cp).length) ∧ WroteIt buf s e [cp] buf') ∨
       (e < s + (encs d).length ∧ (IsSyllable cp → e < s + (enc cp).length) ∧ r = none ∧ Keeps buf s e none buf')) := by
  by_cases hf : s + (encs d).length ≤ e
  · exact ⟨_, _, decomposeFully_fits u h hsc hf he, Or.inl ⟨hf, rfl, splice_wroteIt hf he⟩⟩
  · by_cases hn : IsSyllable cp
    · have hd := tb.atomic cp (isHangul_syllable hn)
      cases h with
      | mapped h1 _ => rw [hd] at h1; cases h1
      | self _ h1 => exact absurd hn h1
      | @hangul l v t h1 hl hv ht =>
        obtain ⟨buf', h3, h4⟩ := (encodeAll_spec hsc hs he).2 (Nat.lt_of_not_le hf)
        have hlen : e ≤ buf'.length := by rw [h4.length]; exact he
        have hr : ∀ {r buf''}, encode (syllable l v t : Nat) buf' s (some e) = .ok (r, buf'') →
            Returns (decomposeFully u (syllable l v t) buf s (some e)) (r, buf'') := by
          intro r buf'' h5
          rw [decomposeFully, hd]
          simp only []
          rw [liftC_bind (by rw [decomposeHangul_syllable hl hv ht, h3])]
          simp only []
          rw [returns_liftC]; exact h5
        by_cases hg : s + (enc (syllable l v t)).length ≤ e
        · have h5 := (encode_scalar (syllable_scalar hl hv ht) hs hlen).1 hg
          have h6 := splice_wroteIt (buf := buf') (s := s) (e := e) (d := [syllable l v t]) (by simpa using hg) hlen
          refine ⟨_, _, hr h5, Or.inr (Or.inl ⟨Nat.lt_of_not_le hf, hn, hg, rfl, ?_⟩)⟩
          simp only [encs_cons, encs_nil, List.append_nil] at h6
          exact ⟨⟨h6.1.length.trans h4.length, h6.1.before.trans h4.before, h6.1.after.trans h4.after, h6.1.bound⟩, by simpa using h6.2⟩
        · obtain ⟨buf'', h5, h6⟩ := (encode_scalar (syllable_scalar hl hv ht) hs hlen).2 (Nat.lt_of_not_le hg)
          exact ⟨_, _, hr h5, Or.inr (Or.inr ⟨Nat.lt_of_not_le hf, fun _ => Nat.lt_of_not_le hg, rfl,
            ⟨h6.length.trans h4.length, h6.before.trans h4.before, h6.after.trans h4.after, h6.bound⟩⟩)⟩
    · obtain ⟨buf', h3, h4⟩ := decomposeFully_overflow u hm h hn hsc hs (Nat.lt_of_not_le hf) he
      exact ⟨_, _, h3, Or.inr (Or.inr ⟨Nat.lt_of_not_le hf, fun h => absurd h hn, rfl, h4⟩)⟩

/-- All characters. -/
theorem decomposeLoop_squeezed {u : Ucd} (tb : Tables u) (hm : ∀ cp l, u.decomp cp = some l → ∀ c ∈ l, ¬ IsSyllable c) {t : List UInt8}
    {cps : List Nat} {b : Bool} (hs : Scan Loose t cps b) : ∀ {p : Pos} {f : List Nat} {buf : List UInt8} {q e : Nat}, Input p t →
    FullAll u.decomp cps f → (∀ c ∈ f, IsScalar c) → q ≤ e → e ≤ buf.length →
    ∃ r buf', Returns (decomposeLoop u p buf q (some e)) (r, buf') ∧
      ((∃ d, Squeezed u.decomp (e - q) cps d ∧ r = (if b then .ok (q + (encs d).length) else .error .eilseq) ∧ WroteIt buf q e d buf') ∨
       ((∀ d, ¬ Squeezed u.decomp (e - q) cps d) ∧ r = .error .eoverflow ∧ Keeps buf q e none buf')) := by
  have triv : ∀ {buf : List UInt8} {q e : Nat}, q ≤ e → e ≤ buf.length → WroteIt buf q e [] buf := by
    intro buf q e hq he
    have := splice_wroteIt (buf := buf) (s := q) (e := e) (d := []) (by simpa using hq) he
    simpa using this
  induction hs with
  | nil =>
    intro p f buf q e hp hd hsc hq he
    rw [decomposeLoop_nil u hp]
    exact ⟨.ok q, buf, by rw [returns_pure], Or.inl ⟨[], .nil, by simp, triv hq he⟩⟩
  | bad h1 h2 =>
    intro p f buf q e hp hd hsc hq he
    rw [decomposeLoop_bad u hp h1 h2]
    exact ⟨.error .eilseq, buf, by rw [returns_pure], Or.inl ⟨[], .nil, by simp, triv hq he⟩⟩
  | @cons pre cp r cps b hl hs ih =>
    intro p f buf q e hp hd hsc hq he
    cases hd with
    | @cons _ _ x y h1 h2 =>
      obtain ⟨p', hp', heq⟩ := decomposeLoop_cons u hp hl buf q (some e)
      rw [heq]
      have hsx : ∀ c ∈ x, IsScalar c := fun c hc => hsc c (List.mem_append_left _ hc)
      have hsy : ∀ c ∈ y, IsScalar c := fun c hc => hsc c (List.mem_append_right _ hc)
      obtain ⟨r, buf', h3, h4⟩ := decomposeFully_squeezed tb hm h1 hsx hq he
      rw [returns_bind h3]
      rcases h4 with ⟨h5, rfl, h6⟩ | ⟨h5, h7, h8, rfl, h6⟩ | ⟨h5, h7, rfl, h6⟩
      · have hle : e ≤ buf'.length := by rw [h6.1.length]; exact he
        obtain ⟨r, buf'', h9, h10⟩ := ih (q := q + (encs x).length) hp' h2 hsy h5 hle
        refine ⟨r, buf'', h9, ?_⟩
        rw [← Nat.sub_sub] at h10
        rcases h10 with ⟨d, h10, rfl, h11⟩ | ⟨h10, rfl, h11⟩
        · refine Or.inl ⟨x ++ d, .whole h1 (by omega) h10, ?_, h6.trans h11 he⟩
          rw [encs_append, List.length_append, ← Nat.add_assoc]
        · refine Or.inr ⟨fun d hd => ?_, rfl, h6.1.trans h11⟩
          cases hd with
          | whole g1 g2 g3 => obtain rfl := full_unique h1 g1; exact h10 _ g3
          | left _ g1 g2 => obtain rfl := full_unique h1 g1; omega
      · have hle : e ≤ buf'.length := by rw [h6.1.length]; exact he
        have h6' : WroteIt buf q e [cp] buf' := h6
        have hlen : (encs [cp]).length = (enc cp).length := by simp
        obtain ⟨r, buf'', h9, h10⟩ := ih (q := q + (enc cp).length) hp' h2 hsy h8 hle
        refine ⟨r, buf'', h9, ?_⟩
        rw [← Nat.sub_sub] at h10
        rcases h10 with ⟨d, h10, rfl, h11⟩ | ⟨h10, rfl, h11⟩
        · refine Or.inl ⟨cp :: d, .left h7 h1 (by omega) (by omega) h10, ?_, ?_⟩
          · rw [encs_cons, List.length_append, ← Nat.add_assoc]
          · have := h6.trans (d' := d) (buf'' := buf'') (by rw [hlen]; exact h11) he
            exact this
        · refine Or.inr ⟨fun d hd => ?_, rfl, ?_⟩
          · cases hd with
            | whole g1 g2 g3 => obtain rfl := full_unique h1 g1; omega
            | left _ _ _ _ g3 => exact h10 _ g3
          · have := h6.1
            rw [hlen] at this
            exact this.trans h11
      · refine ⟨.error .eoverflow, buf', by simp only []; rw [returns_pure], Or.inr ⟨fun d hd => ?_, rfl, h6⟩⟩
        cases hd with
        | whole g1 g2 g3 => obtain rfl := full_unique h1 g1; omega
        | left g0 g1 g2 g4 g3 => have := h7 g0; omega

/-- The whole call. -/
theorem decompose_squeezed {u : Ucd} (tb : Tables u) (hm : ∀ cp l, u.decomp cp = some l → ∀ c ∈ l, ¬ IsSyllable c) {t : List UInt8}
    {cps f : List Nat} {b : Bool} (hs : Scan Loose t cps b) {p : Pos} {buf : List UInt8} {e : Nat} (hp : Input p t)
    (hf : FullAll u.decomp cps f) (hsc : ∀ c ∈ f, IsScalar c) (he : e ≤ buf.length) :
    ∃ r buf', Returns (decompose u p buf (some e)) (r, buf') ∧ buf'.length = buf.length ∧ buf'.drop e = buf.drop e ∧
      ((b = true ∧ ∃ d, Squeezed u.decomp e cps d ∧ (encs d).length < e ∧ r = .ptr (encs d).length ∧
          buf'.take ((encs d).length + 1) = encs (ord u.ccc d) ++ [0]) ∨
       (b = true ∧ (∃ d, Squeezed u.decomp e cps d ∧ (encs d).length = e) ∧ r = .null .eoverflow) ∨
       (b = false ∧ (∃ d, Squeezed u.decomp e cps d) ∧ r = .null .eilseq) ∨
       ((∀ d, ¬ Squeezed u.decomp e cps d) ∧ r = .null .eoverflow)) := by
  obtain ⟨r, buf', h1, h2⟩ := decomposeLoop_squeezed tb hm hs (buf := buf) (q := 0) (e := e) hp hf hsc (by omega) he
  rw [decompose, returns_bind h1]
  simp only [Nat.sub_zero, Nat.zero_add] at h2
  rcases h2 with ⟨d, h3, rfl, h4⟩ | ⟨h3, rfl, h4⟩
  · cases b with
    | false =>
      exact ⟨_, _, by simp only [Bool.false_eq_true, if_false]; rw [returns_pure], h4.1.length, h4.1.after, Or.inr (Or.inr (Or.inl ⟨by trivial, ⟨d, h3⟩, rfl⟩))⟩
    | true =>
      simp only [if_true]
      by_cases hqe : (some e : Option Nat) = some (encs d).length
      · rw [if_pos hqe]
        exact ⟨_, _, by rw [returns_pure], h4.1.length, h4.1.after, Or.inr (Or.inl ⟨by trivial, ⟨d, h3, by simpa using hqe.symm⟩, rfl⟩)⟩
      · rw [if_neg hqe]
        simp only [Option.some.injEq] at hqe
        have hle := squeezed_length h3
        have hql : (encs d).length < buf'.length := by rw [h4.1.length]; omega
        rw [liftC_bind (wr_ok hql _)]
        have h5 : buf'.take (encs d).length = encs d := by simpa using h4.2
        have hbuf : buf'.set (encs d).length 0 = encs d ++ 0 :: buf'.drop ((encs d).length + 1) := by
          rw [List.set_eq_take_append_cons_drop, if_pos hql, h5]
        rw [hbuf]
        have h7 := squeezed_scalar h3 hf hsc
        have h6 := sortLoop_spec u d (0 :: buf'.drop ((encs d).length + 1)) [] [] 0 (by simpa using h7) ordered_nil (by simp) List.Pairwise.nil
          (by simp) (Or.inl ⟨rfl, rfl⟩)
        simp only [List.nil_append, List.append_nil, encs_nil, List.length_nil] at h6
        rw [returns_bind h6]
        have hperm : (ord u.ccc d).Perm d := ord_perm d
        have hlen : (encs (ord u.ccc d)).length = (encs d).length := encs_perm_length hperm
        refine ⟨_, _, by rw [returns_pure], ?_, ?_, Or.inl ⟨by trivial, d, h3, by omega, rfl, ?_⟩⟩
        · simp only [List.length_append, List.length_cons, List.length_drop, hlen, h4.1.length]; have := h4.1.length; omega
        · rw [List.drop_append, List.drop_eq_nil_of_le (by omega), List.nil_append, ← h4.1.after, hlen,
            show e - (encs d).length = (e - (encs d).length - 1) + 1 by omega, List.drop_succ_cons, List.drop_drop]
          congr 1; omega
        · rw [← hlen, List.take_append, List.take_of_length_le (by omega), show (encs (ord u.ccc d)).length + 1 - (encs (ord u.ccc d)).length = 1 by omega]
          simp
  · exact ⟨_, _, by simp only []; rw [returns_pure], h4.length, h4.after, Or.inr (Or.inr (Or.inr ⟨h3, rfl⟩))⟩

/-! ### The result is equivalent to the text -/

/-- Every character is decomposed or a Hangul syllable. -/
def Mixed (dm : Nat → Option (List Nat)) (l : List Nat) : Prop := ∀ c ∈ l, Full dm c [c] ∨ IsSyllable c

theorem squeezed_mixed {u : Ucd} (tb : Tables u) {n : Nat} {cps d : List Nat} (h : Squeezed u.decomp n cps d) : Mixed u.decomp d := by
  induction h with
  | nil => intro c hc; cases hc
  | whole h1 _ _ ih =>
    intro c hc
    rcases List.mem_append.1 hc with hc | hc
    · exact Or.inl (fullAll_self tb (fullAll_one.2 h1) c hc)
    · exact ih c hc
  | left h0 _ _ _ _ ih =>
    intro c hc
    rcases List.mem_cons.1 hc with rfl | hc
    · exact Or.inr h0
    · exact ih c hc

theorem squeezed_full {u : Ucd} (tb : Tables u) {n : Nat} {cps d f : List Nat} (h : Squeezed u.decomp n cps d) (hf : FullAll u.decomp cps f) :
    FullAll u.decomp d f := by
  induction h generalizing f with
  | nil => exact hf
  | whole h1 _ _ ih =>
    cases hf with
    | cons k1 k2 =>
      obtain rfl := full_unique h1 k1
      exact (fullAll_of_self (fullAll_self tb (fullAll_one.2 h1))).append (ih k2)
  | left _ _ _ _ _ ih =>
    cases hf with
    | cons k1 k2 => exact .cons k1 (ih k2)

theorem exchange_full {u : Ucd} (tb : Tables u) {x y f : List Nat} (h : Exchange u.ccc x y) (hx : Mixed u.decomp x) (hf : FullAll u.decomp x f) :
    ∃ f', FullAll u.decomp y f' ∧ ord u.ccc f' = ord u.ccc f := by
  cases h with
  | @mk x y a b h1 h2 =>
    have self : ∀ {c : Nat}, c ∈ x ++ a :: b :: y → 0 < u.ccc c → Full u.decomp c [c] := by
      intro c hc h0
      rcases hx c hc with h | h
      · exact h
      · have := tb.hangul c (isHangul_syllable h); omega
    have ha := self (c := a) (by simp) (by omega)
    have hb := self (c := b) (by simp) h2
    obtain ⟨f1, f2, k1, k2, rfl⟩ := fullAll_append hf
    cases k2 with
    | cons k2 k3 =>
      cases k3 with
      | cons k3 k4 =>
        obtain rfl := full_unique ha k2
        obtain rfl := full_unique hb k3
        refine ⟨f1 ++ ([b] ++ ([a] ++ _)), k1.append (.cons hb (.cons ha k4)), ?_⟩
        exact (ord_exchange (.mk h1 h2)).symm

theorem exchanges_full {u : Ucd} (tb : Tables u) {x y f : List Nat} (h : Exchanges u.ccc x y) (hx : Mixed u.decomp x) (hf : FullAll u.decomp x f) :
    ∃ f', FullAll u.decomp y f' ∧ ord u.ccc f' = ord u.ccc f := by
  induction h generalizing f with
  | refl => exact ⟨f, hf, rfl⟩
  | step h1 _ ih =>
    obtain ⟨f', h2, h3⟩ := exchange_full tb h1 hx hf
    obtain ⟨f'', h4, h5⟩ := ih (by
      cases h1 with
      | mk _ _ =>
        intro c hc
        apply hx
        simp only [List.mem_append, List.mem_cons] at hc ⊢
        tauto) h2
    exact ⟨f'', h4, h5.trans h3⟩

/-- A decomposed character, or the jamo of a syllable. -/
theorem full_mixed {u : Ucd} (tb : Tables u) {c : Nat} {d : List Nat} (h : Full u.decomp c d) (hc : Full u.decomp c [c] ∨ IsSyllable c) :
    d = [c] ∨ ∃ l v t, l < 19 ∧ v < 21 ∧ t < 28 ∧ c = syllable l v t ∧ d = jamo l v t := by
  rcases hc with hc | ⟨l, v, t, hl, hv, ht, rfl⟩
  · exact Or.inl (full_unique hc h)
  · right
    have hd := tb.atomic _ (isHangul_syllable ⟨l, v, t, hl, hv, ht, rfl⟩)
    exact ⟨l, v, t, hl, hv, ht, rfl, full_unique (.hangul hd hl hv ht) h⟩

theorem jamo_starters {u : Ucd} (tb : Tables u) {l v t : Nat} (hl : l < 19) (hv : v < 21) (ht : t < 28) : ∀ c ∈ jamo l v t, u.ccc c = 0 := by
  intro c hc
  apply tb.hangul
  simp only [jamo] at hc
  split at hc <;> simp at hc <;> simp only [IsHangul] <;> omega

theorem ordered_starters {ccc : Nat → Nat} {a l : List Nat} (h : ∀ c ∈ a, ccc c = 0) (hl : Ordered ccc l) : Ordered ccc (a ++ l) := by
  induction a with
  | nil => exact hl
  | cons c a ih =>
    have ih := ih fun d hd => h d (by simp [hd])
    cases hal : a ++ l with
    | nil => rw [List.cons_append, hal]; exact ordered_one c
    | cons b r =>
      rw [List.cons_append, hal, ordered_cons_cons, ← hal]
      exact ⟨by have := h c (by simp); omega, ih⟩

theorem full_ordered {u : Ucd} (tb : Tables u) {y f : List Nat} (hy : Mixed u.decomp y) (ho : Ordered u.ccc y) (hf : FullAll u.decomp y f) :
    Ordered u.ccc f := by
  induction y generalizing f with
  | nil => cases hf; exact ho
  | cons c y ih =>
    cases hf with
    | @cons _ _ a b k1 k2 =>
      have hb := ih (fun d hd => hy d (by simp [hd])) ho.tail k2
      rcases full_mixed tb k1 (hy c (by simp)) with rfl | ⟨l, v, t, hl, hv, ht, rfl, rfl⟩
      · cases k2 with
        | nil => exact ordered_one c
        | @cons c' y' a' b' g1 g2 =>
          have hoc := (ordered_cons_cons.1 ho).1
          rcases full_mixed tb g1 (hy c' (by simp)) with rfl | ⟨l, v, t, hl, hv, ht, rfl, rfl⟩
          · exact ordered_cons_cons.2 ⟨hoc, hb⟩
          · have h0 := jamo_starters tb hl hv ht
            have : ∃ j r, jamo l v t = j :: r := by simp only [jamo]; split <;> exact ⟨_, _, rfl⟩
            obtain ⟨j, r, hj⟩ := this
            rw [hj] at h0 hb ⊢
            exact ordered_cons_cons.2 ⟨by have := h0 j (by simp); omega, hb⟩
      · exact ordered_starters (jamo_starters tb hl hv ht) hb

/-- Decomposing the rest completes the canonical decomposition. -/
theorem squeezed_nfd {u : Ucd} (tb : Tables u) {n : Nat} {cps d f : List Nat} (h : Squeezed u.decomp n cps d) (hf : FullAll u.decomp cps f) :
    FullAll u.decomp (ord u.ccc d) (ord u.ccc f) := by
  have hm := squeezed_mixed tb h
  obtain ⟨f', h1, h2⟩ := exchanges_full tb (ord_of d) hm (squeezed_full tb h hf)
  have hm' : Mixed u.decomp (ord u.ccc d) := fun c hc => hm c ((ord_perm d).mem_iff.1 hc)
  have ho := full_ordered tb hm' (ord_ordered d) h1
  rw [ord_self ho] at h2
  exact h2 ▸ h1

/-! ### Composing -/

theorem no_composite {u : Ucd} (tb : Tables u) {s c p : Nat} (hc : IsHangul c) (h1 : ∀ v, v < 21 → c ≠ 0x1161 + v) (h2 : ∀ t, 0 < t → t < 28 → c ≠ 0x11A7 + t) :
    ¬ Composite (pairs u) s c p := by
  intro h
  cases h with
  | table h => exact tb.snd _ _ _ h hc
  | lv _ hv => exact h1 _ hv rfl
  | lvt _ _ h3 h4 => exact h2 _ h3 h4 rfl

theorem compose_jamo {u : Ucd} (tb : Tables u) {x r z : List Nat} {l v t : Nat} (hl : l < 19) (hv : v < 21) (ht : t < 28)
    (h : Compose u.ccc (pairs u) x (syllable l v t :: r) z) : Compose u.ccc (pairs u) x (jamo l v t ++ r) z := by
  have hL : u.ccc (0x1100 + l) = 0 := tb.hangul _ (by simp only [IsHangul]; omega)
  have hS : u.ccc (syllable l v 0) = 0 := tb.hangul _ (isHangul_syllable ⟨l, v, 0, hl, hv, by decide, rfl⟩)
  have free : ∀ {c : Nat}, ¬ Blocked u.ccc [] c := by rintro c ⟨_, h, _⟩; cases h
  cases h with
  | cons h1 h2 =>
    have hx : ∀ {x'}, ComposeStep u.ccc (pairs u) x (syllable l v t) x' → x' = x ++ [syllable l v t] := by
      intro x' h
      cases h with
      | compose _ _ _ h =>
        exact absurd h (no_composite tb (isHangul_syllable ⟨l, v, t, hl, hv, ht, rfl⟩) (fun v' _ => by simp only [syllable]; omega)
          (fun t' _ _ => by simp only [syllable]; omega))
      | keep _ => rfl
    obtain rfl := hx h1
    have s1 : ComposeStep u.ccc (pairs u) x (0x1100 + l) (x ++ [0x1100 + l]) :=
      .keep fun a s b p _ _ _ _ => no_composite tb (by simp only [IsHangul]; omega) (fun v' _ => by omega) (fun t' _ _ => by omega)
    have s2 : ComposeStep u.ccc (pairs u) (x ++ [0x1100 + l]) (0x1161 + v) (x ++ [syllable l v 0]) :=
      .compose hL (by simp) free (.lv hl hv)
    by_cases h0 : t = 0
    · subst h0
      simp only [jamo, if_true, List.cons_append, List.nil_append]
      exact .cons s1 (.cons s2 h2)
    · simp only [jamo, if_neg h0, List.cons_append, List.nil_append]
      exact .cons s1 (.cons s2 (.cons (.compose hS (by simp) free (.lvt hl hv (by omega) ht)) h2))

theorem compose_full {u : Ucd} (tb : Tables u) {y f : List Nat} (hy : Mixed u.decomp y) (hf : FullAll u.decomp y f) {x z : List Nat}
    (h : Compose u.ccc (pairs u) x y z) : Compose u.ccc (pairs u) x f z := by
  induction y generalizing f x with
  | nil => cases hf; exact h
  | cons c y ih =>
    cases hf with
    | @cons _ _ a b k1 k2 =>
      have hy' : Mixed u.decomp y := fun d hd => hy d (by simp [hd])
      rcases full_mixed tb k1 (hy c (by simp)) with rfl | ⟨l, v, t, hl, hv, ht, rfl, rfl⟩
      · cases h with
        | cons h1 h2 => exact .cons h1 (ih hy' k2 h2)
      · apply compose_jamo tb hl hv ht
        cases h with
        | cons h1 h2 => exact .cons h1 (ih hy' k2 h2)

/-! ### How much is left -/

theorem full_syllable_length {u : Ucd} (tb : Tables u) {c : Nat} {d : List Nat} (hc : IsSyllable c) (h : Full u.decomp c d) :
    (enc c).length = 3 ∧ (encs d).length ≤ 9 := by
  obtain ⟨l, v, t, hl, hv, ht, rfl⟩ := hc
  have hd := tb.atomic _ (isHangul_syllable ⟨l, v, t, hl, hv, ht, rfl⟩)
  obtain rfl := full_unique h (.hangul hd hl hv ht)
  constructor
  · have hs : 0xAC00 ≤ syllable l v t ∧ syllable l v t < 0x10000 := by simp only [syllable]; omega
    rw [enc_length, width, if_neg (by omega), if_neg (by omega), if_pos (by omega)]
  · simp only [jamo]
    split <;> simp only [encs_cons, encs_nil, List.length_append, enc_length, width, List.length_nil] <;> repeat' split
    all_goals omega

theorem squeezed_count {u : Ucd} (tb : Tables u) {n : Nat} {cps d : List Nat} (h : Squeezed u.decomp n cps d) :
    3 * d.countP (fun c => decide (0xAC00 ≤ c ∧ c ≤ 0xD7A3)) ≤ min n 8 := by
  induction h with
  | nil => simp
  | whole h1 _ _ ih =>
    have : ∀ {d : List Nat}, (∀ c ∈ d, ¬ IsSyllable c) → d.countP (fun c => decide (0xAC00 ≤ c ∧ c ≤ 0xD7A3)) = 0 := by
      intro d hd
      rw [List.countP_eq_zero]
      intro c hc
      simp only [decide_eq_true_eq]
      intro hr
      refine hd c hc ⟨(c - 0xAC00) / 588, (c - 0xAC00) % 588 / 28, (c - 0xAC00) % 28, by omega, by omega, by omega, ?_⟩
      simp only [syllable]; omega
    rw [List.countP_append, this fun c hc => (full_atoms tb h1 c hc).2]
    omega
  | left h0 h1 h2 h3 _ ih =>
    obtain ⟨h4, h5⟩ := full_syllable_length tb h0 h1
    rw [List.countP_cons]
    split <;> omega

theorem squeezed_complete {u : Ucd} (tb : Tables u) {n : Nat} {cps d f : List Nat} (h : Squeezed u.decomp n cps d) (hf : FullAll u.decomp cps f)
    (hl : (encs d).length + 6 ≤ n) : d = f := by
  induction h generalizing f with
  | nil => cases hf; rfl
  | whole h1 h2 _ ih =>
    cases hf with
    | cons k1 k2 =>
      obtain rfl := full_unique h1 k1
      rw [ih k2 (by simp only [encs_append, List.length_append] at hl; omega)]
  | left h0 h1 h2 h3 _ ih =>
    obtain ⟨h4, h5⟩ := full_syllable_length tb h0 h1
    simp only [encs_cons, List.length_append] at hl
    omega

end Verif.Unicode
