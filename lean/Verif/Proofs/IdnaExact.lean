import Verif.Proofs.IdnaHost
import Verif.Proofs.Squeeze

/-! What `charstr_idna_encode` does with every text, whatever its length and its runs of marks. -/

set_option autoImplicit false

namespace Verif.Puny
open Verif.Spec Verif.Utf8 Verif.Charstr Verif.Unicode Verif.Unidata
open Verif.Spec.Utf8 (IsScalar enc width form Loose Legal Seq)
open Verif.Spec.Unicode (encs Scan Input)

/-- The quick check of UAX #15 answers "yes": the marks are in order and all characters have `NFC_Quick_Check=Yes`. -/
def Checked (cps : List Nat) : Prop := Spec.Unicode.Ordered unicode13.ccc cps ∧ ∀ c ∈ cps, Spec.Unicode.Quick nfcQC.toList c .yes

theorem quick_yes {c : Nat} : Spec.Unicode.Quick nfcQC.toList c .yes ↔ unicode13.flags c &&& nfcDisallowed = 0 ∧ unicode13.flags c &&& nfcMaybe = 0 := by
  obtain ⟨-, -, -, h1, h2, -⟩ := unicode_tables_faithful c
  rw [← not_iff_not, not_and_or, ← ne_eq, ← ne_eq, h1, h2]
  simp only [← quick_iff nfcQC_ok]
  cases UniGen.genQC nfcQC.toList c <;> simp

theorem checked_iff {cps : List Nat} : Checked cps ↔ Quick cps := by
  simp only [Checked, quick_yes, Quick]
  constructor
  · rintro ⟨h1, h2⟩
    exact ⟨bad_of h1 fun c hc => (h2 c hc).1, fun c hc => (h2 c hc).2⟩
  · rintro ⟨h1, h2⟩
    obtain ⟨h3, h4⟩ := not_bad_ordered h1
    exact ⟨h3, fun c hc => ⟨h4 c hc, h2 c hc⟩⟩

/-- The text `y` that is mapped, for a text of code points and `n` bytes for the decomposition. What follows a NUL in the decomposition is lost. -/
inductive Reach (n : Nat) (cps : List Nat) : List Nat → Prop
  | composed : Checked cps → Reach n cps cps
  | decomposed {y : List Nat} : ¬ Checked cps → NFD13 cps cps → ¬ Spec.Unicode.Excess unicode13.ccc Unicode.Primary 100 cps →
      Spec.Unicode.Compose unicode13.ccc Unicode.Primary [] cps y → Reach n cps y
  | other {d y : List Nat} : ¬ Checked cps → ¬ NFD13 cps cps → NFD13 cps d → (encs d).length < n →
      ¬ Spec.Unicode.Excess unicode13.ccc Unicode.Primary 100 (d.takeWhile (· ≠ 0)) →
      Spec.Unicode.Compose unicode13.ccc Unicode.Primary [] (d.takeWhile (· ≠ 0)) y → Reach n cps y

/-- With enough room nothing is left. -/
theorem squeezed_whole {dm : Nat → Option (List Nat)} {n : Nat} {cps f : List Nat} (h : Spec.Unicode.FullAll dm cps f) (hn : (encs f).length ≤ n) :
    Squeezed dm n cps f := by
  induction cps generalizing n f with
  | nil => cases h; exact .nil
  | cons c cps ih =>
    cases h with
    | cons h h' =>
      rw [encs_append, List.length_append] at hn
      exact .whole h (by omega) (ih h' (by omega))

theorem scan_length_le {t : List UInt8} {cps : List Nat} {b : Bool} (h : Scan Loose t cps b) : (encs cps).length ≤ t.length := by
  induction h with
  | nil => simp
  | bad => simp
  | cons hl _ ih =>
    have := loose_width hl
    rw [encs_cons, List.length_append, List.length_append]; omega

theorem input_encs_nul {e : List Nat} (hsc : ∀ c ∈ e, IsScalar c) (s : List UInt8) :
    Input (encs e ++ 0 :: s, some (encs e).length) (encs (e.takeWhile (· ≠ 0))) := by
  have hw : 0 ∉ e.takeWhile (· ≠ 0) := by
    intro h
    have := List.mem_takeWhile_imp h
    simp at this
  have hwsc : ∀ c ∈ e.takeWhile (· ≠ 0), IsScalar c := fun c hc => hsc c (List.takeWhile_prefix _ |>.subset hc)
  have hz : (0 : UInt8) ∉ encs (e.takeWhile (· ≠ 0)) := fun h => hw ((encs_zero hwsc).1 h)
  have he := List.takeWhile_append_dropWhile (p := (· ≠ 0)) (l := e)
  cases hd : e.dropWhile (· ≠ 0) with
  | nil =>
    rw [hd, List.append_nil] at he
    rw [he] at hz ⊢
    exact ⟨0 :: s, rfl, hz, .inl rfl⟩
  | cons c r =>
    have hc : c = 0 := by
      have := List.head_dropWhile_not (p := (· ≠ 0)) (l := e) (by rw [hd]; simp)
      simp only [hd, List.head_cons] at this
      simpa using this
    subst hc
    rw [hd] at he
    have h1 : encs e = encs (e.takeWhile (· ≠ 0)) ++ 0 :: encs r := by
      conv_lhs => rw [← he]
      rw [encs_append, encs_cons]
      rfl
    refine ⟨0 :: (encs r ++ 0 :: s), by simp only []; rw [h1]; simp, hz, .inr ⟨⟨_, rfl⟩, ?_⟩⟩
    intro n hn
    simp only [Option.some.injEq] at hn
    subst hn
    refine ⟨by rw [h1]; simp, by simp⟩

/-- The outcome for every sequence of encodings that the decoder accepts. -/
theorem idna_reach {id : Idna} {f : Nat → Option (List Nat)} (hf : Represents id f) {fresh : Nat → List UInt8} (hfr : ∀ n, (fresh n).length = n)
    {t : List UInt8} (h0 : (0 : UInt8) ∉ t) (r : List UInt8) (hna : ∃ c ∈ t, 128 ≤ c.toNat) {cps : List Nat} (hs : Seq Loose t cps) :
    ∃ res, idnaEncode unicode13 id fresh (t ++ 0 :: r) = liftC res ∧
      ((∃ y, Reach (3 * t.length) cps y ∧ Encodes id f y res) ∨ (∀ y, ¬ Reach (3 * t.length) cps y) ∧ res = .ok none) := by
  have hin : Input (t ++ 0 :: r, some t.length) t := ⟨0 :: r, rfl, h0, .inl rfl⟩
  have hs' := scan_true.2 hs
  have hsc := scan_scalar hs'
  by_cases hq : Checked cps
  · obtain ⟨res, h1, h2⟩ := idna_quick_loose hf hfr h0 hna hs (checked_iff.1 hq) r
    exact ⟨res, h1, .inl ⟨cps, .composed hq, h2⟩⟩
  have ha : isAllAscii (t ++ 0 :: r) = .ok false := by
    rw [isAllAscii_spec t r h0]
    obtain ⟨c, hc, h⟩ := hna
    congr 1
    rw [decide_eq_false_iff_not]
    intro h'
    have := h' c hc
    omega
  have hc : canonicallyComposed unicode13 (t ++ 0 :: r, some t.length) = .ok false := by
    obtain ⟨k, h1, h2⟩ := detect_zero (u := unicode13) (disallowed := nfcDisallowed) (maybe := nfcMaybe) (by decide) (by decide) (by decide) hin hs'
    have : k ≠ 0 := by
      rw [ne_eq, h2]
      exact fun h => hq (checked_iff.2 h.2)
    rw [canonicallyComposed, h1]
    simp [bind, Except.bind, this, pure, Except.pure]
  obtain ⟨r2, h3, h4⟩ := unicode_decomposed_check_partial hin
  rw [idnaEncode, liftC_bind ha]
  simp only [Bool.false_eq_true, if_false]
  rw [liftC_bind (strlen_spec t r h0), liftC_bind hc]
  simp only [Bool.false_eq_true, if_false]
  rw [liftC_bind h3]
  cases r2 with
  | true =>
    obtain ⟨cps', g1, g2⟩ := h4.1 rfl
    obtain ⟨rfl, -⟩ := scan_unique hs' (scan_true.2 g1)
    obtain ⟨y, res, k0, k1, k2⟩ := encodeNfd_spec hf hfr hin rfl hs'
    refine ⟨res, by simpa using k1, ?_⟩
    rcases k2 with ⟨_, k3, k⟩ | ⟨k3, k⟩
    · exact .inl ⟨y, .decomposed hq g2 k3 k0, k⟩
    · refine .inr ⟨fun y' hy => ?_, k⟩
      rcases k3 with k3 | k3
      · cases k3
      · cases hy with
        | composed h => exact hq h
        | decomposed _ _ h => exact h k3
        | other _ h => exact h g2
  | false =>
    have hnd : ¬ NFD13 cps cps := fun h => by
      have := h4.2 ⟨cps, hs, h⟩
      cases this
    simp only [Bool.false_eq_true, if_false]
    obtain ⟨fl, g1, g2, _⟩ := fullAll_exists hsc
    obtain ⟨q, buf', k1, k2, k3, k4⟩ := decompose_squeezed tables decomp_no_syllables hs' (buf := fresh (3 * t.length + 1)) (e := 3 * t.length) hin g1 g2
      (by rw [hfr]; omega)
    rw [returns_bind k1]
    have hlf : (encs fl).length ≤ 3 * t.length := by
      have := scan_length_le hs'
      omega
    have hsq := squeezed_whole g1 hlf
    have hnfd : NFD13 cps (Spec.Unicode.ord unicode13.ccc fl) := Spec.Unicode.nfd_iff.2 ⟨fl, g1, rfl⟩
    have hlen := encs_perm_length (Spec.Unicode.ord_perm (ccc := unicode13.ccc) fl)
    rcases k4 with ⟨-, d, j1, j2, rfl, j3⟩ | ⟨-, ⟨d, j1, j2⟩, rfl⟩ | ⟨h, -⟩ | ⟨j1, -⟩
    · obtain rfl := squeezed_unique hsq j1
      have hds := nfd_scalar hnfd hsc
      rw [← hlen] at j3
      have hbuf : buf' = encs (Spec.Unicode.ord unicode13.ccc d) ++ 0 :: buf'.drop ((encs (Spec.Unicode.ord unicode13.ccc d)).length + 1) := by
        conv_lhs => rw [← List.take_append_drop ((encs (Spec.Unicode.ord unicode13.ccc d)).length + 1) buf', j3]
        simp
      generalize hrest : buf'.drop ((encs (Spec.Unicode.ord unicode13.ccc d)).length + 1) = rest at hbuf
      subst hbuf
      have hin' := input_encs_nul hds rest
      have hws : ∀ c ∈ (Spec.Unicode.ord unicode13.ccc d).takeWhile (· ≠ 0), IsScalar c := fun c hc => hds c ((List.takeWhile_prefix _).subset hc)
      obtain ⟨y, res, i0, i1, i2⟩ := encodeNfd_spec hf hfr hin' rfl (scan_encs hws)
      refine ⟨res, by simpa [hlen] using i1, ?_⟩
      rcases i2 with ⟨-, i3, i⟩ | ⟨i3, i⟩
      · exact .inl ⟨y, .other hq hnd hnfd (by rw [hlen]; exact j2) i3 i0, i⟩
      · refine .inr ⟨fun y' hy => ?_, i⟩
        rcases i3 with i3 | i3
        · cases i3
        · cases hy with
          | composed h => exact hq h
          | decomposed _ h => exact hnd h
          | other _ _ h1 _ h4 =>
            rw [Spec.Unicode.nfd_unique h1 hnfd] at h4
            exact h4 i3
    · obtain rfl := squeezed_unique hsq j1
      refine ⟨_, rfl, .inr ⟨fun y hy => ?_, rfl⟩⟩
      cases hy with
      | composed h => exact hq h
      | decomposed _ h => exact hnd h
      | other _ _ h1 h2 =>
        rw [Spec.Unicode.nfd_unique h1 hnfd] at h2
        omega
    · cases h
    · exact absurd hsq (j1 _)

/-- No normalization is needed, or the decomposition is shorter than the room and recomposition never has more than 100 marks pending. -/
def Fits (n : Nat) (cps : List Nat) : Prop :=
  Checked cps ∨ ∀ d, NFD13 cps d → (encs d).length < n ∧ ¬ Spec.Unicode.Excess unicode13.ccc Unicode.Primary 100 d

theorem takeWhile_nonzero {l : List Nat} (h : 0 ∉ l) : l.takeWhile (· ≠ 0) = l := by
  rw [List.takeWhile_eq_self_iff]
  intro c hc
  have : c ≠ 0 := by rintro rfl; exact h hc
  simpa using this

/-- Without NUL, what is mapped is normalization form C. -/
theorem reach_iff {n : Nat} {cps y : List Nat} (hsc : ∀ c ∈ cps, IsScalar c) (h0 : 0 ∉ cps) (hn : (encs cps).length < n) :
    Reach n cps y ↔ Fits n cps ∧ NFC13 cps y := by
  constructor
  · intro h
    cases h with
    | composed h => exact ⟨.inl h, quick_nfc hsc (checked_iff.1 h)⟩
    | decomposed _ h1 h2 h3 =>
      exact ⟨.inr fun d hd => by rw [Spec.Unicode.nfd_unique hd h1]; exact ⟨hn, h2⟩, ⟨cps, h1, h3⟩⟩
    | other _ _ h1 h2 h3 h4 =>
      rw [takeWhile_nonzero (nfd_nonzero h1 h0)] at h3 h4
      exact ⟨.inr fun d hd => by rw [Spec.Unicode.nfd_unique hd h1]; exact ⟨h2, h3⟩, ⟨_, h1, h4⟩⟩
  · rintro ⟨h1, h2⟩
    by_cases hq : Checked cps
    · obtain rfl := nfc_unique (quick_nfc hsc (checked_iff.1 hq)) h2
      exact .composed hq
    · rcases h1 with h1 | h1
      · exact absurd h1 hq
      · obtain ⟨x, i1, i2⟩ := h2
        obtain ⟨h3, h4⟩ := h1 x i1
        by_cases hnd : NFD13 cps cps
        · rw [Spec.Unicode.nfd_unique i1 hnd] at i2 h4
          exact .decomposed hq hnd h4 i2
        · have hz := takeWhile_nonzero (nfd_nonzero i1 h0)
          exact .other hq hnd i1 h3 (by rwa [hz]) (by rwa [hz])

end Verif.Puny
