import Verif.Proofs.Pieces
import Verif.Props.Unicode

/-!
# C122: texts can be normalized and checked piece by piece

A text may be cut where a character of combining class 0 with `NFC_Quick_Check=Yes` follows.
-/

set_option autoImplicit false

namespace Verif.Unicode
open Verif.Utf8 Verif.Spec.Unicode Verif.Spec.Utf8 Verif.Unidata Verif.UniGen

/-- What the data files say about a character that may begin a piece. -/
def Begins (c : Nat) : Prop := Class c 0 ∧ Quick nfcQC.toList c .yes

theorem begins_stable {c : Nat} (hc : IsScalar c) (h : Begins c) : unicode13.ccc c = 0 ∧ Stable unicode13 c ∧
    unicode13.flags c &&& nfcDisallowed = 0 ∧ unicode13.flags c &&& nfcMaybe = 0 := by
  obtain ⟨_, h2, _, h4, h5, _⟩ := unicode_tables_faithful c
  have hq := (quick_iff nfcQC_ok _ _).2 h.2
  have h6 : unicode13.flags c &&& nfcDisallowed = 0 := by
    by_contra hn
    have := (quick_iff nfcQC_ok _ _).2 (h4.1 hn)
    rw [hq] at this; cases this
  have h7 : unicode13.flags c &&& nfcMaybe = 0 := by
    by_contra hn
    have := (quick_iff nfcQC_ok _ _).2 (h5.1 hn)
    rw [hq] at this; cases this
  exact ⟨(h2 0).2 h.1, flagsC c hc h6 h7, h6, h7⟩

theorem seq_append {A : List UInt8 → Nat → Prop} {t t' : List UInt8} {x y : List Nat} (h : Seq A t x) (h' : Seq A t' y) : Seq A (t ++ t') (x ++ y) := by
  induction h with
  | nil => exact h'
  | cons h1 _ ih => rw [List.append_assoc]; exact .cons h1 ih

/-- C122: the decomposition of the whole is the decompositions of the pieces, one after the other. -/
theorem unicode_decompose_pieces {p p' q : Pos} {t t' : List UInt8} (hp : Input p t) (hp' : Input p' t') (hq : Input q (t ++ t'))
    {a b : List Nat} {c : Nat} (ha : Seq Legal t a) (hb : Seq Legal t' (c :: b)) (hc : Begins c) :
    ∃ x y : List UInt8, (0 : UInt8) ∉ x ∧ (0 : UInt8) ∉ y ∧
      (∀ (buf : List UInt8) (e : Nat), e ≤ buf.length → 3 * t.length + 1 ≤ e →
        Returns (decompose unicode13 p buf (some e)) (.ptr x.length, x ++ 0 :: buf.drop (x.length + 1))) ∧
      (∀ (buf : List UInt8) (e : Nat), e ≤ buf.length → 3 * t'.length + 1 ≤ e →
        Returns (decompose unicode13 p' buf (some e)) (.ptr y.length, y ++ 0 :: buf.drop (y.length + 1))) ∧
      ∀ (buf : List UInt8) (e : Nat), e ≤ buf.length → 3 * (t ++ t').length + 1 ≤ e →
        Returns (decompose unicode13 q buf (some e)) (.ptr (x ++ y).length, (x ++ y) ++ 0 :: buf.drop ((x ++ y).length + 1)) := by
  have sca := (legal_encs ha).2
  have scb := (legal_encs hb).2
  have za : 0 ∉ a := by rw [← encs_zero sca, ← (legal_encs ha).1]; exact hp.choose_spec.2.1
  have zb : 0 ∉ c :: b := by rw [← encs_zero scb, ← (legal_encs hb).1]; exact hp'.choose_spec.2.1
  obtain ⟨hc0, hst, _⟩ := begins_stable (scb c (by simp)) hc
  obtain ⟨x, h1, h2, h3⟩ := unicode_decompose_13 hp (seq_loose ha)
  obtain ⟨y, h1', h2', h3'⟩ := unicode_decompose_13 hp' (seq_loose hb)
  obtain ⟨z, h4, h5, h6⟩ := unicode_decompose_13 hq (seq_loose (seq_append ha hb))
  obtain ⟨s, r, rfl, hs, _⟩ := stable_begin hst hc0 h1'
  obtain rfl := nfd_unique h4 (nfd_pieces h1 h1' hs)
  refine ⟨encs x, encs (s :: r), ?_, ?_, fun buf e he hf => h3 buf e he (by omega), fun buf e he hf => h3' buf e he (by omega), fun buf e he hf => ?_⟩
  · rw [encs_zero (nfd_scalar h1 sca)]; exact nfd_nonzero h1 za
  · rw [encs_zero (nfd_scalar h1' scb)]; exact nfd_nonzero h1' zb
  · have := h6 buf e he (by omega)
    rwa [encs_append] at this

/-- C122: decomposing and recomposing the pieces yields the parts of normalization form C of the whole, for pieces without long runs of marks. -/
theorem unicode_normalize_pieces {p p' q : Pos} {t t' : List UInt8} (hp : Input p t) (hp' : Input p' t') (hq : Input q (t ++ t'))
    {a b : List Nat} {c : Nat} (ha : Seq Legal t a) (hb : Seq Legal t' (c :: b)) (hc : Begins c)
    (hrun : ∀ d, NFD13 a d → ∀ x b y, d = x ++ b ++ y → (∀ c ∈ b, unicode13.ccc c ≠ 0) → b.length ≤ 100)
    (hrun' : ∀ d, NFD13 (c :: b) d → ∀ x b y, d = x ++ b ++ y → (∀ c ∈ b, unicode13.ccc c ≠ 0) → b.length ≤ 100) :
    ∃ x y : List UInt8, (0 : UInt8) ∉ x ∧ (0 : UInt8) ∉ y ∧
      (∀ (buf buf2 : List UInt8), 3 * t.length + 1 ≤ buf.length → 3 * t.length + 1 ≤ buf2.length →
        Returns (normalize p buf buf.length buf2 buf2.length) (.ptr x.length, x ++ 0 :: buf2.drop (x.length + 1))) ∧
      (∀ (buf buf2 : List UInt8), 3 * t'.length + 1 ≤ buf.length → 3 * t'.length + 1 ≤ buf2.length →
        Returns (normalize p' buf buf.length buf2 buf2.length) (.ptr y.length, y ++ 0 :: buf2.drop (y.length + 1))) ∧
      ∀ (buf buf2 : List UInt8), 3 * (t ++ t').length + 1 ≤ buf.length → 3 * (t ++ t').length + 1 ≤ buf2.length →
        Returns (normalize q buf buf.length buf2 buf2.length) (.ptr (x ++ y).length, (x ++ y) ++ 0 :: buf2.drop ((x ++ y).length + 1)) := by
  have sca := (legal_encs ha).2
  have scb := (legal_encs hb).2
  have za : 0 ∉ a := by rw [← encs_zero sca, ← (legal_encs ha).1]; exact hp.choose_spec.2.1
  have zb : 0 ∉ c :: b := by rw [← encs_zero scb, ← (legal_encs hb).1]; exact hp'.choose_spec.2.1
  obtain ⟨hc0, hst, _⟩ := begins_stable (scb c (by simp)) hc
  have unique : ∀ {l x y : List Nat}, NFC13 l x → NFC13 l y → x = y := by
    intro l x y h h'
    obtain ⟨d, h1, h2⟩ := nfc_primary.1 h
    obtain ⟨d', h1', h2'⟩ := nfc_primary.1 h'
    obtain rfl := nfd_unique h1 h1'
    rw [compose_iff tables.toTable] at h2 h2'
    rw [h2, h2']
  obtain ⟨d, hd, _⟩ := nfd_exists sca
  obtain ⟨d', hd', _⟩ := nfd_exists scb
  obtain ⟨s, r, rfl, hs, hi⟩ := stable_begin hst hc0 hd'
  have hw := nfd_pieces hd hd' hs
  have hrun2 : ∀ f, NFD13 (a ++ c :: b) f → ∀ x b y, f = x ++ b ++ y → (∀ c ∈ b, unicode13.ccc c ≠ 0) → b.length ≤ 100 := by
    intro f hf
    rw [nfd_unique hf hw]
    exact runs_pieces hs (hrun d hd) (hrun' _ hd')
  obtain ⟨x, hx, _⟩ := unicode_normalize hp ha (buf := List.replicate (3 * t.length + 1) 0) (buf2 := List.replicate (3 * t.length + 1) 0)
    (e := 3 * t.length + 1) (e2 := 3 * t.length + 1) (by simp) (by simp) (by simp) (by simp) hrun
  obtain ⟨y, hy, _⟩ := unicode_normalize hp' hb (buf := List.replicate (3 * t'.length + 1) 0) (buf2 := List.replicate (3 * t'.length + 1) 0)
    (e := 3 * t'.length + 1) (e2 := 3 * t'.length + 1) (by simp) (by simp) (by simp) (by simp) hrun'
  have hxy : NFC13 (a ++ c :: b) (x ++ y) := by
    obtain ⟨_, h1, h2⟩ := nfc_primary.1 hx
    obtain ⟨_, h1', h2'⟩ := nfc_primary.1 hy
    obtain rfl := nfd_unique h1 hd
    obtain rfl := nfd_unique h1' hd'
    exact nfc_primary.2 ⟨_, hw, compose_pieces tables.toTable h2 hs hi h2'⟩
  have zero : ∀ {l z : List Nat}, (∀ c ∈ l, IsScalar c) → 0 ∉ l → NFC13 l z → (0 : UInt8) ∉ encs z := by
    intro l z hl h0 hz
    obtain ⟨d, h1, h2⟩ := nfc_primary.1 hz
    have hsz : ∀ c ∈ z, IsScalar c := by
      rw [(compose_iff tables.toTable).1 h2, comp]
      exact hfold_scalar (grun_scalar tables.toTable (nfd_scalar h1 hl) (by simp [gflat]))
    rw [encs_zero hsz]
    intro hm
    obtain ⟨u, w, rfl⟩ := List.append_of_mem hm
    obtain ⟨f, h3, rfl⟩ := nfd_iff.1 (nfc_equiv tables (nfc_primary.1 hz) h1)
    obtain ⟨f1, f2, _, h4, rfl⟩ := fullAll_append h3
    cases h4 with
    | cons h5 h6 =>
      have h7 : Full unicode13.decomp 0 [0] := by rw [unicode13_eq]; exact fullF_full 5 _ _ (by decide +kernel)
      obtain rfl := full_unique h7 h5
      exact nfd_nonzero h1 h0 ((ord_perm _).mem_iff.2 (by simp))
  refine ⟨encs x, encs y, zero sca za hx, zero scb zb hy, fun buf buf2 h h' => ?_, fun buf buf2 h h' => ?_, fun buf buf2 h h' => ?_⟩
  · obtain ⟨z, hz, hr⟩ := unicode_normalize hp ha (Nat.le_refl buf.length) (Nat.le_refl buf2.length) h h' hrun
    rwa [unique hx hz]
  · obtain ⟨z, hz, hr⟩ := unicode_normalize hp' hb (Nat.le_refl buf.length) (Nat.le_refl buf2.length) h h' hrun'
    rwa [unique hy hz]
  · obtain ⟨z, hz, hr⟩ := unicode_normalize hq (seq_append ha hb) (Nat.le_refl buf.length) (Nat.le_refl buf2.length) h h' hrun2
    rw [← encs_append]
    rwa [unique hxy hz]

/-- What the checks look at. -/
theorem check_iff {p : Pos} {t : List UInt8} (hp : Input p t) {a : List Nat} (ha : Seq Legal t a) :
    (canonicallyDecomposed unicode13 p = .ok true ↔
      Ordered unicode13.ccc a ∧ ∀ c ∈ a, unicode13.flags c &&& nfdDisallowed = 0 ∧ unicode13.flags c &&& nfdMaybe = 0) ∧
    (canonicallyComposed unicode13 p = .ok true ↔
      Ordered unicode13.ccc a ∧ ∀ c ∈ a, unicode13.flags c &&& nfcDisallowed = 0 ∧ unicode13.flags c &&& nfcMaybe = 0) := by
  have hs := scan_true.2 (seq_loose ha)
  have key : ∀ {d m : Nat}, bad unicode13 d 0 a = false ∧ (∀ c ∈ a, unicode13.flags c &&& m = 0) ↔
      Ordered unicode13.ccc a ∧ ∀ c ∈ a, unicode13.flags c &&& d = 0 ∧ unicode13.flags c &&& m = 0 := by
    intro d m
    constructor
    · rintro ⟨h1, h2⟩
      obtain ⟨h3, h4⟩ := not_bad_ordered h1
      exact ⟨h3, fun c hc => ⟨h4 c hc, h2 c hc⟩⟩
    · rintro ⟨h1, h2⟩
      exact ⟨bad_of h1 fun c hc => (h2 c hc).1, fun c hc => (h2 c hc).2⟩
  constructor
  · obtain ⟨r, h1, h2⟩ := detect_zero (u := unicode13) (disallowed := nfdDisallowed) (maybe := nfdMaybe) (by decide) (by decide) (by decide) hp hs
    have : canonicallyDecomposed unicode13 p = .ok (decide (r = 0)) := by rw [canonicallyDecomposed, h1]; rfl
    rw [this, Except.ok.injEq, decide_eq_true_iff, h2, ← key]
    simp
  · obtain ⟨r, h1, h2⟩ := detect_zero (u := unicode13) (disallowed := nfcDisallowed) (maybe := nfcMaybe) (by decide) (by decide) (by decide) hp hs
    have : canonicallyComposed unicode13 p = .ok (decide (r = 0)) := by rw [canonicallyComposed, h1]; rfl
    rw [this, Except.ok.injEq, decide_eq_true_iff, h2, ← key]
    simp

/-- C122: pieces of a text that passes one of the checks pass it, wherever it is cut between two characters. -/
theorem unicode_checks_substring {p p' q : Pos} {t t' : List UInt8} (hp : Input p t) (hp' : Input p' t') (hq : Input q (t ++ t'))
    {a b : List Nat} (ha : Seq Legal t a) (hb : Seq Legal t' b) :
    (canonicallyDecomposed unicode13 q = .ok true → canonicallyDecomposed unicode13 p = .ok true ∧ canonicallyDecomposed unicode13 p' = .ok true) ∧
    (canonicallyComposed unicode13 q = .ok true → canonicallyComposed unicode13 p = .ok true ∧ canonicallyComposed unicode13 p' = .ok true) := by
  obtain ⟨h1, h2⟩ := check_iff hp ha
  obtain ⟨h3, h4⟩ := check_iff hp' hb
  obtain ⟨h5, h6⟩ := check_iff hq (seq_append ha hb)
  rw [h1, h2, h3, h4, h5, h6]
  constructor
  · rintro ⟨h7, h8⟩
    exact ⟨⟨h7.append_left, fun c hc => h8 c (by simp [hc])⟩, h7.append_right, fun c hc => h8 c (by simp [hc])⟩
  · rintro ⟨h7, h8⟩
    exact ⟨⟨h7.append_left, fun c hc => h8 c (by simp [hc])⟩, h7.append_right, fun c hc => h8 c (by simp [hc])⟩

/-- C122: if the second piece may begin a piece, the whole passes if both pieces do. -/
theorem unicode_checks_pieces {p p' q : Pos} {t t' : List UInt8} (hp : Input p t) (hp' : Input p' t') (hq : Input q (t ++ t'))
    {a b : List Nat} {c : Nat} (ha : Seq Legal t a) (hb : Seq Legal t' (c :: b)) (hc : Begins c) :
    (canonicallyDecomposed unicode13 q = .ok true ↔ canonicallyDecomposed unicode13 p = .ok true ∧ canonicallyDecomposed unicode13 p' = .ok true) ∧
    (canonicallyComposed unicode13 q = .ok true ↔ canonicallyComposed unicode13 p = .ok true ∧ canonicallyComposed unicode13 p' = .ok true) := by
  obtain ⟨s1, s2⟩ := unicode_checks_substring hp hp' hq ha hb
  obtain ⟨h1, h2⟩ := check_iff hp ha
  obtain ⟨h3, h4⟩ := check_iff hp' hb
  obtain ⟨h5, h6⟩ := check_iff hq (seq_append ha hb)
  have hc0 := (begins_stable ((legal_encs hb).2 c (by simp)) hc).1
  refine ⟨⟨s1, ?_⟩, s2, ?_⟩
  · rw [h1, h3, h5]
    rintro ⟨⟨h7, h8⟩, h9, h10⟩
    exact ⟨ordered_pieces hc0 h7 h9, fun d hd => (List.mem_append.1 hd).elim (h8 d) (h10 d)⟩
  · rw [h2, h4, h6]
    rintro ⟨⟨h7, h8⟩, h9, h10⟩
    exact ⟨ordered_pieces hc0 h7 h9, fun d hd => (List.mem_append.1 hd).elim (h8 d) (h10 d)⟩

/-- The condition is needed: `a` with an acute accent and a dot below alone are decomposed, but one after the other they are not. -/
theorem unicode_pieces_condition : canonicallyDecomposed unicode13 (encs [0x61, 0x301] ++ [0], none) = .ok true ∧
    canonicallyDecomposed unicode13 (encs [0x323] ++ [0], none) = .ok true ∧
    canonicallyDecomposed unicode13 (encs [0x61, 0x301, 0x323] ++ [0], none) = .ok false ∧ ¬ Begins 0x323 := by
  have h : ∀ a : List Nat, (∀ c ∈ a, IsScalar c) → 0 ∉ a →
      canonicallyDecomposed unicode13 (encs a ++ [0], none) = .ok (!bad unicode13 nfdDisallowed 0 a) := by
    intro a ha h0
    obtain ⟨r, h1, h2⟩ := detect_zero (u := unicode13) (disallowed := nfdDisallowed) (maybe := nfdMaybe) (by decide) (by decide) (by decide)
      (input_encs ha h0 []) (scan_encs ha)
    have h3 : canonicallyDecomposed unicode13 (encs a ++ [0], none) = .ok (decide (r = 0)) := by rw [canonicallyDecomposed, h1]; rfl
    rw [h3, Except.ok.injEq, Bool.eq_iff_iff, decide_eq_true_iff, h2, Bool.not_eq_true']
    exact ⟨fun h => h.2.1, fun h => ⟨rfl, h, fun c _ => flagsD.maybe c⟩⟩
  refine ⟨?_, ?_, ?_, ?_⟩
  · rw [h _ (by decide) (by decide), unicode13_eq]; decide +kernel
  · rw [h _ (by decide) (by decide), unicode13_eq]; decide +kernel
  · rw [h _ (by decide) (by decide), unicode13_eq]; decide +kernel
  · intro hb
    have h1 := (ccc_iff _ _).2 hb.1
    rw [unicode13_eq] at h1
    revert h1
    decide +kernel

/-- Ångström sign and an acute accent; then Å, which may begin a piece, and a dot below. -/
example : Begins 0xC5 ∧ Begins 0x61 ∧ ¬ Begins 0x1161 ∧ Seq Legal (encs [0x212B, 0x301]) [0x212B, 0x301] ∧
    Seq Legal (encs [0xC5, 0x323]) [0xC5, 0x323] ∧ Input (encs [0x212B, 0x301] ++ [0], none) (encs [0x212B, 0x301]) ∧
    Input (encs [0xC5, 0x323] ++ [0], none) (encs [0xC5, 0x323]) ∧
    Input (encs [0x212B, 0x301, 0xC5, 0x323] ++ [0], none) (encs [0x212B, 0x301] ++ encs [0xC5, 0x323]) ∧
    NFC13 [0x212B, 0x301, 0xC5, 0x323] [0x1FA, 0x1EA0, 0x30A] := by
  refine ⟨⟨(ccc_iff _ _).1 (by rw [unicode13_eq]; decide +kernel), (quick_iff nfcQC_ok _ _).1 (by rw [genQC_lookup nfcQC_ok]; decide +kernel)⟩,
    ⟨(ccc_iff _ _).1 (by rw [unicode13_eq]; decide +kernel), (quick_iff nfcQC_ok _ _).1 (by rw [genQC_lookup nfcQC_ok]; decide +kernel)⟩, ?_,
    seq_encs (by decide), seq_encs (by decide), input_encs (by decide) (by decide) [], input_encs (by decide) (by decide) [], ?_, ?_⟩
  · intro h
    have h1 := (quick_iff nfcQC_ok _ _).2 h.2
    rw [genQC_lookup nfcQC_ok] at h1
    revert h1
    decide +kernel
  · rw [← encs_append]
    exact input_encs (d := [0x212B, 0x301, 0xC5, 0x323]) (by decide) (by decide) []
  · have h : NFD13 [0x212B, 0x301, 0xC5, 0x323] [0x41, 0x30A, 0x301, 0x41, 0x323, 0x30A] := by
      unfold NFD13; rw [unicode13_eq]
      exact nfd_iff.2 ⟨[0x41, 0x30A] ++ ([0x301] ++ ([0x41, 0x30A] ++ ([0x323] ++ []))), .cons (fullF_full 5 _ _ (by decide +kernel))
        (.cons (fullF_full 5 _ _ (by decide +kernel)) (.cons (fullF_full 5 _ _ (by decide +kernel))
          (.cons (fullF_full 5 _ _ (by decide +kernel)) .nil))), by decide +kernel⟩
    refine nfc_primary.2 ⟨_, h, (compose_iff tables.toTable).2 ?_⟩
    rw [unicode13_eq]
    decide +kernel

end Verif.Unicode
