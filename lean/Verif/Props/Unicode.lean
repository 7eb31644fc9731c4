import Verif.Proofs.Unicode13
import Verif.Proofs.DecomposeTop

/-!
# C69–C73 and C84–C89: Unicode normalization (charstr_unicode.c, charstr_decompose.c, charstr_recompose.c and the generators)

The specification is sections 3.11 and 3.12 of the Unicode Standard (Spec/Unicode.lean) for the data files of the repository
(Spec/Unidata.lean). Texts are what precedes the first NUL or `end` (`Input`).
-/

namespace Verif.Unicode
open Verif.Utf8 Verif.Spec.Unicode Verif.Spec.Utf8 Verif.Unidata Verif.UniGen

/-- Normalization form D of Unicode 13. -/
abbrev NFD13 (x y : List Nat) : Prop := NFD unicode13.decomp unicode13.ccc x y

/-- Normalization form C of Unicode 13. -/
abbrev NFC13 (x y : List Nat) : Prop := NFC unicode13.decomp unicode13.ccc Primary x y

/-! ### C84: the generated functions -/

/-- C84: the functions generated from the data files say what the lines say. -/
theorem unicode_tables_faithful (cp : Nat) :
    (∀ l, unicode13.decomp cp = some l ↔ Maps cp l) ∧
    (∀ k, unicode13.ccc cp = k ↔ Class cp k) ∧
    (∀ c p, unicode13.composite cp c = some p ↔ Maps p [cp, c] ∧ p ∉ exclusions) ∧
    (unicode13.flags cp &&& nfcDisallowed ≠ 0 ↔ Quick nfcQC.toList cp .no) ∧
    (unicode13.flags cp &&& nfcMaybe ≠ 0 ↔ Quick nfcQC.toList cp .maybe) ∧
    (unicode13.flags cp &&& nfdDisallowed ≠ 0 ↔ Quick nfdQC.toList cp .no) ∧
    (unicode13.flags cp &&& nfdMaybe ≠ 0 ↔ Quick nfdQC.toList cp .maybe) := by
  refine ⟨decomp_iff cp, ccc_iff cp, composite_iff13 cp, ?_⟩
  rw [← quick_iff nfcQC_ok, ← quick_iff nfcQC_ok, ← quick_iff nfdQC_ok, ← quick_iff nfdQC_ok, genQC_lookup nfcQC_ok, genQC_lookup nfdQC_ok, unicode13_eq]
  have h1 := flags_nfc cp
  have h2 := flags_nfd cp
  exact ⟨by rw [ne_eq, ← not_iff_not, not_not]; exact h1.1, by rw [ne_eq, ← not_iff_not, not_not]; exact h1.2,
    by rw [ne_eq, ← not_iff_not, not_not]; exact h2.1, by rw [ne_eq, ← not_iff_not, not_not]; exact h2.2⟩

example : Maps 0xC5 [0x41, 0x30A] := (decomp_iff _ _).1 (by rw [unicode13_eq]; decide +kernel)
example : Class 0x327 202 := (ccc_iff _ _).1 (by rw [unicode13_eq]; decide +kernel)
example : Quick nfcQC.toList 0x340 .no := (quick_iff nfcQC_ok _ _).1 (by rw [genQC_lookup nfcQC_ok]; decide +kernel)

/-! ### C69: the quick check -/

/-- Some character is flagged, or the combining marks are not in order. -/
def Violates (u : Ucd) (disallowed : Nat) (cps : List Nat) : Prop := (∃ c ∈ cps, u.flags c &&& disallowed ≠ 0) ∨ ¬ Ordered u.ccc cps

theorem bad_violates (u : Ucd) (disallowed : Nat) (cps : List Nat) : bad u disallowed 0 cps = true ↔ Violates u disallowed cps := by
  rw [← not_iff_not, Bool.not_eq_true]
  constructor
  · intro h
    obtain ⟨h1, h2⟩ := not_bad_ordered h
    rintro (⟨c, hc, h3⟩ | h3)
    · exact h3 (h2 c hc)
    · exact h3 h1
  · intro h
    simp only [Violates, not_or, not_exists, not_and, not_not] at h
    exact bad_of h.2 h.1

/-- C69: the quick check looks at the characters up to the end or to the first one that cannot be decoded. It returns `disallowed` just if
they contain a violation, -1 if they do not and decoding fails, `maybe` if neither holds and one of them has that flag, and else 0. -/
theorem unicode_quick_check (u : Ucd) (disallowed maybe : Nat) (hd : disallowed ≠ 0) (hm : maybe ≠ 0) (hdm : disallowed ≠ maybe)
    {p : Pos} {t : List UInt8} (hp : Input p t) {cps : List Nat} {b : Bool} (hs : Scan Loose t cps b) :
    ∃ r, detect u disallowed maybe p = .ok r ∧
      (r = disallowed ↔ Violates u disallowed cps) ∧
      (r = -1 ↔ ¬ Violates u disallowed cps ∧ b = false) ∧
      (r = maybe ↔ ¬ Violates u disallowed cps ∧ b = true ∧ ∃ c ∈ cps, u.flags c &&& maybe ≠ 0) ∧
      (r = 0 ↔ ¬ Violates u disallowed cps ∧ b = true ∧ ∀ c ∈ cps, u.flags c &&& maybe = 0) := by
  refine ⟨_, detectLoop_spec u disallowed maybe hs p 0 0 hp, ?_⟩
  by_cases hv : Violates u disallowed cps
  · simp only [(bad_violates u disallowed cps).2 hv, if_true, hv, not_true_eq_false, false_and, iff_false, true_and]
    omega
  · have hb : bad u disallowed 0 cps = false := by rw [← Bool.not_eq_true, bad_violates]; exact hv
    simp only [hb, Bool.false_eq_true, if_false, hv, not_false_eq_true, true_and, iff_false]
    cases b with
    | false =>
      simp only [if_true, Bool.false_eq_true, false_and, iff_false]
      exact ⟨by omega, by simp, by omega, by omega⟩
    | true =>
      simp only [Bool.true_eq_false, if_false, true_and, iff_false]
      by_cases ha : (cps.any fun c => decide (u.flags c &&& maybe ≠ 0)) = true
      · have ha' : ∃ c ∈ cps, u.flags c &&& maybe ≠ 0 := by simpa using ha
        have hn : ¬ ∀ c ∈ cps, u.flags c &&& maybe = 0 := by push Not; exact ha'
        rw [if_pos ha]
        exact ⟨fun h => hdm (by exact_mod_cast h.symm), by omega, by simpa using ha', ⟨fun h => by omega, fun h => absurd h hn⟩⟩
      · have hn : ∀ c ∈ cps, u.flags c &&& maybe = 0 := by simpa using ha
        have ha' : ¬ ∃ c ∈ cps, u.flags c &&& maybe ≠ 0 := by push Not; exact hn
        rw [if_neg ha]
        exact ⟨fun h => hd (by exact_mod_cast h.symm), by decide, ⟨fun h => absurd (by exact_mod_cast h.symm) hm, fun h => absurd h ha'⟩,
          fun _ => hn, fun _ => rfl⟩

/-- Every text can be read up to its end or to the first error in just one way, so that `unicode_quick_check` tells the result for every text. -/
theorem unicode_scan (t : List UInt8) : ∃ cps b, Scan Loose t cps b ∧ ∀ cps' b', Scan Loose t cps' b' → cps' = cps ∧ b' = b := by
  obtain ⟨cps, b, h⟩ := scan_exists t
  exact ⟨cps, b, h, fun _ _ h' => scan_unique h h'⟩

/-- `a` followed by marks of class 230 and 220. -/
example : Input ([0x61, 0xCC, 0x81, 0xCC, 0xA3, 0], none) [0x61, 0xCC, 0x81, 0xCC, 0xA3] ∧
    Scan Loose [0x61, 0xCC, 0x81, 0xCC, 0xA3] [0x61, 0x301, 0x323] true ∧ Violates unicode13 nfdDisallowed [0x61, 0x301, 0x323] := by
  refine ⟨⟨[0], by decide, by decide, Or.inr ⟨⟨[], rfl⟩, by simp⟩⟩, scan_encs (d := [0x61, 0x301, 0x323]) (by decide), Or.inr fun h => ?_⟩
  exact h [0x61] 0x301 0x323 [] rfl (by rw [unicode13_eq]; decide +kernel)

/-! ### C70, C71: decomposition -/

theorem take_nul (a r : List UInt8) : (a ++ 0 :: r).take (a.length + 1) = a ++ [0] := by
  rw [List.take_append, List.take_of_length_le (by omega)]
  simp

/-- C70: with enough room the output is the canonical decomposition, NUL-terminated, whatever the tables. -/
theorem unicode_decompose_correct (u : Ucd) {p : Pos} {t : List UInt8} (hp : Input p t) {cps y : List Nat} (hs : Seq Loose t cps)
    (hy : NFD u.decomp u.ccc cps y) (hsc : ∀ c ∈ y, IsScalar c) {buf : List UInt8} {e : Nat} (he : e ≤ buf.length) (hf : (encs y).length < e) :
    Returns (decompose u p buf (some e)) (.ptr (encs y).length, encs y ++ 0 :: buf.drop ((encs y).length + 1)) := by
  obtain ⟨d, h1, rfl⟩ := nfd_iff.1 hy
  have hl := encs_perm_length (ord_perm (ccc := u.ccc) d)
  rw [hl] at hf ⊢
  exact decompose_fits u hp (scan_true.2 hs) h1 (fun c hc => hsc c ((ord_perm d).mem_iff.2 hc)) hf he

/-- C70, C71 for the tables of Unicode 13: every text has a canonical decomposition, at most three times as long, and it is the output if the
room is larger. -/
theorem unicode_decompose_13 {p : Pos} {t : List UInt8} (hp : Input p t) {cps : List Nat} (hs : Seq Loose t cps) :
    ∃ y, NFD13 cps y ∧ (encs y).length ≤ 3 * t.length ∧ ∀ (buf : List UInt8) (e : Nat), e ≤ buf.length → (encs y).length < e →
      Returns (decompose unicode13 p buf (some e)) (.ptr (encs y).length, encs y ++ 0 :: buf.drop ((encs y).length + 1)) := by
  have hsc := scan_scalar (scan_true.2 hs)
  obtain ⟨y, h1, h2, h3⟩ := nfd_exists hsc
  have := scan_length (scan_true.2 hs)
  exact ⟨y, h1, by omega, fun buf e he hf => unicode_decompose_correct _ hp hs h1 h2 he hf⟩

/-- C71: three times the size of the text and one more suffice. -/
theorem unicode_decompose_room {p : Pos} {t : List UInt8} (hp : Input p t) {cps : List Nat} {b : Bool} (hs : Scan Loose t cps b)
    {buf : List UInt8} {e : Nat} (he : e ≤ buf.length) (hf : 3 * t.length + 1 ≤ e) : ∃ r buf', Returns (decompose unicode13 p buf (some e)) (r, buf') ∧
      (b = true → ∃ y, NFD13 cps y ∧ r = .ptr (encs y).length ∧ buf'.take ((encs y).length + 1) = encs y ++ [0]) ∧
      (b = false → r = .null .eilseq) := by
  cases b with
  | true =>
    obtain ⟨y, h1, h2, h3⟩ := unicode_decompose_13 hp (scan_true.1 hs)
    refine ⟨_, _, h3 buf e he (by omega), fun _ => ⟨y, h1, rfl, ?_⟩, by simp⟩
    exact take_nul _ _
  | false =>
    obtain ⟨d, h1, h2, h3⟩ := fullAll_exists (scan_scalar hs)
    have := scan_length hs
    exact ⟨_, _, decompose_bad unicode13 hp hs h1 h2 (by omega) he, by simp, fun _ => rfl⟩

/-- C71: whatever the room and the text, the call returns and no byte at or past `output_end` changes; a result is NUL-terminated UTF-8 inside
the room. -/
theorem unicode_decompose_safe {p : Pos} {t : List UInt8} (hp : Input p t) {buf : List UInt8} {e : Nat} (he : e ≤ buf.length) :
    ∃ r buf', Returns (decompose unicode13 p buf (some e)) (r, buf') ∧ buf'.length = buf.length ∧ buf'.drop e = buf.drop e ∧
      ∀ q, r = .ptr q → q < e ∧ ∃ out, (∀ c ∈ out, IsScalar c) ∧ buf'.take (q + 1) = encs out ++ [0] := by
  obtain ⟨cps, b, hs⟩ := scan_exists t
  obtain ⟨d, h1, h2, _⟩ := fullAll_exists (scan_scalar hs)
  exact decompose_safe unicode13 hp hs h1 h2 he

/-- Ṩ (U+1E68) and a mark below: the marks are sorted. -/
example : Input (encs [0x1E68, 0x327] ++ [0], none) (encs [0x1E68, 0x327]) ∧ Seq Loose (encs [0x1E68, 0x327]) [0x1E68, 0x327] ∧
    NFD13 [0x1E68, 0x327] [0x53, 0x327, 0x323, 0x307] := by
  refine ⟨input_encs (by decide) (by decide) [], scan_true.1 (scan_encs (by decide)), ?_⟩
  unfold NFD13; rw [unicode13_eq]
  exact nfd_iff.2 ⟨[0x53, 0x323, 0x307] ++ ([0x327] ++ []), .cons (fullF_full 5 _ _ (by decide +kernel)) (.cons (fullF_full 5 _ _ (by decide +kernel)) .nil),
    by decide +kernel⟩

/-- The bound is reached: U+1D160 takes four bytes, its decomposition twelve; U+0390 takes two, its decomposition six. -/
example : ∃ y, NFD13 [0x390] y ∧ (encs y).length = 3 * (encs [0x390]).length := by
  unfold NFD13; rw [unicode13_eq]
  exact ⟨[0x3B9, 0x308, 0x301], nfd_iff.2 ⟨[0x3B9, 0x308, 0x301] ++ [], .cons (fullF_full 5 _ _ (by decide +kernel)) .nil, by decide +kernel⟩, by decide⟩

/-! ### C85: a result is always complete -/

/-- C85 for texts without precomposed Hangul syllables: the call reports EOVERFLOW just if there is no room for the canonical decomposition.
Missing: texts with Hangul syllables, see `unicode_decompose_incomplete`. -/
theorem unicode_decompose_complete_partial {p : Pos} {t : List UInt8} (hp : Input p t) {cps y : List Nat} (hs : Seq Loose t cps)
    (hy : NFD13 cps y) (hn : ∀ c ∈ cps, ¬ IsSyllable c) {buf : List UInt8} {e : Nat} (he : e ≤ buf.length) :
    ((encs y).length < e → Returns (decompose unicode13 p buf (some e)) (.ptr (encs y).length, encs y ++ 0 :: buf.drop ((encs y).length + 1))) ∧
    (e ≤ (encs y).length → ∃ buf', Returns (decompose unicode13 p buf (some e)) (.null .eoverflow, buf') ∧ buf'.length = buf.length ∧
      buf'.drop e = buf.drop e) := by
  have hsc := scan_scalar (scan_true.2 hs)
  have hsy := nfd_scalar hy hsc
  refine ⟨unicode_decompose_correct _ hp hs hy hsy he, fun h => ?_⟩
  obtain ⟨d, h1, rfl⟩ := nfd_iff.1 hy
  rw [encs_perm_length (ord_perm d)] at h
  exact decompose_overflow unicode13 decomp_no_syllables hp (scan_true.2 hs) h1 (fun c hc => hsy c ((ord_perm d).mem_iff.2 hc)) hn
    (by rcases Nat.lt_or_eq_of_le h with h | h
        · exact Or.inl h
        · exact Or.inr ⟨rfl, h⟩) he

/-- C85 is violated: with four bytes of room the syllable U+AC00 is "decomposed" to itself, though its decomposition U+1100 U+1161 needs
seven. -/
theorem unicode_decompose_incomplete :
    Returns (decompose unicode13 ([0xEA, 0xB0, 0x80, 0], none) [1, 2, 3, 4] (some 4)) (.ptr 3, [0xEA, 0xB0, 0x80, 0]) ∧
    Input ([0xEA, 0xB0, 0x80, 0], none) (enc 0xAC00) ∧ NFD13 [0xAC00] [0x1100, 0x1161] := by
  have hin : Input ([0xEA, 0xB0, 0x80, 0], none) ([0xEA, 0xB0, 0x80] ++ []) := ⟨[0], rfl, by decide, Or.inr ⟨⟨[], rfl⟩, by simp⟩⟩
  have hl : Loose [0xEA, 0xB0, 0x80] 0xAC00 := legal_loose ⟨by decide, by decide⟩
  have hd : unicode13.decomp 0xAC00 = none := by rw [unicode13_eq]; decide +kernel
  refine ⟨?_, ⟨[0], by decide, by decide, Or.inr ⟨⟨[], rfl⟩, by simp⟩⟩, ?_⟩
  · have hf : Returns (decomposeFully unicode13 0xAC00 [1, 2, 3, 4] 0 (some 4)) (some 3, [0xEA, 0xB0, 0x80, 0xE1]) := by
      rw [decomposeFully, hd]
      have h1 : decomposeHangul 0xAC00 [1, 2, 3, 4] (some 0) (some 4) = .ok (none, [0xE1, 0x84, 0x80, 0xE1]) := by decide +kernel
      have h2 : encode (0xAC00 : Nat) [0xE1, 0x84, 0x80, 0xE1] 0 (some 4) = .ok (some 3, [0xEA, 0xB0, 0x80, 0xE1]) := by decide +kernel
      simp only []
      rw [liftC_bind h1]
      simp only []
      rw [h2]
      exact rfl
    obtain ⟨p', hp', heq⟩ := decomposeLoop_cons unicode13 hin hl [1, 2, 3, 4] 0 (some 4)
    have h1 : Returns (decomposeLoop unicode13 ([0xEA, 0xB0, 0x80, 0], none) [1, 2, 3, 4] 0 (some 4)) (.ok 3, [0xEA, 0xB0, 0x80, 0xE1]) := by
      rw [heq, returns_bind hf]
      simp only []
      rw [decomposeLoop_nil _ hp', returns_pure]
    have h2 := sortLoop_spec unicode13 [0xAC00] [0] [] [] 0 (by decide) ordered_nil (by simp) List.Pairwise.nil (by simp) (Or.inl ⟨rfl, rfl⟩)
    have h3 : ord unicode13.ccc [0xAC00] = [0xAC00] := by rw [unicode13_eq]; decide +kernel
    rw [List.nil_append, List.nil_append, h3] at h2
    have h4 : Returns (sortLoop unicode13 ([0xEA, 0xB0, 0x80, 0xE1].set 3 0) 0 0 0 3) [0xEA, 0xB0, 0x80, 0] := h2
    rw [decompose, returns_bind h1]
    simp only []
    rw [if_neg (by decide), liftC_bind (wr_ok (by decide) _), returns_bind h4, returns_pure]
  · unfold NFD13; rw [unicode13_eq]
    refine nfd_iff.2 ⟨jamo 0 0 0 ++ [], .cons ?_ .nil, by decide +kernel⟩
    exact .hangul (l := 0) (v := 0) (t := 0) (by decide +kernel) (by decide) (by decide) (by decide)

/-! ### C72: recomposition -/

/-- C72: recomposition is the composition of the standard, NUL-terminated, if the text is well encoded, there is room and composing never leaves
more than 100 marks behind a starter; otherwise NULL is returned with the matching `errno` and nothing at or past `output_end` changes. -/
theorem unicode_recompose_correct {p : Pos} {t : List UInt8} (hp : Input p t) {cps : List Nat} {b : Bool} (hs : Scan Loose t cps b)
    {buf : List UInt8} {e : Nat} (he : e ≤ buf.length) :
    ∃ y, Compose unicode13.ccc Primary [] cps y ∧ (encs y).length ≤ t.length ∧ ∃ r buf', Returns (recompose unicode13 p buf (some e)) (r, buf') ∧
      buf'.length = buf.length ∧ buf'.drop e = buf.drop e ∧
      (b = true → ¬ Excess unicode13.ccc Primary 100 cps → (encs y).length < e →
        r = .ptr (encs y).length ∧ buf' = encs y ++ 0 :: buf.drop ((encs y).length + 1)) ∧
      (∀ q, r = .ptr q → b = true ∧ ¬ Excess unicode13.ccc Primary 100 cps ∧ (encs y).length < e) ∧
      (∀ errno, r = .null errno → errno = .eilseq ∧ b = false ∨ errno = .enobufs ∧ Excess unicode13.ccc Primary 100 cps ∨
        errno = .eoverflow ∧ e ≤ (encs y).length) := by
  have hc := compose_primary.2 (comp_compose tables.toTable cps)
  have hlen : (encs (comp unicode13 cps)).length ≤ t.length := by
    have h1 := compose_length tables.toTable (comp_compose tables.toTable cps)
    have h2 := scan_length hs
    simp at h1; omega
  refine ⟨_, hc, hlen, ?_⟩
  obtain ⟨r, buf', h1, h2⟩ := recompose_spec tables.toTable hs hp he
  rw [gok_iff tables.toTable, ← excess_primary, not_not] at h2
  refine ⟨r, buf', h1, ?_⟩
  rcases h2 with ⟨rfl, rfl, h3, h4, rfl⟩ | ⟨h3, h4, h5⟩
  · refine ⟨by simp; omega, ?_, fun _ _ _ => ⟨rfl, rfl⟩, fun q _ => ⟨rfl, h3, h4⟩, by simp⟩
    rw [List.drop_append, List.drop_of_length_le (by omega), List.nil_append]
    obtain ⟨k, hk⟩ : ∃ k, e - (encs (comp unicode13 cps)).length = k + 1 := ⟨e - (encs (comp unicode13 cps)).length - 1, by omega⟩
    rw [hk, List.drop_succ_cons, List.drop_drop]
    congr 1; omega
  · refine ⟨h3, h4, fun g1 g2 g3 => ?_, ?_, ?_⟩
    · rcases h5 with ⟨_, h⟩ | ⟨_, h⟩ | ⟨_, h⟩
      · rw [g1] at h; cases h
      · exact absurd h g2
      · omega
    · rintro q rfl
      rcases h5 with ⟨h, _⟩ | ⟨h, _⟩ | ⟨h, _⟩ <;> cases h
    · rintro errno rfl
      simpa using h5

/-- C72: the output has the same canonical decomposition as the canonically decomposed input. -/
theorem unicode_recompose_equivalent {p : Pos} {t : List UInt8} (hp : Input p t) {cps : List Nat} (hs : Seq Loose t cps) (hn : NFD13 cps cps)
    {buf buf' : List UInt8} {e q : Nat} (he : e ≤ buf.length) (hr : Returns (recompose unicode13 p buf (some e)) (.ptr q, buf')) :
    ∃ y, NFC13 cps y ∧ NFD13 y cps ∧ q = (encs y).length ∧ buf'.take (q + 1) = encs y ++ [0] := by
  obtain ⟨y, h1, h2, r, b', h3, h4, h5, h6, h7, h8⟩ := unicode_recompose_correct hp (scan_true.2 hs) (buf := buf) (e := e) he
  obtain ⟨rfl, rfl⟩ := Prod.mk.inj (returns_unique h3 hr)
  obtain ⟨_, g2, g3⟩ := h7 q rfl
  obtain ⟨g4, rfl⟩ := h6 rfl g2 g3
  cases g4
  refine ⟨y, ⟨cps, hn, h1⟩, nfc_equiv tables (nfc_primary.1 ⟨cps, hn, h1⟩) hn, rfl, ?_⟩
  exact take_nul _ _

/-- `s` with marks below and above is recomposed to U+1E69. -/
example : Seq Loose (encs [0x73, 0x323, 0x307]) [0x73, 0x323, 0x307] ∧ NFD13 [0x73, 0x323, 0x307] [0x73, 0x323, 0x307] ∧
    Compose unicode13.ccc Primary [] [0x73, 0x323, 0x307] [0x1E69] := by
  refine ⟨scan_true.1 (scan_encs (by decide)), ?_, ?_⟩
  · unfold NFD13; rw [nfd_self_iff tables flagsD (by decide), unicode13_eq]
    decide +kernel
  · rw [compose_primary, compose_iff tables.toTable, unicode13_eq]
    decide +kernel

/-! ### C86: recomposition always succeeds -/

/-- C86 for texts without a run of more than 100 characters with a combining class other than 0: as much room as the text takes and one more
suffices. Missing: texts with such a run, see `unicode_recompose_enobufs`. -/
theorem unicode_recompose_room_partial {p : Pos} {t : List UInt8} (hp : Input p t) {cps : List Nat} (hs : Seq Loose t cps)
    (hrun : ∀ x b y, cps = x ++ b ++ y → (∀ c ∈ b, unicode13.ccc c ≠ 0) → b.length ≤ 100)
    {buf : List UInt8} {e : Nat} (he : e ≤ buf.length) (hf : t.length + 1 ≤ e) :
    ∃ y, Compose unicode13.ccc Primary [] cps y ∧
      Returns (recompose unicode13 p buf (some e)) (.ptr (encs y).length, encs y ++ 0 :: buf.drop ((encs y).length + 1)) := by
  obtain ⟨y, h1, h2, r, b', h3, h4, h5, h6, h7, h8⟩ := unicode_recompose_correct hp (scan_true.2 hs) (buf := buf) (e := e) he
  have hg : ¬ Excess unicode13.ccc Primary 100 cps := by
    rw [excess_primary, ← gok_iff tables.toTable]
    exact gok_of_runs hrun
  obtain ⟨rfl, rfl⟩ := h6 rfl hg (by omega)
  exact ⟨y, h1, h3⟩

theorem compose_marks {x : List Nat} (n : Nat) : Compose unicode13.ccc Primary x (List.replicate n 0x334) (x ++ List.replicate n 0x334) := by
  induction n generalizing x with
  | zero => simp; exact .nil
  | succ n ih =>
    have h : x ++ List.replicate (n + 1) 0x334 = (x ++ [0x334]) ++ List.replicate n 0x334 := by simp [List.replicate_succ]
    rw [List.replicate_succ, ← List.replicate_succ, h]
    refine .cons (.keep fun a s b p _ hs _ _ hc => ?_) ih
    have hi : Inert unicode13 0x334 := by rw [unicode13_eq]; exact inert_of (by decide +kernel)
    exact hi s p hs ((primary_iff hs).1 hc)

/-- C86 is violated: NULL is returned with ENOBUFS, which is not documented, for `a` with 101 overlays (U+0334), however large the room. The
text is canonically decomposed and composed. -/
theorem unicode_recompose_enobufs (buf : List UInt8) (h : 204 ≤ buf.length) :
    let x := 0x61 :: List.replicate 101 0x334
    (∃ buf', Returns (recompose unicode13 (encs x ++ [0], none) buf (some buf.length)) (.null .enobufs, buf')) ∧ NFD13 x x ∧ NFC13 x x := by
  intro x
  have hsc : ∀ c ∈ x, IsScalar c := by
    intro c hc
    simp only [x, List.mem_cons, List.mem_replicate] at hc
    rcases hc with rfl | ⟨_, rfl⟩ <;> decide
  have h0 : 0 ∉ x := by simp [x]
  have hcls : unicode13.ccc 0x61 = 0 ∧ unicode13.ccc 0x334 = 1 := by rw [unicode13_eq]; decide +kernel
  have hc : Compose unicode13.ccc Primary [] x x := by
    refine .cons (.keep (by simp)) ?_
    exact compose_marks (x := [] ++ [0x61]) 101
  have hlen : (encs x).length = 203 := by decide +kernel
  have hx : Excess unicode13.ccc Primary 100 x := by
    refine ⟨x, [], [], 0x61, List.replicate 101 0x334, by simp, hc, hcls.1, ?_, by simp⟩
    intro c hc
    rw [(List.mem_replicate.1 hc).2, hcls.2]; decide
  have hn : NFD13 x x := by
    unfold NFD13; rw [nfd_self_iff tables flagsD hsc, unicode13_eq]
    decide +kernel
  refine ⟨?_, hn, ⟨x, hn, hc⟩⟩
  obtain ⟨y, h1, h2, r, b', h3, h4, h5, h6, h7, h8⟩ := unicode_recompose_correct (input_encs hsc h0 []) (scan_encs hsc) (buf := buf) (e := buf.length) (Nat.le_refl _)
  cases r with
  | ptr q => exact absurd hx (h7 q rfl).2.1
  | null errno =>
    rcases h8 errno rfl with ⟨_, h⟩ | ⟨rfl, _⟩ | ⟨_, h⟩
    · cases h
    · exact ⟨b', h3⟩
    · omega

/-! ### C87: decomposition and recomposition -/

/-- The way to normalize a text: decompose into `buf`, then recompose the result into `buf2`. -/
def normalize (p : Pos) (buf : List UInt8) (e : Nat) (buf2 : List UInt8) (e2 : Nat) : D (Res × List UInt8) := do
  let (_, b) ← decompose unicode13 p buf (some e)
  recompose unicode13 (b, none) buf2 (some e2)

/-- C87: decomposing and recomposing a legal text yields its normalization form C, for texts without long runs of marks. -/
theorem unicode_normalize {p : Pos} {t : List UInt8} (hp : Input p t) {cps : List Nat} (hs : Seq Legal t cps)
    {buf buf2 : List UInt8} {e e2 : Nat} (he : e ≤ buf.length) (he2 : e2 ≤ buf2.length) (hf : 3 * t.length + 1 ≤ e) (hf2 : 3 * t.length + 1 ≤ e2)
    (hrun : ∀ d, NFD13 cps d → ∀ x b y, d = x ++ b ++ y → (∀ c ∈ b, unicode13.ccc c ≠ 0) → b.length ≤ 100) :
    ∃ y, NFC13 cps y ∧ Returns (normalize p buf e buf2 e2) (.ptr (encs y).length, encs y ++ 0 :: buf2.drop ((encs y).length + 1)) := by
  obtain ⟨rfl, hsc⟩ := legal_encs hs
  have h0 : 0 ∉ cps := by
    rw [← encs_zero hsc]
    obtain ⟨r, _, h, _⟩ := hp
    exact h
  obtain ⟨d, h1, h2, h3⟩ := unicode_decompose_13 hp (seq_loose hs)
  have hsd := nfd_scalar h1 hsc
  obtain ⟨y, h4, h5⟩ := unicode_recompose_room_partial (input_encs hsd (nfd_nonzero h1 h0) (buf.drop ((encs d).length + 1))) (scan_true.1 (scan_encs hsd))
    (hrun d h1) he2 (by omega)
  refine ⟨y, ⟨d, h1, h4⟩, ?_⟩
  rw [normalize, returns_bind (h3 buf e he (by omega))]
  exact h5

/-- Ångström sign (U+212B) and a mark above and one below. -/
example : Seq Legal (encs [0x212B, 0x301, 0x323]) [0x212B, 0x301, 0x323] ∧ NFD13 [0x212B, 0x301, 0x323] [0x41, 0x323, 0x30A, 0x301] ∧
    NFC13 [0x212B, 0x301, 0x323] [0x1EA0, 0x30A, 0x301] := by
  have h : NFD13 [0x212B, 0x301, 0x323] [0x41, 0x323, 0x30A, 0x301] := by
    unfold NFD13; rw [unicode13_eq]
    exact nfd_iff.2 ⟨[0x41, 0x30A] ++ ([0x301] ++ ([0x323] ++ [])), .cons (fullF_full 5 _ _ (by decide +kernel))
      (.cons (fullF_full 5 _ _ (by decide +kernel)) (.cons (fullF_full 5 _ _ (by decide +kernel)) .nil)), by decide +kernel⟩
  refine ⟨seq_encs (by decide), h, nfc_primary.2 ⟨_, h, (compose_iff tables.toTable).2 ?_⟩⟩
  rw [unicode13_eq]
  decide +kernel

/-- C87: normalizing twice is normalizing once, for both forms. -/
theorem unicode_normal_idempotent {x y : List Nat} : (NFD13 x y → NFD13 y y) ∧ (NFC13 x y → NFC13 y y) :=
  ⟨nfd_idem tables, fun h => nfc_primary.2 (nfc_idem tables (nfc_primary.1 h))⟩

theorem encs_inj {x y : List Nat} (hx : ∀ c ∈ x, IsScalar c) (hy : ∀ c ∈ y, IsScalar c) (h : encs x = encs y) : x = y := by
  have := scan_encs hy
  rw [← h] at this
  exact (scan_unique (scan_encs hx) this).1.symm

/-- C88: two texts have the same output just if they are canonically equivalent, that is, have the same canonical decomposition. -/
theorem unicode_decompose_equivalence {p p' : Pos} {t t' : List UInt8} (hp : Input p t) (hp' : Input p' t') {cps cps' : List Nat}
    (hs : Seq Loose t cps) (hs' : Seq Loose t' cps') {buf : List UInt8} {e : Nat} (he : e ≤ buf.length) (hf : 3 * t.length + 1 ≤ e)
    (hf' : 3 * t'.length + 1 ≤ e) :
    (∃ r, Returns (decompose unicode13 p buf (some e)) r ∧ Returns (decompose unicode13 p' buf (some e)) r) ↔ ∃ d, NFD13 cps d ∧ NFD13 cps' d := by
  obtain ⟨y, h1, h2, h3⟩ := unicode_decompose_13 hp hs
  obtain ⟨y', h1', h2', h3'⟩ := unicode_decompose_13 hp' hs'
  have g := h3 buf e he (by omega)
  have g' := h3' buf e he (by omega)
  constructor
  · rintro ⟨r, hr, hr'⟩
    have k := (returns_unique g hr).trans (returns_unique hr' g')
    obtain ⟨k1, k2⟩ := Prod.mk.inj k
    simp only [Res.ptr.injEq] at k1
    have k3 := List.append_inj_left k2 k1
    have := encs_inj (nfd_scalar h1 (scan_scalar (scan_true.2 hs))) (nfd_scalar h1' (scan_scalar (scan_true.2 hs'))) k3
    subst this
    exact ⟨y, h1, h1'⟩
  · rintro ⟨d, hd, hd'⟩
    have k1 := nfd_unique h1 hd
    have k2 := nfd_unique h1' hd'
    subst k1 k2
    exact ⟨_, g, g'⟩

/-- U+1E69 and `s` with the same marks in either order. -/
example : NFD13 [0x1E69] [0x73, 0x323, 0x307] ∧ NFD13 [0x73, 0x307, 0x323] [0x73, 0x323, 0x307] := by
  unfold NFD13; rw [unicode13_eq]
  exact ⟨nfd_iff.2 ⟨[0x73, 0x323, 0x307] ++ [], .cons (fullF_full 5 _ _ (by decide +kernel)) .nil, by decide +kernel⟩,
    nfd_iff.2 ⟨[0x73] ++ ([0x307] ++ ([0x323] ++ [])), .cons (fullF_full 5 _ _ (by decide +kernel))
      (.cons (fullF_full 5 _ _ (by decide +kernel)) (.cons (fullF_full 5 _ _ (by decide +kernel)) .nil)), by decide +kernel⟩⟩

/-! ### C73: Hangul -/

theorem jamo_nfd {l v t : Nat} (hl : l < 19) (hv : v < 21) (ht : t < 28) : NFD13 [syllable l v t] (jamo l v t) := by
  have hh : IsHangul (syllable l v t) := isHangul_syllable ⟨l, v, t, hl, hv, ht, rfl⟩
  refine ⟨jamo l v t ++ [], .cons (.hangul (tables.atomic _ hh) hl hv ht) .nil, ?_⟩
  rw [List.append_nil]
  refine ⟨.refl, fun x a b y he hab => ?_⟩
  have hb : b ∈ jamo l v t := by rw [he]; simp
  have hb' : b = 0x1100 + l ∨ b = 0x1161 + v ∨ b = 0x11A7 + t ∧ t ≠ 0 := by
    simp only [jamo] at hb
    split at hb <;> simp at hb <;> omega
  have : unicode13.ccc b = 0 := tables.hangul b (by simp only [IsHangul]; omega)
  omega

theorem jamo_compose {l v t : Nat} (hl : l < 19) (hv : v < 21) (ht : t < 28) : Compose unicode13.ccc Primary [] (jamo l v t) [syllable l v t] := by
  have h1 : unicode13.ccc (0x1100 + l) = 0 := tables.hangul _ (by simp only [IsHangul]; omega)
  have h2 : unicode13.ccc (syllable l v 0) = 0 := tables.hangul _ (isHangul_syllable ⟨l, v, 0, hl, hv, by decide, rfl⟩)
  have hn : ∀ c, ¬ Blocked unicode13.ccc [] c := by simp [Blocked]
  have s1 : ComposeStep unicode13.ccc Primary [] (0x1100 + l) [0x1100 + l] := .keep (by simp)
  have s2 : ComposeStep unicode13.ccc Primary [0x1100 + l] (0x1161 + v) [syllable l v 0] := .compose (a := []) (b := []) h1 (by simp) (hn _) (.lv hl hv)
  simp only [jamo]
  split
  · rename_i h
    subst h
    exact .cons s1 (.cons s2 .nil)
  · rename_i h
    exact .cons s1 (.cons s2 (.cons (.compose (a := []) (b := []) h2 (by simp) (hn _) (.lvt hl hv (by omega) ht)) .nil))

/-- C73: every Hangul syllable is decomposed to its two or three jamo, and these are recomposed to the syllable. -/
theorem unicode_hangul_round_trip {l v t : Nat} (hl : l < 19) (hv : v < 21) (ht : t < 28) {p : Pos} (hp : Input p (enc (syllable l v t)))
    {buf buf2 : List UInt8} (hb : 10 ≤ buf.length) (hb2 : 10 ≤ buf2.length) :
    Returns (decompose unicode13 p buf (some buf.length))
      (.ptr (encs (jamo l v t)).length, encs (jamo l v t) ++ 0 :: buf.drop ((encs (jamo l v t)).length + 1)) ∧
    Returns (normalize p buf buf.length buf2 buf2.length) (.ptr 3, enc (syllable l v t) ++ 0 :: buf2.drop 4) := by
  have hlt : syllable l v t < 0xD7A4 ∧ 0xAC00 ≤ syllable l v t := by simp only [syllable]; omega
  have hsc : ∀ c ∈ [syllable l v t], IsScalar c := by
    intro c hc; rw [List.mem_singleton.1 hc]; left; omega
  have hw : (enc (syllable l v t)).length = 3 := by
    rw [enc_length, width, if_neg (by omega), if_neg (by omega), if_pos (by omega)]
  have hseq : Seq Legal (enc (syllable l v t)) [syllable l v t] := by
    have := seq_encs hsc
    simpa using this
  have hn := jamo_nfd hl hv ht
  have hlen := nfd_length hn hsc
  simp only [encs_cons, encs_nil, List.append_nil, hw] at hlen
  have hsj := nfd_scalar hn hsc
  have hd := unicode_decompose_correct unicode13 hp (seq_loose hseq) hn hsj (Nat.le_refl buf.length) (by omega)
  refine ⟨hd, ?_⟩
  have h0 : 0 ∉ jamo l v t := nfd_nonzero hn (by simp; omega)
  obtain ⟨y, h1, h2⟩ := unicode_recompose_room_partial (input_encs hsj h0 (buf.drop ((encs (jamo l v t)).length + 1))) (scan_true.1 (scan_encs hsj))
    (buf := buf2) (e := buf2.length) (by
      intro x b y he hb
      have : (jamo l v t).length ≤ 3 := by simp only [jamo]; split <;> simp
      rw [he] at this; simp at this; omega) (Nat.le_refl _) (by omega)
  have hy : y = [syllable l v t] := by
    rw [compose_primary, compose_iff tables.toTable] at h1
    rw [h1, ← (compose_iff tables.toTable).1 (compose_primary.1 (jamo_compose hl hv ht))]
  subst hy
  rw [normalize, returns_bind hd]
  simp only [encs_cons, encs_nil, List.append_nil, hw] at h2
  exact h2

/-- U+D4DB. -/
example : syllable 17 16 15 = 0xD4DB ∧ jamo 17 16 15 = [0x1111, 0x1171, 0x11B6] ∧
    Input (enc (syllable 17 16 15) ++ [0], none) (enc (syllable 17 16 15)) :=
  ⟨by decide, by decide, [0], rfl, by decide, Or.inr ⟨⟨[], rfl⟩, by simp⟩⟩

/-! ### C89: the predicates -/

theorem detect_zero {u : Ucd} {disallowed maybe : Nat} (hd : disallowed ≠ 0) (hm : maybe ≠ 0) (hdm : disallowed ≠ maybe) {p : Pos} {t : List UInt8}
    (hp : Input p t) {cps : List Nat} {b : Bool} (hs : Scan Loose t cps b) : ∃ r, detect u disallowed maybe p = .ok r ∧
      (r = 0 ↔ b = true ∧ bad u disallowed 0 cps = false ∧ ∀ c ∈ cps, u.flags c &&& maybe = 0) := by
  obtain ⟨r, h1, _, _, _, h2⟩ := unicode_quick_check u disallowed maybe hd hm hdm hp hs
  refine ⟨r, h1, h2.trans ?_⟩
  rw [← bad_violates, Bool.not_eq_true]
  tauto

/-- C89 for `charstr_unicode_canonically_decomposed`: true just if the text is in normalization form D and all its characters have an accepted
encoding. For legally encoded texts the check is exact. Missing: overlong encodings are accepted too, see `unicode_checks_accept_overlong`. -/
theorem unicode_decomposed_check_partial {p : Pos} {t : List UInt8} (hp : Input p t) : ∃ r, canonicallyDecomposed unicode13 p = .ok r ∧
    (r = true ↔ ∃ cps, Seq Loose t cps ∧ NFD13 cps cps) := by
  obtain ⟨cps, b, hs⟩ := scan_exists t
  obtain ⟨r, h1, h2⟩ := detect_zero (u := unicode13) (disallowed := nfdDisallowed) (maybe := nfdMaybe) (by decide) (by decide) (by decide) hp hs
  refine ⟨decide (r = 0), by rw [canonicallyDecomposed, h1]; rfl, ?_⟩
  rw [decide_eq_true_iff, h2]
  have hx := scan_scalar hs
  constructor
  · rintro ⟨rfl, h3, h4⟩
    exact ⟨cps, scan_true.1 hs, (nfd_self_iff tables flagsD hx).2 h3⟩
  · rintro ⟨cps', h3, h4⟩
    obtain ⟨rfl, rfl⟩ := scan_unique hs (scan_true.2 h3)
    exact ⟨rfl, (nfd_self_iff tables flagsD hx).1 h4, fun c hc => flagsD.maybe c⟩

/-- C89 for `charstr_unicode_canonically_composed`: if true, the text is in normalization form C. Missing as above. -/
theorem unicode_composed_check_partial {p : Pos} {t : List UInt8} (hp : Input p t) : ∃ r, canonicallyComposed unicode13 p = .ok r ∧
    (r = true → ∃ cps, Seq Loose t cps ∧ NFC13 cps cps) := by
  obtain ⟨cps, b, hs⟩ := scan_exists t
  obtain ⟨r, h1, h2⟩ := detect_zero (u := unicode13) (disallowed := nfcDisallowed) (maybe := nfcMaybe) (by decide) (by decide) (by decide) hp hs
  refine ⟨decide (r = 0), by rw [canonicallyComposed, h1]; rfl, ?_⟩
  rw [decide_eq_true_iff, h2]
  rintro ⟨rfl, h3, h4⟩
  obtain ⟨h5, h6⟩ := not_bad_ordered h3
  exact ⟨cps, scan_true.1 hs, nfc_primary.2 (stable_nfc tables h5 fun c hc => flagsC c (scan_scalar hs c hc) (h6 c hc) (h4 c hc))⟩

/-- C89: the converse of the check for form C does not hold, as documented: U+0301 alone is in form C but "maybe". -/
theorem unicode_composed_check_incomplete : canonicallyComposed unicode13 ([0xCC, 0x81, 0], none) = .ok false ∧ NFC13 [0x301] [0x301] := by
  have hs : Scan Loose (encs [0x301]) [0x301] true := scan_encs (by decide)
  have hi : Input ([0xCC, 0x81, 0], none) (encs [0x301]) := ⟨[0], by decide, by decide, Or.inr ⟨⟨[], rfl⟩, by simp⟩⟩
  constructor
  · obtain ⟨r, h1, h2⟩ := detect_zero (u := unicode13) (disallowed := nfcDisallowed) (maybe := nfcMaybe) (by decide) (by decide) (by decide) hi hs
    rw [canonicallyComposed, h1]
    have : r ≠ 0 := by
      rw [ne_eq, h2, unicode13_eq]
      decide +kernel
    simp [bind, Except.bind, this]
    rfl
  · have hn : NFD13 [0x301] [0x301] := by
      unfold NFD13; rw [nfd_self_iff tables flagsD (by decide), unicode13_eq]
      decide +kernel
    exact ⟨_, hn, .cons (.keep (by simp)) .nil⟩

/-- C89 is violated: both predicates accept `C1 81`, which is not valid UTF-8. -/
theorem unicode_checks_accept_overlong : canonicallyDecomposed unicode13 ([0xC1, 0x81, 0], none) = .ok true ∧
    canonicallyComposed unicode13 ([0xC1, 0x81, 0], none) = .ok true ∧ ∀ cps, ¬ Seq Legal [0xC1, 0x81] cps := by
  have hl : Loose [0xC1, 0x81] 0x41 := ⟨by decide, 2, by decide, by decide, by decide, by decide⟩
  have hs : Scan Loose ([0xC1, 0x81] ++ []) [0x41] true := .cons hl .nil
  have hi : Input ([0xC1, 0x81, 0], none) ([0xC1, 0x81] ++ []) := ⟨[0], by decide, by decide, Or.inr ⟨⟨[], rfl⟩, by simp⟩⟩
  refine ⟨?_, ?_, ?_⟩
  · obtain ⟨r, h1, h2⟩ := detect_zero (u := unicode13) (disallowed := nfdDisallowed) (maybe := nfdMaybe) (by decide) (by decide) (by decide) hi hs
    rw [canonicallyDecomposed, h1]
    have : r = 0 := by rw [h2, unicode13_eq]; decide +kernel
    subst this; rfl
  · obtain ⟨r, h1, h2⟩ := detect_zero (u := unicode13) (disallowed := nfcDisallowed) (maybe := nfcMaybe) (by decide) (by decide) (by decide) hi hs
    rw [canonicallyComposed, h1]
    have : r = 0 := by rw [h2, unicode13_eq]; decide +kernel
    subst this; rfl
  · intro cps h
    have h1 := scan_unique hs (scan_true.2 (by simpa using seq_loose h))
    rw [h1.1] at h
    obtain ⟨h2, _⟩ := legal_encs h
    exact absurd h2 (by decide)

example : Input (encs [0x65, 0x301] ++ [0], none) (encs [0x65, 0x301]) ∧ NFD13 [0x65, 0x301] [0x65, 0x301] := by
  refine ⟨input_encs (by decide) (by decide) [], ?_⟩
  unfold NFD13; rw [nfd_self_iff tables flagsD (by decide), unicode13_eq]
  decide +kernel

end Verif.Unicode
