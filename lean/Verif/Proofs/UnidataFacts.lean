import Verif.Proofs.Unidata

/-! What normalization relies on holds of the data files. -/

namespace Verif.Unicode
open Verif.Spec.Unicode Verif.Spec.Utf8

/-- The full decomposition, computed with a bound on the depth. -/
def fullF (dm : Nat → Option (List Nat)) : Nat → Nat → Option (List Nat)
  | 0, _ => none
  | n + 1, cp => match dm cp with
    | some l => (l.mapM (fullF dm n)).map List.flatten
    | none => if 0xAC00 ≤ cp ∧ cp < 0xD7A4 then none else some [cp]

theorem mapM_full {dm : Nat → Option (List Nat)} {f : Nat → Option (List Nat)} (hf : ∀ c d, f c = some d → Full dm c d) :
    ∀ (l : List Nat) (ds : List (List Nat)), l.mapM f = some ds → FullAll dm l ds.flatten := by
  intro l
  induction l with
  | nil => intro ds h; simp at h; subst h; exact .nil
  | cons c l ih =>
    intro ds h
    simp only [List.mapM_cons, Option.pure_def, Option.bind_eq_bind, Option.bind_eq_some_iff, Option.some.injEq] at h
    obtain ⟨d, h1, ds', h2, rfl⟩ := h
    rw [List.flatten_cons]
    exact .cons (hf c d h1) (ih ds' h2)

theorem not_syllable {cp : Nat} (h : ¬ (0xAC00 ≤ cp ∧ cp < 0xD7A4)) : ¬ IsSyllable cp := by
  rintro ⟨l, v, t, hl, hv, ht, rfl⟩
  simp only [syllable] at h; omega

theorem syllable_of {cp : Nat} (h : 0xAC00 ≤ cp ∧ cp < 0xD7A4) : IsSyllable cp :=
  ⟨(cp - 0xAC00) / 588, (cp - 0xAC00) % 588 / 28, (cp - 0xAC00) % 28, by omega, by omega, by omega, by simp only [syllable]; omega⟩

theorem fullF_full {dm : Nat → Option (List Nat)} (n : Nat) : ∀ cp d, fullF dm n cp = some d → Full dm cp d := by
  induction n with
  | zero => intro cp d h; simp [fullF] at h
  | succ n ih =>
    intro cp d h
    rw [fullF] at h
    split at h
    · rename_i l hl
      rw [Option.map_eq_some_iff] at h
      obtain ⟨ds, h1, rfl⟩ := h
      exact .mapped hl (mapM_full ih l ds h1)
    · rename_i hl
      split at h
      · cases h
      · rename_i hs
        cases h
        exact .self hl (not_syllable hs)

end Verif.Unicode

namespace Verif.Unidata
open Verif.UniGen Verif.Unicode Verif.Spec.Unicode Verif.Spec.Utf8

/-! ### Checks by computation over the whole tables -/

theorem pairs_check : (pairTree.every fun lo _ p =>
    decide (fastDecomp p = some [lo / 0x200000, lo % 0x200000]) &&
    decide (fastCcc (lo / 0x200000) = 0 → fastCcc p = 0) &&
    decide (¬ IsHangul (lo / 0x200000)) && decide (¬ IsHangul (lo % 0x200000)) && decide (¬ IsHangul p) && decide (IsScalar p) &&
    decide (width p ≤ width (lo / 0x200000) + width (lo % 0x200000)) &&
    decide (fastCcc (lo / 0x200000) = 0 → (nfcQC.lookup (lo % 0x200000)).isSome = true)) = true := by decide +kernel

theorem pairTree_single : (pairTree.every fun lo hi _ => lo == hi) = true := by decide +kernel

theorem rows_check : (unicodeData.every fun cp _ v =>
    decide (¬ IsHangul cp) && decide (IsScalar cp) && v.2.all (fun c => decide (¬ (0xAC00 ≤ c ∧ c < 0xD7A4))) &&
    (match fullF fastDecomp 5 cp with
      | none => false
      | some d => d.all (fun c => decide (IsScalar c)) && decide ((d.map width).sum ≤ 3 * width cp)) &&
    (v.2.isEmpty || decide (nfdQC.lookup cp = some .no)) &&
    ((nfcQC.lookup cp).isSome ||
      if v.1 ≠ 0 then v.2.isEmpty
      else match fullF fastDecomp 5 cp with
        | some (s :: r) => decide (fastCcc s = 0) && (nfcQC.lookup s).isNone && decide (comp fast (ord fastCcc (s :: r)) = [cp])
        | _ => false)) = true := by decide +kernel

theorem nfd_check : (nfdQC.every fun lo hi v => decide (v = .no) &&
    ((Nat.ble 0xAC00 lo && Nat.blt hi 0xD7A4) || (List.range' lo (hi + 1 - lo)).all fun c => (fastDecomp c).isSome)) = true := by decide +kernel

theorem nfd_hangul : (nfdQC.toList.contains (0xAC00, 0xD7A3, .no)) = true := by decide +kernel

theorem nfc_check : (nfcQC.every fun _ _ v => decide (v ≠ .yes)) = true := by decide +kernel

theorem nfc_vowels : (nfcQC.toList.contains (0x1161, 0x1175, .maybe)) = true := by decide +kernel

theorem nfc_trailing : (nfcQC.toList.contains (0x11A8, 0x11C2, .maybe)) = true := by decide +kernel

/-! ### Conclusions -/

theorem composite_facts {s c p : Nat} (h : fastComposite s c = some p) : fastDecomp p = some [s, c] ∧ (fastCcc s = 0 → fastCcc p = 0) ∧
    ¬ IsHangul s ∧ ¬ IsHangul c ∧ ¬ IsHangul p ∧ IsScalar p ∧ width p ≤ width s + width c ∧
    (fastCcc s = 0 → (nfcQC.lookup c).isSome = true) := by
  simp only [fastComposite] at h
  split at h
  · rename_i hc
    obtain ⟨lo, hi, hm, h1, h2⟩ := (lookup_iff pairTree_ok _ _).1 h
    have h3 := every_mem pairTree_single _ _ _ hm
    simp only [beq_iff_eq] at h3
    have hs : lo / 0x200000 = s := by omega
    have hc : lo % 0x200000 = c := by omega
    have h4 := every_mem pairs_check _ _ _ hm
    simp only [hs, hc, Bool.and_eq_true, decide_eq_true_eq] at h4
    obtain ⟨⟨⟨⟨⟨⟨⟨h5, h6⟩, h7⟩, h8⟩, h9⟩, h10⟩, h11⟩, h12⟩ := h4
    exact ⟨h5, h6, h7, h8, h9, h10, h11, h12⟩
  · cases h

theorem row_mem {cp ccc : Nat} {dec : List Nat} (h : unicodeData.lookup cp = some (ccc, dec)) : ∃ hi, (cp, hi, (ccc, dec)) ∈ unicodeData.toList := by
  obtain ⟨lo, hi, hm, h1, h2⟩ := (lookup_iff unicodeData_ok _ _).1 h
  have h3 := every_mem unicodeData_single _ _ _ hm
  simp only [beq_iff_eq] at h3
  have : lo = cp := by omega
  subst this
  exact ⟨hi, hm⟩

theorem decomp_row {cp : Nat} {l : List Nat} (h : fastDecomp cp = some l) : ∃ ccc, unicodeData.lookup cp = some (ccc, l) ∧ l.isEmpty = false := by
  simp only [fastDecomp] at h
  split at h
  · cases h
  · rename_i ccc dec hl
    split at h
    · cases h
    · rename_i he
      cases h
      exact ⟨ccc, hl, by simpa using he⟩

theorem ccc_row {cp : Nat} (h : fastCcc cp ≠ 0) : ∃ dec, unicodeData.lookup cp = some (fastCcc cp, dec) := by
  cases hl : unicodeData.lookup cp with
  | none => simp [fastCcc, hl] at h
  | some v => exact ⟨v.2, by simp [fastCcc, hl]⟩

theorem row_facts {cp ccc : Nat} {dec : List Nat} (h : unicodeData.lookup cp = some (ccc, dec)) :
    ¬ IsHangul cp ∧ IsScalar cp ∧ (∀ c ∈ dec, ¬ (0xAC00 ≤ c ∧ c < 0xD7A4)) ∧
    (∃ d, Full fastDecomp cp d ∧ (∀ c ∈ d, IsScalar c) ∧ (d.map width).sum ≤ 3 * width cp) ∧
    (dec.isEmpty = false → nfdQC.lookup cp = some .no) ∧
    (nfcQC.lookup cp = none → (ccc ≠ 0 → dec.isEmpty = true) ∧ (ccc = 0 → ∃ s r, Full fastDecomp cp (s :: r) ∧ fastCcc s = 0 ∧
      nfcQC.lookup s = none ∧ comp fast (ord fastCcc (s :: r)) = [cp])) := by
  obtain ⟨hi, hm⟩ := row_mem h
  have h1 := every_mem rows_check _ _ _ hm
  simp only [Bool.and_eq_true, decide_eq_true_eq, List.all_eq_true, Bool.or_eq_true] at h1
  obtain ⟨⟨⟨⟨⟨h2, h3⟩, h4⟩, h5⟩, h6⟩, h7⟩ := h1
  refine ⟨h2, h3, h4, ?_, ?_, ?_⟩
  · split at h5
    · cases h5
    · rename_i d hd
      simp only [Bool.and_eq_true, decide_eq_true_eq, List.all_eq_true] at h5
      exact ⟨d, fullF_full _ _ _ hd, h5.1, h5.2⟩
  · intro he
    rcases h6 with h6 | h6
    · rw [he] at h6; cases h6
    · exact h6
  · intro hn
    rw [hn] at h7
    rcases h7 with h7 | h7
    · cases h7
    · constructor
      · intro hc
        rw [if_pos hc] at h7
        exact h7
      · intro hc
        rw [if_neg (by simpa using hc)] at h7
        split at h7
        · rename_i s r hd
          simp only [Bool.and_eq_true, decide_eq_true_eq, Option.isNone_iff_eq_none] at h7
          exact ⟨s, r, fullF_full _ _ _ hd, h7.1.1, h7.1.2, h7.2⟩
        · cases h7

theorem tables : Tables unicode13 := by
  rw [unicode13_eq]
  refine ⟨⟨fun s c p h => (composite_facts h).2.1, ?_, fun s c p h => (composite_facts h).2.2.1, fun s c p h => (composite_facts h).2.2.2.1,
    fun s c p h => (composite_facts h).2.2.2.2.1, fun s c p h => (composite_facts h).2.2.2.2.2.1, fun s c p h => (composite_facts h).2.2.2.2.2.2.1⟩,
    fun s c p h => (composite_facts h).1, ?_⟩
  · intro c hc
    by_contra hn
    obtain ⟨dec, hl⟩ := ccc_row hn
    exact (row_facts hl).1 hc
  · intro c hc
    cases hd : fast.decomp c with
    | none => rfl
    | some l =>
      obtain ⟨ccc, hl, _⟩ := decomp_row hd
      exact absurd hc (row_facts hl).1

theorem encs_length_sum (d : List Nat) : (encs d).length = (d.map width).sum := by
  induction d with
  | nil => rfl
  | cons c d ih => simp [ih, enc_length]

/-- Every scalar value has a full decomposition, into scalar values, at most three times as long. -/
theorem full_exists {cp : Nat} (h : IsScalar cp) :
    ∃ d, Full unicode13.decomp cp d ∧ (∀ c ∈ d, IsScalar c) ∧ (encs d).length ≤ 3 * (enc cp).length := by
  have ha := tables.atomic
  rw [unicode13_eq] at ha ⊢
  cases hd : fastDecomp cp with
  | some l =>
    obtain ⟨ccc, hl, _⟩ := decomp_row hd
    obtain ⟨d, h1, h2, h3⟩ := (row_facts hl).2.2.2.1
    exact ⟨d, h1, h2, by rw [encs_length_sum, enc_length]; exact h3⟩
  | none =>
    by_cases hs : 0xAC00 ≤ cp ∧ cp < 0xD7A4
    · obtain ⟨l, v, t, hl, hv, ht, rfl⟩ := syllable_of hs
      refine ⟨jamo l v t, .hangul hd hl hv ht, ?_, ?_⟩
      · intro c hc
        have hc' : c = 0x1100 + l ∨ c = 0x1161 + v ∨ c = 0x11A7 + t := by
          simp only [jamo] at hc
          split at hc <;> simp at hc <;> omega
        left; omega
      · have hw : ∀ x, 0x1000 ≤ x → x < 0x10000 → width x = 3 := by
          intro x h1 h2
          rw [width, if_neg (by omega), if_neg (by omega), if_pos h2]
        rw [encs_length_sum, enc_length, hw _ (by omega) (by omega)]
        simp only [jamo]
        split
        · simp only [List.map_cons, List.map_nil, List.sum_cons, List.sum_nil]
          rw [hw _ (by omega) (by omega), hw _ (by omega) (by omega)]
          omega
        · simp only [List.map_cons, List.map_nil, List.sum_cons, List.sum_nil]
          rw [hw _ (by omega) (by omega), hw _ (by omega) (by omega), hw _ (by omega) (by omega)]
          omega
    · refine ⟨[cp], .self hd (not_syllable hs), by simpa using h, ?_⟩
      simp
      omega

theorem decomp_no_syllables (cp : Nat) (l : List Nat) (h : unicode13.decomp cp = some l) : ∀ c ∈ l, ¬ IsSyllable c := by
  rw [unicode13_eq] at h
  obtain ⟨ccc, hl, _⟩ := decomp_row h
  exact fun c hc => not_syllable ((row_facts hl).2.2.1 c hc)

theorem flags_nfd (cp : Nat) : (fastFlags cp &&& 4 = 0 ↔ (nfdQC.lookup cp).getD .yes ≠ .no) ∧ (fastFlags cp &&& 8 = 0 ↔ (nfdQC.lookup cp).getD .yes ≠ .maybe) := by
  simp only [fastFlags]
  generalize (nfcQC.lookup cp).getD .yes = a
  generalize (nfdQC.lookup cp).getD .yes = b
  generalize (nfkcQC.lookup cp).getD .yes = c
  generalize (nfkdQC.lookup cp).getD .yes = d
  revert a b c d
  have h : ∀ a ∈ [QC.yes, .no, .maybe], ∀ b ∈ [QC.yes, .no, .maybe], ∀ c ∈ [QC.yes, .no, .maybe], ∀ d ∈ [QC.yes, .no, .maybe],
    (a.flags 1 2 ||| b.flags 4 8 ||| c.flags 16 32 ||| d.flags 64 128) &&& 4 = 0 ↔ b ≠ .no := by decide
  have h' : ∀ a ∈ [QC.yes, .no, .maybe], ∀ b ∈ [QC.yes, .no, .maybe], ∀ c ∈ [QC.yes, .no, .maybe], ∀ d ∈ [QC.yes, .no, .maybe],
    (a.flags 1 2 ||| b.flags 4 8 ||| c.flags 16 32 ||| d.flags 64 128) &&& 8 = 0 ↔ b ≠ .maybe := by decide
  have m : ∀ q : QC, q ∈ [QC.yes, .no, .maybe] := by intro q; cases q <;> simp
  intro a b c d
  exact ⟨h a (m a) b (m b) c (m c) d (m d), h' a (m a) b (m b) c (m c) d (m d)⟩

theorem flags_nfc (cp : Nat) : (fastFlags cp &&& 1 = 0 ↔ (nfcQC.lookup cp).getD .yes ≠ .no) ∧ (fastFlags cp &&& 2 = 0 ↔ (nfcQC.lookup cp).getD .yes ≠ .maybe) := by
  simp only [fastFlags]
  generalize (nfcQC.lookup cp).getD .yes = a
  generalize (nfdQC.lookup cp).getD .yes = b
  generalize (nfkcQC.lookup cp).getD .yes = c
  generalize (nfkdQC.lookup cp).getD .yes = d
  revert a b c d
  have h : ∀ a ∈ [QC.yes, .no, .maybe], ∀ b ∈ [QC.yes, .no, .maybe], ∀ c ∈ [QC.yes, .no, .maybe], ∀ d ∈ [QC.yes, .no, .maybe],
    (a.flags 1 2 ||| b.flags 4 8 ||| c.flags 16 32 ||| d.flags 64 128) &&& 1 = 0 ↔ a ≠ .no := by decide
  have h' : ∀ a ∈ [QC.yes, .no, .maybe], ∀ b ∈ [QC.yes, .no, .maybe], ∀ c ∈ [QC.yes, .no, .maybe], ∀ d ∈ [QC.yes, .no, .maybe],
    (a.flags 1 2 ||| b.flags 4 8 ||| c.flags 16 32 ||| d.flags 64 128) &&& 2 = 0 ↔ a ≠ .maybe := by decide
  have m : ∀ q : QC, q ∈ [QC.yes, .no, .maybe] := by intro q; cases q <;> simp
  intro a b c d
  exact ⟨h a (m a) b (m b) c (m c) d (m d), h' a (m a) b (m b) c (m c) d (m d)⟩

theorem flagsD : FlagsD unicode13 := by
  rw [unicode13_eq]
  constructor
  · intro c _
    show fastFlags c &&& 4 = 0 ↔ fastDecomp c = none ∧ ¬ IsSyllable c
    rw [(flags_nfd c).1]
    constructor
    · intro h
      refine ⟨?_, ?_⟩
      · cases hd : fastDecomp c with
        | none => rfl
        | some l =>
          obtain ⟨ccc, hl, he⟩ := decomp_row hd
          rw [(row_facts hl).2.2.2.2.1 he] at h
          exact absurd rfl h
      · intro hs
        have hr : 0xAC00 ≤ c ∧ c < 0xD7A4 := by
          obtain ⟨l, v, t, hl, hv, ht, rfl⟩ := hs
          simp only [syllable]; omega
        have := (lookup_iff nfdQC_ok c .no).2 ⟨0xAC00, 0xD7A3, List.contains_iff_mem.1 nfd_hangul, by omega⟩
        rw [this] at h
        exact absurd rfl h
    · rintro ⟨h1, h2⟩ h3
      cases hl : nfdQC.lookup c with
      | none => rw [hl] at h3; cases h3
      | some v =>
        obtain ⟨lo, hi, hm, h4, h5⟩ := (lookup_iff nfdQC_ok c v).1 hl
        have h6 := every_mem nfd_check _ _ _ hm
        simp only [Bool.and_eq_true, Bool.or_eq_true, Nat.ble_eq, Nat.blt_eq, List.all_eq_true, List.mem_range'_1] at h6
        rcases h6.2 with h7 | h7
        · exact h2 (syllable_of (by omega))
        · have := h7 c (by omega)
          rw [h1] at this
          cases this
  · intro c
    show fastFlags c &&& 8 = 0
    rw [(flags_nfd c).2]
    cases hl : nfdQC.lookup c with
    | none => simp
    | some v =>
      obtain ⟨lo, hi, hm, _⟩ := (lookup_iff nfdQC_ok c v).1 hl
      have h6 := every_mem nfd_check _ _ _ hm
      simp only [Bool.and_eq_true, decide_eq_true_eq] at h6
      rw [h6.1]; simp

theorem inert_of {c : Nat} (h : nfcQC.lookup c = none) : Inert fast c := by
  intro s p hs hp
  rcases composite_iff.1 hp with hp | hp
  · have := (composite_facts hp).2.2.2.2.2.2.2 hs
    rw [h] at this; cases this
  · rcases hp.second with h1 | h1
    · rw [(lookup_iff nfcQC_ok c .maybe).2 ⟨0x1161, 0x1175, List.contains_iff_mem.1 nfc_vowels, by omega⟩] at h; cases h
    · rw [(lookup_iff nfcQC_ok c .maybe).2 ⟨0x11A8, 0x11C2, List.contains_iff_mem.1 nfc_trailing, by omega⟩] at h; cases h

theorem compose_one (u : Ucd) (c : Nat) : Compose u.ccc (pairs u) [] [c] [c] := by
  refine .cons (x' := [c]) ?_ .nil
  exact .keep (x := []) (by intro a s b p h; simp at h)

theorem flagsC : FlagsC unicode13 := by
  have tb := tables
  rw [unicode13_eq] at tb ⊢
  intro c hc h1 h2
  have h3 : nfcQC.lookup c = none := by
    have h4 := (flags_nfc c).1.1 h1
    have h5 := (flags_nfc c).2.1 h2
    cases hl : nfcQC.lookup c with
    | none => rfl
    | some v =>
      rw [hl] at h4 h5
      obtain ⟨lo, hi, hm, _⟩ := (lookup_iff nfcQC_ok c v).1 hl
      have h6 := every_mem nfc_check _ _ _ hm
      simp only [decide_eq_true_eq] at h6
      cases v
      · exact absurd rfl h6
      · exact absurd rfl h4
      · exact absurd rfl h5
  by_cases hccc : fastCcc c = 0
  · cases hd : fastDecomp c with
    | some l =>
      obtain ⟨ccc, hl, he⟩ := decomp_row hd
      have : ccc = 0 := by simpa [fastCcc, hl] using hccc
      obtain ⟨s, r, h4, h5, h6, h7⟩ := ((row_facts hl).2.2.2.2.2 h3).2 this
      refine .starter hccc h4 h5 (inert_of h6) ?_
      have h8 := comp_compose tb.toTable (ord fastCcc (s :: r))
      rw [h7] at h8
      exact h8
    | none =>
      by_cases hs : 0xAC00 ≤ c ∧ c < 0xD7A4
      · obtain ⟨l, v, t, hl, hv, ht, rfl⟩ := syllable_of hs
        have hf : Full fast.decomp (syllable l v t) (jamo l v t) := .hangul hd hl hv ht
        have hL : Inert fast (0x1100 + l) := by
          intro s p _ hp
          rcases composite_iff.1 hp with hp | hp
          · exact (composite_facts hp).2.2.2.1 (by simp only [IsHangul]; omega)
          · have := hp.second; omega
        have cL : fast.ccc (0x1100 + l) = 0 := tb.hangul _ (by simp only [IsHangul]; omega)
        have cV : fast.ccc (0x1161 + v) = 0 := tb.hangul _ (by simp only [IsHangul]; omega)
        have k1 : ComposeStep fast.ccc (pairs fast) [] (0x1100 + l) [0x1100 + l] := .keep (x := []) (by intro a s b p h; simp at h)
        have k2 : ComposeStep fast.ccc (pairs fast) [0x1100 + l] (0x1161 + v) [syllable l v 0] :=
          .compose (a := []) (b := []) cL (by simp) (by rintro ⟨x, hx, _⟩; simp at hx) (.lv hl hv)
        by_cases ht0 : t = 0
        · subst ht0
          simp only [jamo, if_true] at hf
          refine .starter hccc hf cL hL ?_
          rw [ord_self]
          · exact .cons k1 (.cons k2 .nil)
          · rw [ordered_iff_chain]
            simp only [List.isChain_cons_cons, List.isChain_singleton, and_true, cL, cV]; omega
        · simp only [jamo, if_neg ht0] at hf
          have cT : fast.ccc (0x11A7 + t) = 0 := tb.hangul _ (by simp only [IsHangul]; omega)
          have cS : fast.ccc (syllable l v 0) = 0 := tb.hangul _ (by simp only [IsHangul, syllable]; omega)
          refine .starter hccc hf cL hL ?_
          rw [ord_self]
          · refine .cons k1 (.cons k2 (.cons ?_ .nil))
            exact .compose (a := []) (b := []) cS (by simp) (by rintro ⟨x, hx, _⟩; simp at hx) (.lvt hl hv (by omega) ht)
          · rw [ordered_iff_chain]
            simp only [List.isChain_cons_cons, List.isChain_singleton, and_true, cL, cV, cT]; omega
      · refine .starter (s := c) (r := []) hccc (.self hd (not_syllable hs)) hccc (inert_of h3) ?_
        exact compose_one fast c
  · obtain ⟨dec, hl⟩ := ccc_row hccc
    have h4 := ((row_facts hl).2.2.2.2.2 h3).1 hccc
    refine .mark hccc ?_ (inert_of h3)
    simp only [fast, fastDecomp, hl, h4, if_true]

end Verif.Unidata
