import Verif.Proofs.NormalText
import Verif.Spec.Unidata

/-! The normalization forms of Unicode 13. -/

namespace Verif.Unicode
open Verif.Utf8 Verif.Spec.Unicode Verif.Spec.Utf8 Verif.Unidata Verif.UniGen

mutual
theorem full_nonzero {dm : Nat → Option (List Nat)} (hm : ∀ cp l, dm cp = some l → 0 ∉ l) {cp : Nat} {d : List Nat} :
    Full dm cp d → cp ≠ 0 → 0 ∉ d
  | .mapped h1 h2, _ => fullAll_nonzero hm h2 (hm _ _ h1)
  | .hangul _ _ _ _, _ => by
    simp only [jamo]
    split <;> simp only [List.mem_cons, List.not_mem_nil, or_false, not_or] <;> omega
  | .self _ _, h => by simpa using h.symm
theorem fullAll_nonzero {dm : Nat → Option (List Nat)} (hm : ∀ cp l, dm cp = some l → 0 ∉ l) {cps d : List Nat} :
    FullAll dm cps d → 0 ∉ cps → 0 ∉ d
  | .nil, _ => by simp
  | .cons h1 h2, h => by
    simp only [List.mem_cons, not_or] at h
    simp only [List.mem_append, not_or]
    exact ⟨full_nonzero hm h1 (Ne.symm h.1), fullAll_nonzero hm h2 h.2⟩
end

end Verif.Unicode

namespace Verif.Unidata
open Verif.Utf8 Verif.Spec.Unicode Verif.Spec.Utf8 Verif.Unicode Verif.UniGen

theorem rows_nonzero : (unicodeData.every fun _ _ v => v.2.all fun c => c != 0) = true := by decide +kernel

theorem decomp_nonzero (cp : Nat) (l : List Nat) (h : unicode13.decomp cp = some l) : 0 ∉ l := by
  rw [unicode13_eq] at h
  obtain ⟨ccc, hl, _⟩ := decomp_row h
  obtain ⟨hi, hm⟩ := row_mem hl
  have := every_mem rows_nonzero _ _ _ hm
  intro h0
  rw [List.all_eq_true] at this
  simpa using this 0 h0

/-- Every string has a full decomposition. -/
theorem fullAll_exists {cps : List Nat} (h : ∀ c ∈ cps, IsScalar c) :
    ∃ d, FullAll unicode13.decomp cps d ∧ (∀ c ∈ d, IsScalar c) ∧ (encs d).length ≤ 3 * (encs cps).length := by
  induction cps with
  | nil => exact ⟨[], .nil, by simp, by simp⟩
  | cons c cps ih =>
    obtain ⟨d, h1, h2, h3⟩ := ih fun x hx => h x (List.mem_cons_of_mem _ hx)
    obtain ⟨a, h4, h5, h6⟩ := full_exists (h c (by simp))
    refine ⟨a ++ d, .cons h4 h1, fun x hx => ?_, ?_⟩
    · rcases List.mem_append.1 hx with hx | hx
      · exact h5 x hx
      · exact h2 x hx
    · simp; omega

/-- Every string has a canonical decomposition. -/
theorem nfd_exists {cps : List Nat} (h : ∀ c ∈ cps, IsScalar c) :
    ∃ y, NFD unicode13.decomp unicode13.ccc cps y ∧ (∀ c ∈ y, IsScalar c) ∧ (encs y).length ≤ 3 * (encs cps).length := by
  obtain ⟨d, h1, h2, h3⟩ := fullAll_exists h
  refine ⟨ord unicode13.ccc d, nfd_iff.2 ⟨d, h1, rfl⟩, fun c hc => h2 c ((ord_perm d).mem_iff.1 hc), ?_⟩
  rw [encs_perm_length (ord_perm d)]; exact h3

theorem nfd_scalar {x y : List Nat} (h : NFD unicode13.decomp unicode13.ccc x y) (hx : ∀ c ∈ x, IsScalar c) : ∀ c ∈ y, IsScalar c := by
  obtain ⟨y', h1, h2, _⟩ := nfd_exists hx
  rw [nfd_unique h h1]; exact h2

theorem nfd_length {x y : List Nat} (h : NFD unicode13.decomp unicode13.ccc x y) (hx : ∀ c ∈ x, IsScalar c) :
    (encs y).length ≤ 3 * (encs x).length := by
  obtain ⟨y', h1, _, h2⟩ := nfd_exists hx
  rw [nfd_unique h h1]; exact h2

theorem nfd_nonzero {x y : List Nat} (h : NFD unicode13.decomp unicode13.ccc x y) (hx : 0 ∉ x) : 0 ∉ y := by
  obtain ⟨d, h1, rfl⟩ := nfd_iff.1 h
  rw [(ord_perm d).mem_iff]
  exact fullAll_nonzero decomp_nonzero h1 hx

/-! ### What the functions say about the lines -/

theorem decomp_iff (cp : Nat) (l : List Nat) : unicode13.decomp cp = some l ↔ Maps cp l := by
  rw [unicode13_eq]
  constructor
  · intro h
    obtain ⟨k, h1, h2⟩ := decomp_row h
    exact ⟨by rintro rfl; simp at h2, k, lookup_row.1 h1⟩
  · rintro ⟨h1, k, h2⟩
    simp only [fast, fastDecomp, lookup_row.2 h2]
    cases l with
    | nil => exact absurd rfl h1
    | cons => rfl

theorem ccc_iff (cp k : Nat) : unicode13.ccc cp = k ↔ Class cp k := by
  rw [unicode13_eq]
  simp only [fast, fastCcc]
  cases hl : unicodeData.lookup cp with
  | none =>
    have hno : ∀ r ∈ rows, r.cp ≠ cp := by
      rintro ⟨cp', k, l⟩ hm rfl
      rw [lookup_row.2 hm] at hl; cases hl
    constructor
    · rintro rfl; exact Or.inr ⟨rfl, hno⟩
    · rintro (⟨l, h⟩ | ⟨rfl, _⟩)
      · exact absurd rfl (hno _ h)
      · rfl
  | some v =>
    obtain ⟨k', l'⟩ := v
    have hm := lookup_row.1 hl
    constructor
    · rintro rfl; exact Or.inl ⟨l', hm⟩
    · rintro (⟨l, h⟩ | ⟨rfl, h⟩)
      · rw [lookup_row.2 h] at hl
        cases hl; rfl
      · exact absurd rfl (h _ hm)

theorem composite_iff13 (s c p : Nat) : unicode13.composite s c = some p ↔ Maps p [s, c] ∧ p ∉ exclusions := by
  constructor
  · intro h
    refine ⟨(decomp_iff _ _).1 (tables.pair _ _ _ h), ?_⟩
    simp only [unicode13, genComposite] at h
    split at h
    · cases h
    · rename_i r hl
      cases h
      have hm := List.mem_of_getLast? hl
      rw [List.mem_filter] at hm
      have h2 := hm.2
      rw [Bool.and_eq_true] at h2
      simpa using h2.2
  · rintro ⟨⟨_, k, hm⟩, hx⟩
    rw [unicode13_eq]
    obtain ⟨lo, hi, hm', h1, h2⟩ := (lookup_iff unicodeData_ok _ _).1 (lookup_row.2 hm)
    have h3 := every_mem unicodeData_single _ _ _ hm'
    simp only [beq_iff_eq] at h3
    have hlo : lo = p := by omega
    subst hlo
    have h4 := every_mem rows_pairTree _ _ _ hm'
    have hex : exclusions.contains lo = false := by simpa using hx
    simp only [hex, Bool.false_or, Bool.and_eq_true, Nat.blt_eq, beq_iff_eq] at h4
    simp only [fast, fastComposite, if_pos h4.1, h4.2]

theorem quick_iff {t : RTree QC} {a b : Nat} (h : t.ok a b = true) (cp : Nat) (q : QC) : genQC t.toList cp = q ↔ Quick t.toList cp q := by
  rw [genQC_lookup h]
  cases hl : t.lookup cp with
  | none =>
    have hno : ∀ l ∈ t.toList, ¬ (l.1 ≤ cp ∧ cp ≤ l.2.1) := by
      rintro ⟨lo, hi, v⟩ hm ⟨h1, h2⟩
      rw [(lookup_iff h cp v).2 ⟨lo, hi, hm, h1, h2⟩] at hl; cases hl
    constructor
    · rintro rfl; exact Or.inr ⟨rfl, hno⟩
    · rintro (⟨lo, hi, hm, h1⟩ | ⟨rfl, _⟩)
      · exact absurd h1 (hno _ hm)
      · rfl
  | some v =>
    obtain ⟨lo, hi, hm, h1, h2⟩ := (lookup_iff h cp v).1 hl
    constructor
    · rintro rfl; exact Or.inl ⟨lo, hi, hm, h1, h2⟩
    · rintro (⟨lo', hi', hm', h1', h2'⟩ | ⟨rfl, hno⟩)
      · rw [(lookup_iff h cp q).2 ⟨lo', hi', hm', h1', h2'⟩] at hl
        cases hl; rfl
      · exact absurd ⟨h1, h2⟩ (hno _ hm)

/-! ### Composition by the primary composites -/

theorem primary_iff {s c p : Nat} (hs : unicode13.ccc s = 0) : Composite Primary s c p ↔ Composite (pairs unicode13) s c p := by
  rw [composite_iff, composite_iff]
  refine or_congr ?_ Iff.rfl
  rw [Primary, pairs, composite_iff13]
  constructor
  · rintro ⟨h1, h2, _⟩; exact ⟨h1, h2⟩
  · rintro ⟨h1, h2⟩
    refine ⟨h1, h2, (ccc_iff _ _).1 hs, (ccc_iff _ _).1 ?_⟩
    exact tables.starter _ _ _ ((composite_iff13 _ _ _).2 ⟨h1, h2⟩) hs

theorem step_primary {x y : List Nat} {c : Nat} : ComposeStep unicode13.ccc Primary x c y ↔ ComposeStep unicode13.ccc (pairs unicode13) x c y := by
  constructor
  · intro h
    cases h with
    | compose h1 h2 h3 h4 => exact .compose h1 h2 h3 ((primary_iff h1).1 h4)
    | keep h => exact .keep fun a s b p hx h1 h2 h3 h4 => h a s b p hx h1 h2 h3 ((primary_iff h1).2 h4)
  · intro h
    cases h with
    | compose h1 h2 h3 h4 => exact .compose h1 h2 h3 ((primary_iff h1).2 h4)
    | keep h => exact .keep fun a s b p hx h1 h2 h3 h4 => h a s b p hx h1 h2 h3 ((primary_iff h1).1 h4)

theorem compose_primary {x l y : List Nat} : Compose unicode13.ccc Primary x l y ↔ Compose unicode13.ccc (pairs unicode13) x l y := by
  constructor
  · intro h
    induction h with
    | nil => exact .nil
    | cons h1 _ ih => exact .cons (step_primary.1 h1) ih
  · intro h
    induction h with
    | nil => exact .nil
    | cons h1 _ ih => exact .cons (step_primary.2 h1) ih

theorem nfc_primary {x y : List Nat} : NFC unicode13.decomp unicode13.ccc Primary x y ↔ NFC unicode13.decomp unicode13.ccc (pairs unicode13) x y := by
  simp only [NFC, compose_primary]

theorem excess_primary {n : Nat} {x : List Nat} : Excess unicode13.ccc Primary n x ↔ Excess unicode13.ccc (pairs unicode13) n x := by
  simp only [Excess, compose_primary]

end Verif.Unidata
