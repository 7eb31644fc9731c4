import Verif.Model.Unidata
import Verif.Proofs.Normal

/-! The functions generated from the data files: fast lookup, and what normalization relies on. -/

namespace Verif.UniGen

variable {α : Type}

/-- The intervals lie in `[a, b)` in increasing order. -/
def RTree.ok : RTree α → Nat → Nat → Bool
  | .leaf, _, _ => true
  | .node l lo hi _ r, a, b => Nat.ble a lo && Nat.ble lo hi && Nat.blt hi b && l.ok a lo && r.ok (hi + 1) b

theorem ok_mem {t : RTree α} : ∀ {a b : Nat}, t.ok a b = true → ∀ lo hi v, (lo, hi, v) ∈ t.toList → a ≤ lo ∧ lo ≤ hi ∧ hi < b := by
  induction t with
  | leaf => intro a b _ lo hi v h; simp [RTree.toList] at h
  | node l lo hi v r ihl ihr =>
    intro a b h lo' hi' v' hm
    simp only [RTree.ok, Bool.and_eq_true, Nat.ble_eq, Nat.blt_eq] at h
    obtain ⟨⟨⟨⟨h1, h2⟩, h3⟩, h4⟩, h5⟩ := h
    simp only [RTree.toList, List.mem_append, List.mem_cons, Prod.mk.injEq] at hm
    rcases hm with hm | ⟨rfl, rfl, rfl⟩ | hm
    · have := ihl h4 _ _ _ hm; omega
    · omega
    · have := ihr h5 _ _ _ hm; omega

theorem lookup_iff {t : RTree α} : ∀ {a b : Nat}, t.ok a b = true → ∀ k v, t.lookup k = some v ↔ ∃ lo hi, (lo, hi, v) ∈ t.toList ∧ lo ≤ k ∧ k ≤ hi := by
  induction t with
  | leaf => intro a b _ k v; simp [RTree.toList, RTree.lookup]
  | node l lo hi v r ihl ihr =>
    intro a b h k v'
    simp only [RTree.ok, Bool.and_eq_true, Nat.ble_eq, Nat.blt_eq] at h
    obtain ⟨⟨⟨⟨h1, h2⟩, h3⟩, h4⟩, h5⟩ := h
    have hl := ok_mem h4
    have hr := ok_mem h5
    simp only [RTree.lookup, RTree.toList, List.mem_append, List.mem_cons, Prod.mk.injEq]
    split
    · rw [ihl h4]
      constructor
      · rintro ⟨lo', hi', hm, h⟩; exact ⟨lo', hi', Or.inl hm, h⟩
      · rintro ⟨lo', hi', hm | ⟨rfl, rfl, rfl⟩ | hm, h⟩
        · exact ⟨lo', hi', hm, h⟩
        · omega
        · have := hr _ _ _ hm; omega
    · split
      · rw [Option.some.injEq]
        constructor
        · rintro rfl; exact ⟨lo, hi, Or.inr (Or.inl ⟨rfl, rfl, rfl⟩), by omega⟩
        · rintro ⟨lo', hi', hm | ⟨rfl, rfl, rfl⟩ | hm, h⟩
          · have := hl _ _ _ hm; omega
          · rfl
          · have := hr _ _ _ hm; omega
      · rw [ihr h5]
        constructor
        · rintro ⟨lo', hi', hm, h⟩; exact ⟨lo', hi', Or.inr (Or.inr hm), h⟩
        · rintro ⟨lo', hi', hm | ⟨rfl, rfl, rfl⟩ | hm, h⟩
          · have := hl _ _ _ hm; omega
          · omega
          · exact ⟨lo', hi', hm, h⟩

/-- Every entry passes. -/
def RTree.every (t : RTree α) (f : Nat → Nat → α → Bool) : Bool :=
  match t with
  | .leaf => true
  | .node l lo hi v r => l.every f && f lo hi v && r.every f

theorem every_mem {t : RTree α} {f : Nat → Nat → α → Bool} (h : t.every f = true) : ∀ lo hi v, (lo, hi, v) ∈ t.toList → f lo hi v = true := by
  induction t with
  | leaf => intro lo hi v h; simp [RTree.toList] at h
  | node l lo hi v r ihl ihr =>
    intro lo' hi' v' hm
    simp only [RTree.every, Bool.and_eq_true] at h
    simp only [RTree.toList, List.mem_append, List.mem_cons, Prod.mk.injEq] at hm
    rcases hm with hm | ⟨rfl, rfl, rfl⟩ | hm
    · exact ihl h.1.1 _ _ _ hm
    · exact h.1.2
    · exact ihr h.2 _ _ _ hm

theorem genQC_lookup {t : RTree QC} {a b : Nat} (h : t.ok a b = true) (cp : Nat) : genQC t.toList cp = (t.lookup cp).getD .yes := by
  simp only [genQC]
  cases hl : (t.toList.filter fun l => decide (l.1 ≤ cp) && decide (cp ≤ l.2.1)).getLast? with
  | none =>
    rw [List.getLast?_eq_none_iff, List.filter_eq_nil_iff] at hl
    have : t.lookup cp = none := by
      cases hk : t.lookup cp with
      | none => rfl
      | some v =>
        obtain ⟨lo, hi, hm, h1, h2⟩ := (lookup_iff h cp v).1 hk
        have := hl _ hm
        simp [h1, h2] at this
    rw [this]; rfl
  | some x =>
    obtain ⟨lo, hi, v⟩ := x
    have hm := List.mem_of_getLast? hl
    rw [List.mem_filter] at hm
    simp only [Bool.and_eq_true, decide_eq_true_eq] at hm
    rw [(lookup_iff h cp v).2 ⟨lo, hi, hm.1, hm.2⟩]; rfl

end Verif.UniGen

namespace Verif.Unidata
open Verif.UniGen Verif.Unicode Verif.Spec.Unicode Verif.Spec.Utf8

/-! ### Fast lookup -/

theorem unicodeData_ok : unicodeData.ok 0 0x110000 = true := by decide +kernel
theorem nfcQC_ok : nfcQC.ok 0 0x110000 = true := by decide +kernel
theorem nfdQC_ok : nfdQC.ok 0 0x110000 = true := by decide +kernel
theorem nfkcQC_ok : nfkcQC.ok 0 0x110000 = true := by decide +kernel
theorem nfkdQC_ok : nfkdQC.ok 0 0x110000 = true := by decide +kernel
theorem pairTree_ok : pairTree.ok 0 (2 ^ 42) = true := by decide +kernel

/-- One code point per line. -/
theorem unicodeData_single : (unicodeData.every fun lo hi _ => lo == hi) = true := by decide +kernel

theorem lookup_row {cp ccc : Nat} {dec : List Nat} : unicodeData.lookup cp = some (ccc, dec) ↔ ⟨cp, ccc, dec⟩ ∈ rows := by
  rw [lookup_iff unicodeData_ok]
  simp only [rows, List.mem_map, Prod.exists, Row.mk.injEq]
  constructor
  · rintro ⟨lo, hi, hm, h1, h2⟩
    have h3 := every_mem unicodeData_single _ _ _ hm
    simp only [beq_iff_eq] at h3
    exact ⟨lo, hi, ccc, dec, hm, by omega, rfl, rfl⟩
  · rintro ⟨lo, hi, ccc, dec, hm, rfl, rfl, rfl⟩
    have h3 := every_mem unicodeData_single _ _ _ hm
    simp only [beq_iff_eq] at h3
    exact ⟨lo, hi, hm, Nat.le_refl _, by omega⟩

def fastDecomp (cp : Nat) : Option (List Nat) :=
  match unicodeData.lookup cp with
  | none => none
  | some (_, dec) => if dec.isEmpty then none else some dec

def fastCcc (cp : Nat) : Nat :=
  match unicodeData.lookup cp with
  | none => 0
  | some (ccc, _) => ccc

def fastFlags (cp : Nat) : Nat :=
  ((nfcQC.lookup cp).getD .yes).flags 0x01 0x02 ||| ((nfdQC.lookup cp).getD .yes).flags 0x04 0x08 |||
    ((nfkcQC.lookup cp).getD .yes).flags 0x10 0x20 ||| ((nfkdQC.lookup cp).getD .yes).flags 0x40 0x80

def fastComposite (s c : Nat) : Option Nat := if c < 0x200000 then pairTree.lookup (s * 0x200000 + c) else none

def fast : Ucd := ⟨fastDecomp, fastCcc, fastFlags, fastComposite⟩

theorem decomp_eq (cp : Nat) : genDecomp rows cp = fastDecomp cp := by
  simp only [genDecomp, fastDecomp]
  cases hf : rows.find? fun r => r.cp == cp && !r.dec.isEmpty with
  | none =>
    rw [List.find?_eq_none] at hf
    cases hl : unicodeData.lookup cp with
    | none => rfl
    | some v =>
      obtain ⟨ccc, dec⟩ := v
      have := hf _ (lookup_row.1 hl)
      simp only [BEq.rfl, Bool.true_and, Bool.not_eq_true', Bool.not_eq_false] at this
      simp only [this, if_true]
  | some r =>
    obtain ⟨cp', ccc, dec⟩ := r
    have h1 := List.mem_of_find?_eq_some hf
    have h2 := List.find?_some hf
    simp only [Bool.and_eq_true, beq_iff_eq, Bool.not_eq_true'] at h2
    obtain ⟨rfl, h2⟩ := h2
    rw [lookup_row.2 h1]
    simp [h2]

theorem ccc_eq (cp : Nat) : genCcc rows cp = fastCcc cp := by
  simp only [genCcc, fastCcc]
  cases hf : rows.find? fun r => r.cp == cp with
  | none =>
    rw [List.find?_eq_none] at hf
    cases hl : unicodeData.lookup cp with
    | none => rfl
    | some v =>
      obtain ⟨ccc, dec⟩ := v
      have := hf _ (lookup_row.1 hl)
      simp at this
  | some r =>
    obtain ⟨cp', ccc, dec⟩ := r
    have h1 := List.mem_of_find?_eq_some hf
    have h2 := List.find?_some hf
    simp only [beq_iff_eq] at h2
    subst h2
    rw [lookup_row.2 h1]

/-- Each entry of the pair tree is a line that is not excluded. -/
theorem pairTree_rows : (pairTree.every fun lo hi p => lo == hi && !exclusions.contains p && match fastDecomp p with
    | some [s, c] => Nat.blt c 0x200000 && Nat.beq lo (s * 0x200000 + c)
    | _ => false) = true := by decide +kernel

/-- Each line that is not excluded is an entry of the pair tree. -/
theorem rows_pairTree : (unicodeData.every fun cp _ v => match v.2 with
    | [s, c] => exclusions.contains cp || (Nat.blt c 0x200000 && pairTree.lookup (s * 0x200000 + c) == some cp)
    | _ => true) = true := by decide +kernel

theorem composite_eq (s c : Nat) : genComposite rows exclusions s c = fastComposite s c := by
  simp only [genComposite, fastComposite]
  cases hl : (rows.filter fun r => r.dec == [s, c] && !exclusions.contains r.cp).getLast? with
  | none =>
    rw [List.getLast?_eq_none_iff, List.filter_eq_nil_iff] at hl
    simp only []
    split
    · rename_i hc
      cases hk : pairTree.lookup (s * 0x200000 + c) with
      | none => rfl
      | some p =>
        exfalso
        obtain ⟨lo, hi, hm, h1, h2⟩ := (lookup_iff pairTree_ok _ _).1 hk
        have h3 := every_mem pairTree_rows _ _ _ hm
        simp only [Bool.and_eq_true, beq_iff_eq] at h3
        obtain ⟨⟨h4, h5⟩, h6⟩ := h3
        have hlo : lo = s * 0x200000 + c := by omega
        subst hlo
        split at h6
        · rename_i s' c' hd
          simp only [Bool.and_eq_true, Nat.blt_eq, Nat.beq_eq] at h6
          have hs : s = s' := by omega
          have hc' : c = c' := by omega
          subst hs hc'
          simp only [fastDecomp] at hd
          split at hd
          · cases hd
          · rename_i ccc dec hlk
            split at hd
            · cases hd
            · cases hd
              have := hl _ (lookup_row.1 hlk)
              simp only [BEq.rfl, Bool.true_and] at this
              exact this h5
        · cases h6
    · rfl
  | some r =>
    obtain ⟨cp, ccc, dec⟩ := r
    have hm := List.mem_of_getLast? hl
    rw [List.mem_filter] at hm
    simp only [Bool.and_eq_true, beq_iff_eq, Bool.not_eq_true'] at hm
    obtain ⟨hm, rfl, hex⟩ := hm
    obtain ⟨lo, hi, hm', h1, h2⟩ := (lookup_iff unicodeData_ok _ _).1 (lookup_row.2 hm)
    have h3 := every_mem unicodeData_single _ _ _ hm'
    simp only [beq_iff_eq] at h3
    have hlo : lo = cp := by omega
    subst hlo
    have h4 := every_mem rows_pairTree _ _ _ hm'
    simp only [hex, Bool.false_or, Bool.and_eq_true, Nat.blt_eq, beq_iff_eq] at h4
    rw [if_pos h4.1, h4.2]

theorem unicode13_eq : unicode13 = fast := by
  simp only [unicode13, fast, Ucd.mk.injEq]
  refine ⟨funext decomp_eq, funext ccc_eq, ?_, funext fun s => funext fun c => composite_eq s c⟩
  funext cp
  simp only [genFlags, fastFlags, genQC_lookup nfcQC_ok, genQC_lookup nfdQC_ok, genQC_lookup nfkcQC_ok, genQC_lookup nfkdQC_ok]

end Verif.Unidata
