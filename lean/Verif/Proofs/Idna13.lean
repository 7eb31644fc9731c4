import Verif.Model.Idna13
import Verif.Spec.Uts46
import Verif.Proofs.Unidata
import Verif.Proofs.IdnaEncode
import Verif.Props.IdnaGen
import Verif.Props.IdnaRead

/-! The data of `IdnaMappingTable.txt`. -/

set_option autoImplicit false

namespace Verif.UniGen

variable {α : Type}

/-- The entries cover the keys from `a` to `b - 1` without gaps. -/
def RTree.covers : RTree α → Nat → Nat → Bool
  | .leaf, a, b => a == b
  | .node l lo hi _ r, a, b => l.covers a lo && Nat.ble lo hi && r.covers (hi + 1) b

theorem covers_le {t : RTree α} : ∀ {a b : Nat}, t.covers a b = true → a ≤ b := by
  induction t with
  | leaf => intro a b h; simp only [RTree.covers, beq_iff_eq] at h; omega
  | node l lo hi v r ihl ihr =>
    intro a b h
    simp only [RTree.covers, Bool.and_eq_true, Nat.ble_eq] at h
    have := ihl h.1.1; have := ihr h.2; omega

theorem covers_ok {t : RTree α} : ∀ {a b : Nat}, t.covers a b = true → t.ok a b = true := by
  induction t with
  | leaf => intro a b _; rfl
  | node l lo hi v r ihl ihr =>
    intro a b h
    simp only [RTree.covers, Bool.and_eq_true, Nat.ble_eq] at h
    have := covers_le h.1.1; have := covers_le h.2
    simp only [RTree.ok, Bool.and_eq_true, Nat.ble_eq, Nat.blt_eq]
    exact ⟨⟨⟨⟨by omega, h.1.2⟩, by omega⟩, ihl h.1.1⟩, ihr h.2⟩

/-- How many entries are about a key. -/
theorem covers_count {t : RTree α} : ∀ {a b : Nat}, t.covers a b = true → ∀ k,
    (t.toList.filter fun e => decide (e.1 ≤ k ∧ k ≤ e.2.1)).length = if a ≤ k ∧ k < b then 1 else 0 := by
  induction t with
  | leaf =>
    intro a b h k
    simp only [RTree.covers, beq_iff_eq] at h
    rw [if_neg (by omega)]; rfl
  | node l lo hi v r ihl ihr =>
    intro a b h k
    simp only [RTree.covers, Bool.and_eq_true, Nat.ble_eq] at h
    have h1 := covers_le h.1.1
    have h2 := covers_le h.2
    have h3 := h.1.2
    rw [RTree.toList, List.filter_append, List.filter_cons, List.length_append]
    have h4 := ihr h.2 k
    have h5 := ihl h.1.1 k
    by_cases hk : lo ≤ k ∧ k ≤ hi
    · rw [if_pos (show decide _ = true by simpa using hk), List.length_cons, h4, h5, if_neg (by omega), if_neg (by omega), if_pos (by omega)]
    · rw [if_neg (show ¬ decide _ = true by simpa using hk), h4, h5]
      split <;> split <;> split <;> omega

theorem covers_lookup {t : RTree α} {a b : Nat} (h : t.covers a b = true) (k : Nat) : (∃ v, t.lookup k = some v) ↔ a ≤ k ∧ k < b := by
  have hc := covers_count h k
  constructor
  · rintro ⟨v, hv⟩
    obtain ⟨lo, hi, hm, h1, h2⟩ := (lookup_iff (covers_ok h) k v).1 hv
    have := ok_mem (covers_ok h) _ _ _ hm
    omega
  · intro hk
    rw [if_pos hk] at hc
    obtain ⟨⟨lo, hi, v⟩, hx⟩ := List.length_eq_one_iff.1 hc
    have hm : (lo, hi, v) ∈ t.toList.filter fun e => decide (e.1 ≤ k ∧ k ≤ e.2.1) := by rw [hx]; simp
    rw [List.mem_filter, decide_eq_true_eq] at hm
    exact ⟨v, (lookup_iff (covers_ok h) k v).2 ⟨lo, hi, hm⟩⟩

end Verif.UniGen

namespace Verif.IdnaGen
open Verif.Unidata Verif.UniGen Verif.Puny
open Verif.Spec.IdnaTable (Line File Hex Says)
open Verif.Spec.Unicode (encs)
open Verif.Spec.Utf8 (IsScalar)
open Verif.Spec.Uts46

theorem idnaTable_covers : idnaTable.covers 0 0x110000 = true := by decide +kernel

def scalar (c : Nat) : Bool := c < 0xD800 || (0xE000 ≤ c && c < 0x110000)

theorem scalar_iff {c : Nat} (h : scalar c = true) : IsScalar c := by
  simp only [scalar, Bool.or_eq_true, Bool.and_eq_true, decide_eq_true_eq] at h
  exact h

/-- The mappings are texts of at most 33 bytes. -/
theorem idnaTable_mappings : (idnaTable.every fun _ _ v => v.2.all (fun c => scalar c && c != 0) && Nat.ble (encs v.2).length 33) = true := by decide +kernel

/-- Every mapped code point has a mapping that is not empty. -/
theorem idnaTable_mapped : (idnaTable.every fun _ _ v => v.1 != .mapped || !v.2.isEmpty) = true := by decide +kernel

/-- The code points U+2FA1D and U+3134A, and those behind them. -/
theorem idnaTable_last : (idnaTable.every fun _ hi v => (v.1 != .mapped || Nat.ble hi 0x2FA1D) && (v.1 != .valid || Nat.ble hi 0x3134A) &&
    (v.1 == .mapped || v.1 == .valid || v.1 == .disallowed || Nat.ble hi 0xE01EF)) = true := by decide +kernel

theorem row_iff {c : Nat} {s : Status} {m : List Nat} : Row c s m ↔ idnaTable.lookup c = some (s, m) :=
  (lookup_iff (covers_ok idnaTable_covers) c (s, m)).symm

theorem row_exists {c : Nat} (h : c < 0x110000) : ∃ s m, Row c s m := by
  obtain ⟨⟨s, m⟩, h⟩ := (covers_lookup idnaTable_covers c).2 ⟨by omega, h⟩
  exact ⟨s, m, row_iff.2 h⟩

theorem row_lt {c : Nat} {s : Status} {m : List Nat} (h : Row c s m) : c < 0x110000 :=
  ((covers_lookup idnaTable_covers c).1 ⟨_, row_iff.1 h⟩).2

theorem row_unique {c : Nat} {s s' : Status} {m m' : List Nat} (h : Row c s m) (h' : Row c s' m') : s = s' ∧ m = m' := by
  rw [row_iff] at h h'
  rw [h, Option.some.injEq, Prod.mk.injEq] at h'
  exact h'

/-- The line says what the row does. A missing third field is a mapping of no code points. -/
def Match (l : Line) (r : Nat × Nat × (Status × List Nat)) : Prop :=
  l.lo = r.1 ∧ l.hi = r.2.1 ∧ l.status = ascii r.2.2.1.name ∧ l.mapping.getD [] = r.2.2.2

/-- The text says what `IdnaMappingTable.txt` does. -/
def Text13 (lines : List (List UInt8)) : Prop := ∃ ls, File lines ls ∧ List.Forall₂ Match ls idnaTable.toList

theorem match_ok {l : Line} {r : Nat × Nat × (Status × List Nat)} (h : Match l r) (hr : r ∈ idnaTable.toList) : l.Ok := by
  obtain ⟨lo, hi, s, m⟩ := r
  obtain ⟨h1, h2, h3, h4⟩ := h
  simp only at h1 h2 h3 h4
  have h5 := ok_mem (covers_ok idnaTable_covers) _ _ _ hr
  have h6 := every_mem idnaTable_mappings _ _ _ hr
  simp only [Bool.and_eq_true, List.all_eq_true, Nat.ble_eq, bne_iff_ne, ne_eq] at h6
  refine ⟨by omega, by omega, fun m' hm' => ?_⟩
  have : m' = m := by rw [Option.mem_def] at hm'; rw [hm'] at h4; exact h4
  subst this
  exact ⟨fun c hc => ⟨scalar_iff (h6.1 c hc).1, (h6.1 c hc).2⟩, by omega⟩

theorem matches_filter {ls : List Line} {rs : List (Nat × Nat × (Status × List Nat))} (h : List.Forall₂ Match ls rs) (cp : Nat) :
    (About ls cp).length = (rs.filter fun e => decide (e.1 ≤ cp ∧ cp ≤ e.2.1)).length := by
  induction h with
  | nil => rfl
  | cons h _ ih =>
    simp only [About, List.filter_cons, Line.About, h.1, h.2.1] at ih ⊢
    split <;> simp [ih]

theorem matches_mem {ls : List Line} {rs : List (Nat × Nat × (Status × List Nat))} (h : List.Forall₂ Match ls rs) :
    (∀ l ∈ ls, ∃ r ∈ rs, Match l r) ∧ ∀ r ∈ rs, ∃ l ∈ ls, Match l r := by
  induction h with
  | nil => simp
  | cons h _ ih => exact ⟨by simpa using ⟨.inl h, fun l hl => .inr (by simpa using ih.1 l hl)⟩, by simpa using ⟨.inl h, fun a b c d hr => .inr (by simpa using ih.2 _ hr)⟩⟩

theorem text_name (s : Status) : text (ascii s.name ++ [0]) = s.name := by cases s <;> decide

theorem takeWhile_end {x : List UInt8} (h : (0 : UInt8) ∉ x) : (x ++ [0]).takeWhile (· ≠ 0) = x := by
  induction x with
  | nil => rfl
  | cons c x ih =>
    simp only [List.mem_cons, not_or] at h
    rw [List.cons_append, List.takeWhile_cons, if_pos (by simpa using fun e => h.1 e.symm), ih h.2]

/-- The program emits the same for every layout of the data. -/
theorem main13 {lines : List (List UInt8)} (h : Text13 lines) {buffer : Nat → List UInt8} (hb : ∀ n, (buffer n).length = 100) :
    main buffer (lines.map (· ++ [0])) = emitted13 := by
  obtain ⟨ls, h1, h2⟩ := h
  have hmem := matches_mem h2
  have hok : ∀ l ∈ ls, l.Ok := fun l hl => by
    obtain ⟨r, hr, hm⟩ := hmem.1 l hl
    exact match_ok hm hr
  obtain ⟨t, h3, h4, h5⟩ := idna_read_exact h1 hok hb fun cp hcp => by
    rw [matches_filter h2, covers_count idnaTable_covers, if_pos ⟨by omega, hcp⟩]
  have key : ∀ cp, t.status cp = status13 cp ∧ t.mapping cp = mapping13 cp := by
    intro cp
    by_cases hcp : cp < 0x110000
    · obtain ⟨s, m, lo, hi, hr, ha⟩ := row_exists hcp
      obtain ⟨l, hl, hm1, hm2, hm3, hm4⟩ := hmem.2 _ hr
      have hlook := row_iff.1 ⟨lo, hi, hr, ha⟩
      simp only at hm1 hm2 hm3 hm4
      obtain ⟨h6, h7⟩ := h5 l hl cp ⟨by omega, by omega⟩
      constructor
      · rw [Table.status, h6, status13, hlook, hm3]
        exact text_name s
      · rw [Table.mapping, h7, mapping13, hlook]
        cases hlm : l.mapping with
        | none => rw [hlm] at hm4; simp only [Option.getD_none] at hm4; subst hm4; rfl
        | some m' =>
          rw [hlm] at hm4
          simp only [Option.getD_some] at hm4
          subst hm4
          exact takeWhile_end (encs_nonzero ((hok l hl).2.2 m' (by rw [hlm]; rfl)).1)
    · have hnone : idnaTable.lookup cp = none := by
        cases hl : idnaTable.lookup cp with
        | none => rfl
        | some v => exact absurd ((covers_lookup idnaTable_covers cp).1 ⟨v, hl⟩).2 hcp
      rw [Table.status, Table.mapping, h4 cp (by omega), status13, mapping13, hnone]
      exact ⟨rfl, rfl⟩
  have hs : t.status = status13 := funext fun cp => (key cp).1
  have hm : t.mapping = mapping13 := funext fun cp => (key cp).2
  rw [main, emitted13, h3, ← hs, ← hm]
  exact pure_bind t _

/-! ### There is such a text -/

theorem hex_exists (n : Nat) : ∃ s, Hex s n ∧ ∀ c ∈ s, 48 ≤ c ∧ c ≠ 59 ∧ c ≠ 46 := by
  have hd : ∀ d : Fin 16, ∃ c : Fin 256, Verif.Spec.Charstr.hexValue (UInt8.ofNat c) = some d.1 ∧ 48 ≤ UInt8.ofNat c ∧ UInt8.ofNat c ≠ 59 ∧ UInt8.ofNat c ≠ 46 := by
    decide +kernel
  induction n using Nat.strongRecOn with
  | _ n ih =>
    obtain ⟨c, hc, hc'⟩ := hd ⟨n % 16, Nat.mod_lt _ (by omega)⟩
    simp only at hc
    by_cases h : n < 16
    · rw [show n % 16 = n by omega] at hc
      exact ⟨_, .one _ _ hc, by simpa using hc'⟩
    · obtain ⟨s, hs, hs'⟩ := ih (n / 16) (by omega)
      refine ⟨s ++ [UInt8.ofNat c], ?_, ?_⟩
      · have := Hex.more s _ _ _ hs hc
        rwa [show 16 * (n / 16) + n % 16 = n by omega] at this
      · intro d hd
        rw [List.mem_append, List.mem_singleton] at hd
        rcases hd with hd | rfl
        · exact hs' d hd
        · exact hc'

theorem hex_ne_nil {s : List UInt8} {n : Nat} (h : Hex s n) : s ≠ [] := by cases h <;> simp

theorem blank_gt {c : UInt8} (h : 32 < c) : Spec.IdnaTable.blank c = false := by
  have : ∀ c : Fin 256, 32 < UInt8.ofNat c → Spec.IdnaTable.blank (UInt8.ofNat c) = false := by decide +kernel
  have := this ⟨c.toNat, c.toNat_lt⟩
  simpa using this (by simpa using h)

theorem mapping_exists (m : List Nat) : ∃ f, Spec.IdnaTable.Mapping f m ∧ (∀ c ∈ f, c = 32 ∨ 48 ≤ c ∧ c ≠ 59) ∧ (∀ c ∈ f.head?, c = 32) := by
  induction m with
  | nil => exact ⟨[], ⟨[], .done _ (by simp), .nil⟩, by simp, by simp⟩
  | cons n m ih =>
    obtain ⟨f, ⟨as, h1, h2⟩, h3, h4⟩ := ih
    obtain ⟨s, hs, hs'⟩ := hex_exists n
    refine ⟨[32] ++ s ++ f, ⟨s :: as, .atom [32] s f as (by decide) (hex_ne_nil hs) (fun c hc => blank_gt ?_) (fun c hc => ?_) h1, .cons hs h2⟩, ?_, by simp⟩
    · have := (hs' c hc).1
      rw [UInt8.le_iff_toNat_le] at this
      rw [UInt8.lt_iff_toNat_lt]
      simp at this ⊢; omega
    · rw [h4 c hc]; rfl
    · intro c hc
      simp only [List.mem_append, List.mem_singleton] at hc
      rcases hc with (rfl | hc) | hc
      · exact .inl rfl
      · exact .inr ⟨(hs' c hc).1, (hs' c hc).2.1⟩
      · exact h3 c hc

/-- Every row can be written. -/
theorem says_exists (l : Line) (hs : ∀ c ∈ l.status, 32 < c ∧ c ≠ 35 ∧ c ≠ 59) (m : List Nat) (hm : l.mapping = some m) : ∃ line, Says line l := by
  obtain ⟨a, ha, ha'⟩ := hex_exists l.lo
  obtain ⟨b, hb, hb'⟩ := hex_exists l.hi
  obtain ⟨f, hf, hf', _⟩ := mapping_exists m
  have big : ∀ c : UInt8, 48 ≤ c → c ≠ 35 ∧ c ≠ 0 ∧ Spec.IdnaTable.blank c = false := by
    intro c hc
    rw [UInt8.le_iff_toNat_le] at hc
    refine ⟨?_, ?_, blank_gt (by rw [UInt8.lt_iff_toNat_lt]; simp at hc ⊢; omega)⟩ <;> rintro rfl <;> simp at hc
  have hr : ∀ c ∈ a ++ [46, 46] ++ b, c ≠ 59 ∧ c ≠ 35 ∧ c ≠ 0 ∧ Spec.IdnaTable.blank c = false := by
    intro c hc
    simp only [List.mem_append, List.mem_cons, List.not_mem_nil, or_false] at hc
    rcases hc with (hc | hc | hc) | hc
    · exact ⟨(ha' c hc).2.1, big c (ha' c hc).1⟩
    · subst hc; decide
    · subst hc; decide
    · exact ⟨(hb' c hc).2.1, big c (hb' c hc).1⟩
  have hs' : ∀ c ∈ l.status, c ≠ 59 ∧ c ≠ 35 ∧ c ≠ 0 ∧ Spec.IdnaTable.blank c = false := by
    intro c hc
    have h := hs c hc
    refine ⟨h.2.2, h.2.1, ?_, blank_gt h.1⟩
    rintro rfl
    exact absurd h.1 (by decide)
  have hf'' : ∀ c ∈ f, c ≠ 59 ∧ c ≠ 35 ∧ c ≠ 0 := by
    intro c hc
    rcases hf' c hc with rfl | h
    · decide
    · exact ⟨h.2, (big c h.1).1, (big c h.1).2.1⟩
  have hall : ∀ c ∈ (a ++ [46, 46] ++ b) ++ [59] ++ l.status ++ [59] ++ f, c ≠ 35 ∧ c ≠ 0 := by
    intro c hc
    rw [List.mem_append, List.mem_append, List.mem_append, List.mem_append] at hc
    rcases hc with (((hc | hc) | hc) | hc) | hc
    · exact (hr c hc).2.imp_right And.left
    · rw [List.mem_singleton] at hc; subst hc; decide
    · exact (hs' c hc).2.imp_right And.left
    · rw [List.mem_singleton] at hc; subst hc; decide
    · exact (hf'' c hc).2
  refine ⟨(a ++ [46, 46] ++ b) ++ [59] ++ l.status ++ [59] ++ f, _, [], a ++ [46, 46] ++ b, l.status, [f], (List.append_nil _).symm, by simp,
    fun h => (hall _ h).1 rfl, fun h => (hall _ h).2 rfl, by simp [List.intercalate], ?_, by simp, ⟨_, ⟨[], [], by simp, by simp, by simp, ?_, ?_⟩,
    .inr ⟨a, b, rfl, ha, hb⟩⟩, ⟨[], [], by simp, by simp, by simp, ?_, ?_⟩, fun c hc => (hs c hc).1, .inr ⟨f, [], m, rfl, hm, hf⟩⟩
  · intro x hx h
    simp only [List.mem_cons, List.not_mem_nil, or_false] at hx
    rcases hx with rfl | rfl | rfl
    · exact (hr _ h).1 rfl
    · exact (hs' _ h).1 rfl
    · exact (hf'' _ h).1 rfl
  · exact fun c hc => (hr c (List.mem_of_mem_head? hc)).2.2.2
  · exact fun c hc => (hr c (List.mem_of_getLast? hc)).2.2.2
  · exact fun c hc => (hs' c (List.mem_of_mem_head? hc)).2.2.2
  · exact fun c hc => (hs' c (List.mem_of_getLast? hc)).2.2.2

theorem text13_exists : ∃ lines, Text13 lines := by
  have : ∀ rs : List (Nat × Nat × (Status × List Nat)), ∃ lines ls, File lines ls ∧ List.Forall₂ Match ls rs := by
    intro rs
    induction rs with
    | nil => exact ⟨[], [], .nil, .nil⟩
    | cons r rs ih =>
      obtain ⟨lines, ls, h1, h2⟩ := ih
      have hst : ∀ s : Status, ∀ c ∈ ascii s.name, 32 < c ∧ c ≠ 35 ∧ c ≠ 59 := by intro s; cases s <;> decide
      obtain ⟨line, h⟩ := says_exists ⟨r.1, r.2.1, ascii r.2.2.1.name, some r.2.2.2⟩ (hst _) _ rfl
      exact ⟨_, _, .line _ _ _ _ h h1, .cons ⟨rfl, rfl, rfl, rfl⟩ h2⟩
  obtain ⟨lines, ls, h⟩ := this idnaTable.toList
  exact ⟨lines, ls, h⟩

/-! ### The emitted functions -/

theorem name_inj {s s' : Status} (h : s.name = s'.name) : s = s' := by
  revert h
  cases s <;> cases s' <;> decide

theorem status13_iff {c : Nat} (s : Status) : status13 c = s.name ↔ ∃ m, Row c s m := by
  simp only [row_iff, status13]
  cases h : idnaTable.lookup c with
  | none =>
    simp only [reduceCtorEq, exists_false, iff_false]
    cases s <;> decide
  | some v =>
    obtain ⟨s', m⟩ := v
    simp only [Option.some.injEq, Prod.mk.injEq]
    constructor
    · exact fun h => ⟨m, name_inj h, rfl⟩
    · rintro ⟨m', rfl, _⟩; rfl

theorem row_mapping {c : Nat} {s : Status} {m : List Nat} (h : Row c s m) : mapping13 c = encs m ∧ (∀ d ∈ m, IsScalar d ∧ d ≠ 0) ∧ (s = .mapped → m ≠ []) := by
  obtain ⟨lo, hi, hm, h1, h2⟩ := id h
  have h6 := every_mem idnaTable_mappings _ _ _ hm
  have h7 := every_mem idnaTable_mapped _ _ _ hm
  simp only [Bool.and_eq_true, List.all_eq_true, Nat.ble_eq, bne_iff_ne, ne_eq, Bool.or_eq_true] at h6 h7
  refine ⟨by rw [mapping13, row_iff.1 h], fun d hd => ⟨scalar_iff (h6.1 d hd).1, (h6.1 d hd).2⟩, fun hs => ?_⟩
  rintro rfl
  rcases h7 with h7 | h7
  · exact h7 hs
  · simp at h7

theorem row_last {c : Nat} {s : Status} {m : List Nat} (h : Row c s m) : (s = .mapped → c ≤ 0x2FA1D) ∧ (s = .valid → c ≤ 0x3134A) ∧
    (s = .mapped ∨ s = .valid ∨ s = .disallowed ∨ c ≤ 0xE01EF) := by
  obtain ⟨lo, hi, hm, h1, h2⟩ := h
  have h6 := every_mem idnaTable_last _ _ _ hm
  simp only [Bool.and_eq_true, Nat.ble_eq, bne_iff_ne, ne_eq, Bool.or_eq_true, beq_iff_eq] at h6
  refine ⟨fun h => ?_, fun h => ?_, ?_⟩
  · rcases h6.1.1 with h' | h'
    · exact absurd h h'
    · omega
  · rcases h6.1.2 with h' | h'
    · exact absurd h h'
    · omega
  · rcases h6.2 with ((h' | h') | h') | h'
    · exact .inl h'
    · exact .inr (.inl h')
    · exact .inr (.inr (.inl h'))
    · exact .inr (.inr (.inr (by omega)))

theorem row_2FA1D : Row 0x2FA1D .mapped [0x2A600] := row_iff.2 (by decide +kernel)
theorem row_3134A : Row 0x3134A .valid [] := row_iff.2 (by decide +kernel)
theorem row_10FFFF : Row 0x10FFFF .disallowed [] := row_iff.2 (by decide +kernel)
theorem row_61 : Row 0x41 .mapped [0x61] := row_iff.2 (by decide +kernel)

theorem mem_statuses {c : Nat} (h : c < 0x110000) : status13 c ∈ statuses := by
  obtain ⟨s, m, hr⟩ := row_exists h
  rw [(status13_iff s).2 ⟨m, hr⟩]
  cases s <;> decide

theorem valid13_last : status13 0x3134A = "valid" ∧ ∀ x, 0x3134A < x → x < 0x110000 → status13 x ≠ "valid" := by
  refine ⟨(status13_iff .valid).2 ⟨_, row_3134A⟩, fun x h1 _ h => ?_⟩
  obtain ⟨m, hr⟩ := (status13_iff .valid).1 h
  have := (row_last hr).2.1 rfl
  omega

theorem mapped13_last : status13 0x2FA1D = "mapped" ∧ ∀ x, 0x2FA1D < x → x < 0x110000 → status13 x ≠ "mapped" := by
  refine ⟨(status13_iff .mapped).2 ⟨_, row_2FA1D⟩, fun x h1 _ h => ?_⟩
  obtain ⟨m, hr⟩ := (status13_iff .mapped).1 h
  have := (row_last hr).1 rfl
  omega

/-- What the emitted functions return for code points. -/
structure Emitted.Spec (e : Emitted) : Prop where
  valid : ∀ c : Nat, ∃ b, runSet e.tables.valid c = .ok b ∧ (b = true ↔ c ≠ 0x3134A ∧ ∃ m, Row c .valid m)
  mapped : ∀ c : Nat, ∃ b, runSet e.tables.mapped c = .ok b ∧ (b = true ↔ c ≠ 0x2FA1D ∧ ∃ m, Row c .mapped m)
  ignored : ∀ c : Nat, runTest e.tables.ignored c = true ↔ ∃ m, Row c .ignored m
  deviation : ∀ c : Nat, runTest e.tables.deviation c = true ↔ ∃ m, Row c .deviation m
  mapping : ∀ c : Nat, ∃ r, Returns (lookup e.code c) r ∧ ∀ s m, Row c s m → r = if m = [] then none else some (encs m)
  status : ∀ c : Nat, c < 0x110000 → charstrIdnaStatus e.tables c = .ok (if c = 0x2FA1D ∨ c = 0x3134A ∨ 0xE01F0 ≤ c then "?" else status13 c)

theorem lost13 {c : Nat} (hc : c < 0x110000) : Lost 0x110000 0x3134A 0x2FA1D status13 c ↔ c = 0x2FA1D ∨ c = 0x3134A ∨ 0xE01F0 ≤ c := by
  have hbig : ∀ x, 0xE01F0 ≤ x → x < 0x110000 → status13 x = "disallowed" := by
    intro x h1 h2
    obtain ⟨s, m, hr⟩ := row_exists h2
    have := row_last hr
    refine (status13_iff .disallowed).2 ⟨m, ?_⟩
    rcases this.2.2 with h | h | h | h
    · have := this.1 h; omega
    · have := this.2.1 h; omega
    · exact h ▸ hr
    · omega
  have hlast : ∃ m, Row 0xE01EF .ignored m := ⟨_, row_iff.2 (show idnaTable.lookup 0xE01EF = some (.ignored, []) by decide +kernel)⟩
  constructor
  · rintro (h | h | ⟨h1, h2, h3⟩)
    · exact .inr (.inl h)
    · exact .inl h
    · by_contra hn
      push Not at hn
      have e1 := h3 0xE01EF (by omega) (by omega)
      have e2 := h3 0xE01F0 (by omega) (by omega)
      rw [(status13_iff .ignored).2 hlast] at e1
      rw [hbig 0xE01F0 (by omega) (by omega), ← e1] at e2
      exact absurd e2 (by decide)
  · rintro (h | h | h)
    · exact .inr (.inl h)
    · exact .inl h
    · refine .inr (.inr ?_)
      rw [hbig c h hc]
      exact ⟨by decide, by decide, fun y h1 h2 => hbig y (by omega) h2⟩

theorem emitted13_spec : ∃ e, emitted13 = .ok e ∧ e.Spec := by
  obtain ⟨vs, hgv, hval, hvm⟩ := idna_set_exact_partial 0x110000 0x3134A status13 "valid" (by omega) (by omega) valid13_last.1 valid13_last.2
  obtain ⟨ms, hgm, hmap, hmm⟩ := idna_set_exact_partial 0x110000 0x2FA1D status13 "mapped" (by omega) (by omega) mapped13_last.1 mapped13_last.2
  rw [if_neg (by omega)] at hvm hmm
  obtain ⟨t, hgen, hst⟩ := idna_status_partial 0x110000 0x3134A 0x2FA1D status13 (fun x => mem_statuses)
    ⟨by omega, by omega, valid13_last.1, valid13_last.2⟩ ⟨by omega, by omega, mapped13_last.1, mapped13_last.2⟩ (by omega) (by omega)
  have ht := hgen
  rw [generate, hgm, hgv] at ht
  simp only [Except.ok.injEq] at ht
  have hlast : ∀ s : Status, s ≠ .disallowed → status13 (0x110000 - 1) ≠ s.name := by
    intro s hs h
    rw [status13_iff] at h
    obtain ⟨m, h⟩ := h
    exact hs (row_unique h row_10FFFF).1
  have hHas : ∀ (s : Status) (c : Nat), Has 0x110000 status13 s.name c ↔ ∃ m, Row c s m := by
    intro s c
    rw [← status13_iff, Has]
    simp only [Int.toNat_natCast]
    constructor
    · exact fun h => h.2.2
    · intro h
      obtain ⟨m, hr⟩ := (status13_iff s).1 h
      have := row_lt hr
      exact ⟨by omega, by omega, h⟩
  refine ⟨⟨t, generateMappings 0x110000 mapping13⟩, by rw [emitted13, hgen]; exact pure_bind t _, ?_, ?_, ?_, ?_, ?_, ?_⟩
  · intro c
    rw [← ht]
    by_cases hc : c = 0x3134A
    · subst hc; exact ⟨false, hvm, by simp⟩
    · obtain ⟨b, h1, h2⟩ := hval c (by omega) (by omega)
      exact ⟨b, h1, by rw [h2, show "valid" = Status.valid.name from rfl, hHas]; simp [hc]⟩
  · intro c
    rw [← ht]
    by_cases hc : c = 0x2FA1D
    · subst hc; exact ⟨false, hmm, by simp⟩
    · obtain ⟨b, h1, h2⟩ := hmap c (by omega) (by omega)
      exact ⟨b, h1, by rw [h2, show "mapped" = Status.mapped.name from rfl, hHas]; simp [hc]⟩
  · intro c
    have : t.ignored = generateTest 0x110000 status13 "ignored" := by rw [← ht]
    simp only [this]
    rw [show "ignored" = Status.ignored.name from rfl, idna_test_exact _ _ _ (fun _ => hlast .ignored (by decide)), hHas]
  · intro c
    have : t.deviation = generateTest 0x110000 status13 "deviation" := by rw [← ht]
    simp only [this]
    rw [show "deviation" = Status.deviation.name from rfl, idna_test_exact _ _ _ (fun _ => hlast .deviation (by decide)), hHas]
  · intro c
    refine ⟨_, idna_mapping_exact 0x110000 mapping13 ⟨0x41, by omega, by rw [(row_mapping row_61).1]; decide⟩ c, fun s m hr => ?_⟩
    have h := row_mapping hr
    have hlt := row_lt hr
    simp only [Int.toNat_natCast, h.1]
    have hnil : encs m = [] ↔ m = [] := by
      constructor
      · intro he
        cases m with
        | nil => rfl
        | cons d m =>
          have := encs_len_le (x := d :: m)
          rw [he] at this
          simp at this
      · rintro rfl; rfl
    by_cases hm : m = []
    · rw [if_neg (fun h => h.2.2 (hnil.2 hm)), if_pos hm]
    · rw [if_pos ⟨by omega, by omega, fun h => hm (hnil.1 h)⟩, if_neg hm]
  · intro c hc
    by_cases hl : Lost 0x110000 0x3134A 0x2FA1D status13 c
    · rw [(hst c).2.1 hc hl, if_pos ((lost13 hc).1 hl)]
    · rw [(hst c).1 hc hl, if_neg (fun h => hl ((lost13 hc).2 h))]

/-- The step of UTS #46 as a function. -/
def uts46 (c : Nat) : Option (List Nat) :=
  match idnaTable.lookup c with
  | some (.valid, _) => some [c]
  | some (.deviation, _) => some [c]
  | some (.ignored, _) => some []
  | some (.mapped, m) => some m
  | _ => none

theorem uts46_step {c : Nat} (h : c < 0x110000) : Step c (uts46 c) := by
  obtain ⟨s, m, hr⟩ := row_exists h
  rw [uts46, row_iff.1 hr]
  cases s
  · exact .valid m hr
  · exact .mapped m hr
  · exact .ignored m hr
  · exact .deviation m hr
  · exact .disallowed m hr
  · exact .std3Valid m hr
  · exact .std3Mapped m hr

theorem step_unique {c : Nat} {a b : Option (List Nat)} (h : Step c a) (h' : Step c b) : a = b := by
  cases h <;> cases h' <;> rename_i m1 h1 m2 h2 <;> first | rfl | exact absurd (row_unique h1 h2).1 (by decide) | rw [(row_unique h1 h2).2]

/-- What the emitted functions make of a code point. -/
def map13 (c : Nat) : Option (List Nat) := if c = 0x2FA1D ∨ c = 0x3134A then none else uts46 c

theorem represents13 {e : Emitted} (he : e.Spec) (mc : Nat → Bool) : Represents (e.idna mc) map13 := by
  have hv : ∀ c, (e.idna mc).valid c = true ↔ c ≠ 0x3134A ∧ ∃ m, Row c .valid m := by
    intro c
    obtain ⟨b, h1, h2⟩ := he.valid c
    simp only [Emitted.idna, h1, h2]
  have hm : ∀ c, (e.idna mc).mapped c = true ↔ c ≠ 0x2FA1D ∧ ∃ m, Row c .mapped m := by
    intro c
    obtain ⟨b, h1, h2⟩ := he.mapped c
    simp only [Emitted.idna, h1, h2]
  have hd : ∀ c, (e.idna mc).deviation c = true ↔ ∃ m, Row c .deviation m := he.deviation
  have hi : ∀ c, (e.idna mc).ignored c = true ↔ ∃ m, Row c .ignored m := he.ignored
  have hlt : ∀ c, IsScalar c → c < 0x110000 := by intro c h; rcases h with h | h <;> omega
  have key : ∀ c, IsScalar c → ∃ s m, Row c s m ∧ uts46 c = (match s with
      | .valid => some [c] | .deviation => some [c] | .ignored => some [] | .mapped => some m | _ => none) := by
    intro c hc
    obtain ⟨s, m, hr⟩ := row_exists (hlt c hc)
    refine ⟨s, m, hr, ?_⟩
    rw [uts46, row_iff.1 hr]
    cases s <;> rfl
  have hne : ∀ {c : Nat} {s s' : Status} {m : List Nat}, Row c s m → s ≠ s' → ¬ ∃ m, Row c s' m := by
    rintro c s s' m h hs ⟨m', h'⟩
    exact hs (row_unique h h').1
  refine ⟨?_, ?_, ?_, ?_⟩
  · intro c hc h
    rw [Bool.or_eq_true, hv, hd] at h
    obtain ⟨s, m, hr, hu⟩ := key c hc
    have h1 : c ≠ 0x2FA1D := by
      rintro rfl
      rcases h with ⟨_, h⟩ | h
      · exact hne row_2FA1D (by decide) h
      · exact hne row_2FA1D (by decide) h
    have h2 : c ≠ 0x3134A := by
      rintro rfl
      rcases h with ⟨h, _⟩ | h
      · exact h rfl
      · exact hne row_3134A (by decide) h
    rw [map13, if_neg (by omega)]
    rcases h with ⟨_, m', h⟩ | ⟨m', h⟩
    · rw [uts46, row_iff.1 h]
    · rw [uts46, row_iff.1 h]
  · intro c hc _ h
    rw [hi] at h
    obtain ⟨m', h⟩ := h
    have h1 : c ≠ 0x2FA1D := by rintro rfl; exact hne row_2FA1D (by decide) ⟨_, h⟩
    have h2 : c ≠ 0x3134A := by rintro rfl; exact hne row_3134A (by decide) ⟨_, h⟩
    rw [map13, if_neg (by omega), uts46, row_iff.1 h]
  · intro c hc _ _ h
    rw [hm] at h
    obtain ⟨h1, m, h⟩ := h
    have h2 : c ≠ 0x3134A := by rintro rfl; exact hne row_3134A (by decide) ⟨_, h⟩
    have hr := row_mapping h
    refine ⟨m, ?_, fun d hd => (hr.2.1 d hd).1, ?_⟩
    · rw [map13, if_neg (by omega), uts46, row_iff.1 h]
    · obtain ⟨r, g1, g2⟩ := he.mapping c
      have g2 := g2 _ _ h
      rw [if_neg (hr.2.2 rfl)] at g2
      subst g2
      simp only [Emitted.idna]
      rw [show (lookup e.code c).run = _ from g1]
  · intro c hc h1 h2 h3
    rw [Bool.or_eq_false_iff, ← Bool.not_eq_true, ← Bool.not_eq_true, hv, hd] at h1
    rw [← Bool.not_eq_true, hi] at h2
    rw [← Bool.not_eq_true, hm] at h3
    rw [map13]
    split
    · rfl
    · rename_i hn
      push Not at hn
      obtain ⟨s, m, hr, hu⟩ := key c hc
      rw [hu]
      cases s
      · exact absurd ⟨hn.2, m, hr⟩ h1.1
      · exact absurd ⟨hn.1, m, hr⟩ h3
      · exact absurd ⟨m, hr⟩ h2
      · exact absurd ⟨m, hr⟩ h1.2
      all_goals rfl

end Verif.IdnaGen
