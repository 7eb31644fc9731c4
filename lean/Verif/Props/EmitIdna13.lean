import Verif.Props.EmitIdna
import Verif.Proofs.Idna13

/-!
# C134 with the data of Unicode 13

For every text that says what `IdnaMappingTable.txt` of the repository does, the C source text that `gen_idna_table` writes says the same, with the exception
of the code points that C78 and C83 name.
-/

set_option autoImplicit false

namespace Verif.Emit
open Verif.Spec.CText hiding Str
open Verif.Py (Str)
open Verif.IdnaGen Verif.Unidata Verif.UniGen
open Verif.Spec.IdnaTable (File Line)
open Verif.Spec.Unicode (encs)
open Verif.Spec.Uts46 (Row)

theorem row_unique {c : Nat} {s s' : Status} {m m' : List Nat} (h : Row c s m) (h' : Row c s' m') : s = s' ∧ m = m' := by
  rw [row_iff] at h h'
  rw [h] at h'
  cases h'
  exact ⟨rfl, rfl⟩

theorem name_inj {s s' : Status} (h : ascii s.name = ascii s'.name) : s = s' := by
  revert h
  cases s <;> cases s' <;> decide

theorem row_E01EF : Row 0xE01EF .ignored [] := row_iff.2 (by decide +kernel)

theorem gives13 {ls : List Line} (h : List.Forall₂ Match ls idnaTable.toList) (s : Status) (x : Int) :
    Gives ls s.name.toList x ↔ ∃ (c : Nat) (m : List Nat), x = c ∧ Row c s m := by
  obtain ⟨h1, h2⟩ := matches_mem h
  constructor
  · rintro ⟨l, hl, c, rfl, ha, hs⟩
    obtain ⟨⟨lo, hi, s', m⟩, hr, e1, e2, e3, _⟩ := h1 l hl
    simp only at e1 e2 e3
    obtain rfl : s' = s := name_inj (e3.symm.trans hs)
    exact ⟨c, m, rfl, lo, hi, hr, by rw [← e1]; exact ha.1, by rw [← e2]; exact ha.2⟩
  · rintro ⟨c, m, rfl, lo, hi, hr, ha⟩
    obtain ⟨l, hl, e1, e2, e3, _⟩ := h2 _ hr
    simp only at e1 e2 e3
    exact ⟨l, hl, c, rfl, ⟨by rw [e1]; exact ha.1, by rw [e2]; exact ha.2⟩, e3⟩

theorem maps13 {ls : List Line} (h : List.Forall₂ Match ls idnaTable.toList) (x : Int) (d : Nat) (m : List Nat) :
    Maps ls x (d :: m) ↔ ∃ (c : Nat) (s : Status), x = c ∧ Row c s (d :: m) := by
  obtain ⟨h1, h2⟩ := matches_mem h
  constructor
  · rintro ⟨l, hl, c, rfl, ha, hm⟩
    obtain ⟨⟨lo, hi, s, m'⟩, hr, e1, e2, _, e4⟩ := h1 l hl
    simp only at e1 e2 e4
    rw [hm] at e4
    obtain rfl : d :: m = m' := e4
    exact ⟨c, s, rfl, lo, hi, hr, by rw [← e1]; exact ha.1, by rw [← e2]; exact ha.2⟩
  · rintro ⟨c, s, rfl, lo, hi, hr, ha⟩
    obtain ⟨l, hl, e1, e2, _, e4⟩ := h2 _ hr
    simp only at e1 e2 e4
    refine ⟨l, hl, c, rfl, ⟨by rw [e1]; exact ha.1, by rw [e2]; exact ha.2⟩, ?_⟩
    cases hm : l.mapping with
    | none => rw [hm] at e4; cases e4
    | some m' => rw [hm] at e4; exact congrArg some e4

theorem data13 {lines : List (List UInt8)} {ls : List Line} (h1 : File lines ls) (h2 : List.Forall₂ Match ls idnaTable.toList) : Data lines ls where
  file := h1
  ok := fun l hl => by
    obtain ⟨r, hr, hm⟩ := (matches_mem h2).1 l hl
    exact match_ok hm hr
  one := fun cp hcp => by rw [matches_filter h2, covers_count idnaTable_covers, if_pos ⟨by omega, hcp⟩]
  mapped := ⟨0x41, by decide, (gives13 h2 .mapped _).2 ⟨0x41, _, rfl, row_61⟩⟩
  valid := ⟨0x3134A, by decide, (gives13 h2 .valid _).2 ⟨0x3134A, _, rfl, row_3134A⟩⟩
  some := ⟨0x41, 0x61, [], (maps13 h2 _ _ _).2 ⟨0x41, _, rfl, row_61⟩⟩

/-- C134 with the data of Unicode 13: the predicates and the mapping in the emitted text say what the data file says of every code point. Missing: U+3134A,
U+2FA1D and U+E01F0..U+10FFFF, for which every predicate is false. -/
theorem emitted13_idna_partial {lines : List (List UInt8)} (h : Text13 lines) {buffer : Nat → List UInt8} (hb : ∀ n, (buffer n).length = 100) :
    ∃ out, idnaFile buffer (lines.map (· ++ [0])) = .ok out ∧ ∀ (c : Nat) (s : Status),
      ((∃ m, Row c s m) ∧ c ≠ 0x3134A ∧ c ≠ 0x2FA1D ∧ c < 0xE01F0 → Means header out (c!"charstr_idna_status_is_" ++ s.name.toList) [.int c] (.int 1)) ∧
      (¬ ((∃ m, Row c s m) ∧ c ≠ 0x3134A ∧ c ≠ 0x2FA1D ∧ c < 0xE01F0) → Means header out (c!"charstr_idna_status_is_" ++ s.name.toList) [.int c] (.int 0)) ∧
      ∀ m, Row c s m → Means header out c!"charstr_idna_mapping" [.int c] (if m = [] then .null else .str ((encs m).map UInt8.toNat)) := by
  obtain ⟨ls, h1, h2⟩ := h
  have hd := data13 h1 h2
  obtain ⟨out, o1, o2⟩ := emitted_idna_mapping hd hb
  obtain ⟨out', o3, o4⟩ := emitted_idna_test_partial hd hb
  obtain ⟨out'', o5, o6⟩ := emitted_idna_set_partial hd hb
  obtain rfl : out = out' := by rw [o1] at o3; exact Except.ok.inj o3
  obtain rfl : out = out'' := by rw [o1] at o5; exact Except.ok.inj o5
  have hg : ∀ (s : Status) (c : Nat), Gives ls s.name.toList c ↔ ∃ m, Row c s m := by
    intro s c
    rw [gives13 h2]
    constructor
    · rintro ⟨c', m, e, hr⟩
      obtain rfl : c = c' := by omega
      exact ⟨m, hr⟩
    · rintro ⟨m, hr⟩
      exact ⟨c, m, rfl, hr⟩
  have hset : ∀ (s : Status) (last : Nat) (c : Nat), s.name.toList ∈ inSets → (∃ m, Row last s m) → (∀ y m, Row y s m → y ≤ last) → last % 64 ≠ 0 →
      ((∃ m, Row c s m) ∧ c ≠ last → Means header out (c!"charstr_idna_status_is_" ++ s.name.toList) [.int c] (.int 1)) ∧
      (¬ ((∃ m, Row c s m) ∧ c ≠ last) → Means header out (c!"charstr_idna_status_is_" ++ s.name.toList) [.int c] (.int 0)) := by
    intro s last c hs hl hmax h64
    obtain ⟨p1, p2, p3⟩ := o6 _ hs c (by omega)
    rw [hg] at p1 p2 p3
    constructor
    · rintro ⟨⟨m, hr⟩, hne⟩
      exact p1 ⟨m, hr⟩ ⟨last, by have := hmax c m hr; omega, (hg s last).2 hl⟩
    · intro hn
      by_cases hr : ∃ m, Row c s m
      · obtain rfl : c = last := by by_contra hne; exact hn ⟨hr, hne⟩
        refine p3 hr (fun y hy hgy => ?_) (by omega)
        obtain ⟨y', m, rfl, hr'⟩ := (gives13 h2 s y).1 hgy
        have := hmax y' m hr'
        omega
      · exact p2 hr
  have htest : ∀ (s : Status) (c : Nat), s.name.toList ∈ tested →
      ((∃ m, Row c s m) ∧ c < 0xE01F0 → Means header out (c!"charstr_idna_status_is_" ++ s.name.toList) [.int c] (.int 1)) ∧
      (¬ ((∃ m, Row c s m) ∧ c < 0xE01F0) → Means header out (c!"charstr_idna_status_is_" ++ s.name.toList) [.int c] (.int 0)) := by
    intro s c hs
    have hne : s ≠ .valid ∧ s ≠ .mapped := by
      clear * - hs
      revert hs
      cases s <;> decide
    have key : (Gives ls s.name.toList c ∧ ∃ y, (c : Int) < y ∧ y < 0x110000 ∧ ¬ Gives ls s.name.toList y) ↔ (∃ m, Row c s m) ∧ c < 0xE01F0 := by
      rw [hg]
      refine and_congr_right fun hr => ?_
      obtain ⟨m, hr⟩ := hr
      constructor
      · rintro ⟨y, y1, y2, y3⟩
        by_contra hc
        obtain ⟨s', m', hr'⟩ := row_exists (c := y.toNat) (by omega)
        rw [show y = ((y.toNat : Nat) : Int) by omega, hg] at y3
        have hlast : ∀ {x : Nat} {t : Status} {k : List Nat}, 0xE01F0 ≤ x → Row x t k → t = .disallowed := by
          intro x t k hx hk
          have := row_last hk
          rcases this.2.2 with g | g | g | g
          · have := this.1 g; omega
          · have := this.2.1 g; omega
          · exact g
          · omega
        rw [hlast (by omega) hr] at y3
        rw [hlast (by omega) hr'] at hr'
        exact y3 ⟨m', hr'⟩
      · intro hc
        by_cases hs' : s = .disallowed
        · subst hs'
          refine ⟨(0xE01EF : Nat), ?_, by omega, ?_⟩
          · have : c ≠ 0xE01EF := by
              rintro rfl
              exact absurd (row_unique hr row_E01EF).1 (by decide)
            omega
          · rw [hg]
            rintro ⟨m', hr'⟩
            exact absurd (row_unique hr' row_E01EF).1 (by decide)
        · refine ⟨(0x10FFFF : Nat), by omega, by omega, ?_⟩
          rw [hg]
          rintro ⟨m', hr'⟩
          exact hs' (row_unique hr' row_10FFFF).1
    obtain ⟨p1, p2⟩ := o4 _ hs c
    rw [key] at p1 p2
    exact ⟨p1, p2⟩
  have hmap : ∀ (c : Nat) (s : Status) (m : List Nat), Row c s m →
      Means header out c!"charstr_idna_mapping" [.int c] (if m = [] then .null else .str ((encs m).map UInt8.toNat)) := by
    intro c s m hr
    cases m with
    | nil =>
      rw [if_pos rfl]
      refine (o2 c).2 fun d m hm => ?_
      obtain ⟨c', s', e, hr'⟩ := (maps13 h2 c d m).1 hm
      obtain rfl : c = c' := by omega
      exact absurd (row_unique hr hr').2 (by simp)
    | cons d m =>
      rw [if_neg (by simp)]
      exact (o2 c).1 d m ((maps13 h2 c d m).2 ⟨c, s, rfl, hr⟩)
  have hv := row_3134A
  have hm := row_2FA1D
  refine ⟨out, o1, fun c s => ?_⟩
  refine ⟨?_, ?_, fun m hr => hmap c s m hr⟩
  · rintro ⟨hr, c1, c2, c3⟩
    by_cases hs : s.name.toList ∈ tested
    · exact (htest s c hs).1 ⟨hr, c3⟩
    · have : s = .valid ∨ s = .mapped := by
        clear * - hs
        revert hs
        cases s <;> decide
      rcases this with rfl | rfl
      · exact (hset .valid 0x3134A c (by decide) ⟨_, hv⟩ (fun y m hy => (row_last hy).2.1 rfl) (by decide)).1 ⟨hr, c1⟩
      · exact (hset .mapped 0x2FA1D c (by decide) ⟨_, hm⟩ (fun y m hy => (row_last hy).1 rfl) (by decide)).1 ⟨hr, c2⟩
  · intro hn
    by_cases hs : s.name.toList ∈ tested
    · refine (htest s c hs).2 ?_
      rintro ⟨⟨m, hr⟩, c3⟩
      refine hn ⟨⟨m, hr⟩, ?_, ?_, c3⟩
      · rintro rfl
        rw [(row_unique hr hv).1] at hs
        exact absurd hs (by decide)
      · rintro rfl
        rw [(row_unique hr hm).1] at hs
        exact absurd hs (by decide)
    · have : s = .valid ∨ s = .mapped := by
        clear * - hs
        revert hs
        cases s <;> decide
      rcases this with rfl | rfl
      · refine (hset .valid 0x3134A c (by decide) ⟨_, hv⟩ (fun y m hy => (row_last hy).2.1 rfl) (by decide)).2 ?_
        rintro ⟨⟨m, hr⟩, c1⟩
        refine hn ⟨⟨m, hr⟩, c1, ?_, by have := (row_last hr).2.1 rfl; omega⟩
        rintro rfl
        exact absurd (row_unique hr hm).1 (by decide)
      · refine (hset .mapped 0x2FA1D c (by decide) ⟨_, hm⟩ (fun y m hy => (row_last hy).1 rfl) (by decide)).2 ?_
        rintro ⟨⟨m, hr⟩, c2⟩
        refine hn ⟨⟨m, hr⟩, ?_, c2, by have := (row_last hr).1 rfl; omega⟩
        rintro rfl
        exact absurd (row_unique hr hv).1 (by decide)

/-- There is such a text; in what is emitted for it, U+0041 is mapped to U+0061 and U+2FA1D is not reported as mapped. -/
example : ∃ lines out, Text13 lines ∧ idnaFile (fun _ => List.replicate 100 0) (lines.map (· ++ [0])) = .ok out ∧
    Means header out c!"charstr_idna_mapping" [.int 0x41] (.str [0x61]) ∧
    Means header out c!"charstr_idna_status_is_mapped" [.int 0x41] (.int 1) ∧
    Means header out c!"charstr_idna_status_is_mapped" [.int 0x2FA1D] (.int 0) := by
  obtain ⟨lines, h⟩ := text13_exists
  obtain ⟨out, h1, h2⟩ := emitted13_idna_partial h (buffer := fun _ => List.replicate 100 0) (fun _ => List.length_replicate)
  exact ⟨lines, out, h, h1, (h2 0x41 .mapped).2.2 _ row_61, (h2 0x41 .mapped).1 ⟨⟨_, row_61⟩, by decide, by decide, by decide⟩,
    (h2 0x2FA1D .mapped).2.1 fun h => h.2.2.1 rfl⟩

end Verif.Emit
