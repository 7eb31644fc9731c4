import Verif.Proofs.EmitIdnaFile
import Verif.Props.IdnaGen
import Verif.Props.IdnaRead

/-!
# C134: the file that `gen_idna_table` writes (gen_idna_table.c)

The file is text. What it means is given by a grammar and semantics of C (Spec/CText.lean) that know nothing of the generator, and what it ought to mean
by the lines of `IdnaMappingTable.txt` (Spec/IdnaTable.lean).
-/

set_option autoImplicit false

namespace Verif.Emit
open Verif.Spec.CText hiding Str
open Verif.Py (Str)
open Verif.IdnaGen
open Verif.Spec.IdnaTable (File Line)
open Verif.Spec.Unicode (encs)

/-- The file gives the code point `x` the status `s`. -/
def Gives (ls : List Line) (s : Str) (x : Int) : Prop := ∃ l ∈ ls, ∃ cp : Nat, x = cp ∧ l.About cp ∧ l.status = s.map fun c => UInt8.ofNat c.toNat

/-- The file maps the code point `x` to the text `m`. -/
def Maps (ls : List Line) (x : Int) (m : List Nat) : Prop := ∃ l ∈ ls, ∃ cp : Nat, x = cp ∧ l.About cp ∧ l.mapping = some m

/-- A data file with just one line about each code point, in which something but U+0000 is `valid`, something but U+0000 is `mapped`, and some mapping is not
empty. (Without those the generator makes an array without elements.) -/
structure Data (lines : List (List UInt8)) (ls : List Line) : Prop where
  file : File lines ls
  ok : ∀ l ∈ ls, l.Ok
  one : ∀ cp, cp < 0x110000 → (About ls cp).length = 1
  mapped : ∃ x, 0 < x ∧ Gives ls c!"mapped" x
  valid : ∃ x, 0 < x ∧ Gives ls c!"valid" x
  some : ∃ x c m, Maps ls x (c :: m)

theorem status_nonzero {lines : List (List UInt8)} {ls : List Line} (h : File lines ls) : ∀ l ∈ ls, (0 : UInt8) ∉ l.status := by
  induction h with
  | nil => simp
  | silent _ _ _ _ _ ih => exact ih
  | line line lines l ls h _ ih =>
    intro l' hl
    rcases List.mem_cons.1 hl with rfl | hl
    · obtain ⟨_, _, _, _, _, _, _, _, _, _, _, _, _, _, h1, _⟩ := h
      exact fun h0 => absurd (h1 0 h0) (by decide)
    · exact ih l' hl

theorem takeWhile_nul {s : List UInt8} (h : (0 : UInt8) ∉ s) : (s ++ [0]).takeWhile (· ≠ 0) = s := by
  rw [List.takeWhile_append_of_pos (fun c hc => by simpa using fun h0 : c = 0 => h (h0 ▸ hc))]
  simp

theorem byte_char (b : UInt8) : UInt8.ofNat (Char.ofNat b.toNat).toNat = b := by
  have h : b.toNat.isValidChar := .inl (by have := b.toNat_lt; omega)
  rw [Char.ofNat, dif_pos h]
  show UInt8.ofNat (UInt32.ofNatLT b.toNat _).toNat = b
  simp

theorem text_iff {s : List UInt8} (h : (0 : UInt8) ∉ s) {x : Str} (hx : x.map (fun c => Char.ofNat (UInt8.ofNat c.toNat).toNat) = x) :
    text (s ++ [0]) = String.ofList x ↔ s = x.map fun c => UInt8.ofNat c.toNat := by
  rw [text, takeWhile_nul h]
  constructor
  · intro he
    have he : s.map (fun c => Char.ofNat c.toNat) = x := by simpa using congrArg String.toList he
    rw [← he, List.map_map]
    exact (List.map_id'' (fun b => byte_char b) s).symm
  · rintro rfl
    rw [List.map_map]
    exact congrArg String.ofList hx

theorem enc_some (c : Nat) : Spec.Utf8.enc c ≠ [] := by
  unfold Spec.Utf8.enc Spec.Utf8.form
  split <;> simp

/-- The tables and the file. -/
theorem idna_file {lines : List (List UInt8)} {ls : List Line} (h : Data lines ls) {buffer : Nat → List UInt8} (hb : ∀ n, (buffer n).length = 100) :
    ∃ t tables, generate 0x110000 (Table.status t) = .ok tables ∧ Sized tables (generateMappings 0x110000 (Table.mapping t)) ∧
      idnaFile buffer (lines.map (· ++ [0])) = .ok (idnaOut tables (generateMappings 0x110000 (Table.mapping t))) ∧
      (∀ x : Str, x.map (fun c => Char.ofNat (UInt8.ofNat c.toNat).toNat) = x → ∀ n, Has 0x110000 (Table.status t) (String.ofList x) n ↔ Gives ls x n) ∧
      (∀ l ∈ ls, ∀ cp, l.About cp → Table.mapping t cp = match l.mapping with
        | some m => encs m
        | none => []) ∧ ∃ x, x < 0x110000 ∧ Table.mapping t x ≠ [] := by
  obtain ⟨t, h1, h2, h3⟩ := idna_read_exact h.file h.ok hb h.one
  have hlt : ∀ l ∈ ls, ∀ cp, l.About cp → cp < 0x110000 := fun l hl cp ha => lt_of_le_of_lt ha.2 (h.ok l hl).2.1
  have hst : ∀ l ∈ ls, ∀ cp, l.About cp → Table.status t cp = text (l.status ++ [0]) := fun l hl cp ha => by rw [Table.status, (h3 l hl cp ha).1]
  have hmp : ∀ l ∈ ls, ∀ cp, l.About cp → Table.mapping t cp = match l.mapping with
      | some m => encs m
      | none => [] := fun l hl cp ha => by
    rw [Table.mapping, (h3 l hl cp ha).2]
    cases e : l.mapping with
    | none => rfl
    | some m => exact takeWhile_nul (encs_nonzero ((h.ok l hl).2.2 m (by rw [e]; rfl)).1)
  have hhas : ∀ x : Str, x.map (fun c => Char.ofNat (UInt8.ofNat c.toNat).toNat) = x → ∀ n, Has 0x110000 (Table.status t) (String.ofList x) n ↔ Gives ls x n := by
    intro x hx n
    constructor
    · rintro ⟨h4, h5, h6⟩
      obtain ⟨cp, rfl⟩ := Int.eq_ofNat_of_zero_le h4
      rw [Int.toNat_natCast] at h6
      obtain ⟨l, hl⟩ : ∃ l, l ∈ About ls cp := List.exists_mem_of_length_pos (by rw [h.one cp (by omega)]; decide)
      rw [About, List.mem_filter, decide_eq_true_eq] at hl
      rw [hst l hl.1 cp hl.2, text_iff (status_nonzero h.file l hl.1) hx] at h6
      exact ⟨l, hl.1, cp, rfl, hl.2, h6⟩
    · rintro ⟨l, hl, cp, rfl, ha, hs⟩
      refine ⟨by omega, by have := hlt l hl cp ha; omega, ?_⟩
      rw [Int.toNat_natCast, hst l hl cp ha]
      exact (text_iff (status_nonzero h.file l hl) hx).2 hs
  have hpos : ∀ x : Str, x.map (fun c => Char.ofNat (UInt8.ofNat c.toNat).toNat) = x → (∃ n, 0 < n ∧ Gives ls x n) →
      ∃ n, 0 < n ∧ n < 0x110000 ∧ Table.status t n = String.ofList x := by
    rintro x hx ⟨n, hn, hg⟩
    obtain ⟨h4, h5, h6⟩ := (hhas x hx n).2 hg
    exact ⟨n.toNat, by omega, by omega, h6⟩
  have hsome : ∃ x, x < 0x110000 ∧ Table.mapping t x ≠ [] := by
    obtain ⟨_, c, m, l, hl, cp, rfl, ha, hm⟩ := h.some
    refine ⟨cp, hlt l hl cp ha, ?_⟩
    rw [hmp l hl cp ha, hm]
    intro he
    exact enc_some c (List.append_eq_nil_iff.1 (show Spec.Utf8.enc c ++ encs m = [] from he)).1
  obtain ⟨tables, h4, h5⟩ := sized (n := 0x110000) (by omega) (mapping := Table.mapping t) (hpos c!"mapped" (by decide) h.mapped) (hpos c!"valid" (by decide) h.valid) hsome
  refine ⟨t, tables, h4, h5, ?_, hhas, hmp, hsome⟩
  rw [idnaFile, IdnaGen.main, h1]
  show (do let tables ← generate 0x110000 (Table.status t); _) >>= _ = _
  rw [h4]
  rfl

/-- The statuses with a predicate made by `generate_test` (gen_idna_table.c:182-186). -/
def tested : List Str := [c!"deviation", c!"disallowed", c!"disallowed_STD3_valid", c!"disallowed_STD3_mapped", c!"ignored"]

/-- The statuses with a predicate made by `generate_set` (gen_idna_table.c:187-188). -/
def inSets : List Str := [c!"mapped", c!"valid"]

/-- C134 for the mappings: the file compiles, and its `charstr_idna_mapping` returns the mapping of the data file in UTF-8 for a code point that is mapped to
something, and NULL for any other argument. -/
theorem emitted_idna_mapping {lines : List (List UInt8)} {ls : List Line} (h : Data lines ls) {buffer : Nat → List UInt8}
    (hb : ∀ n, (buffer n).length = 100) :
    ∃ out, idnaFile buffer (lines.map (· ++ [0])) = .ok out ∧ ∀ x : Int,
      (∀ c m, Maps ls x (c :: m) → Means header out c!"charstr_idna_mapping" [.int x] (.str ((encs (c :: m)).map UInt8.toNat))) ∧
      ((∀ c m, ¬ Maps ls x (c :: m)) → Means header out c!"charstr_idna_mapping" [.int x] .null) := by
  obtain ⟨t, tables, h1, h2, h3, _, h5, h6⟩ := idna_file h hb
  refine ⟨_, h3, fun x => ?_⟩
  have hr := (idnaOut_means h2 x).2.2.2.2.2.2.2 _ (lookup_spec 0x110000 (Table.mapping t) x (.inr h6))
  constructor
  · rintro c m ⟨l, hl, cp, rfl, ha, hm⟩
    have hlt := lt_of_le_of_lt ha.2 (h.ok l hl).2.1
    have he : Table.mapping t cp = encs (c :: m) := by rw [h5 l hl cp ha, hm]
    have hne : encs (c :: m) ≠ [] := fun he => enc_some c (List.append_eq_nil_iff.1 (show Spec.Utf8.enc c ++ encs m = [] from he)).1
    rw [Int.toNat_natCast, he, if_pos ⟨by omega, by omega, hne⟩] at hr
    exact hr
  · intro hno
    rw [if_neg] at hr
    · exact hr
    · rintro ⟨h7, h8, h9⟩
      obtain ⟨cp, rfl⟩ := Int.eq_ofNat_of_zero_le h7
      rw [Int.toNat_natCast] at h9
      obtain ⟨l, hl⟩ : ∃ l, l ∈ About ls cp := List.exists_mem_of_length_pos (by rw [h.one cp (by omega)]; decide)
      rw [About, List.mem_filter, decide_eq_true_eq] at hl
      rw [h5 l hl.1 cp hl.2] at h9
      cases e : l.mapping with
      | none => rw [e] at h9; exact h9 rfl
      | some m =>
        cases m with
        | nil => rw [e] at h9; exact h9 rfl
        | cons c m => exact hno c m ⟨l, hl.1, cp, rfl, hl.2, e⟩

/-- C134 for five of the predicates: the file compiles, and the predicate for a status is true for just the code points with the status for which there is a
greater code point with another status. Missing: those without, for which it is false (compare `idna_test_violated`). -/
theorem emitted_idna_test_partial {lines : List (List UInt8)} {ls : List Line} (h : Data lines ls) {buffer : Nat → List UInt8}
    (hb : ∀ n, (buffer n).length = 100) :
    ∃ out, idnaFile buffer (lines.map (· ++ [0])) = .ok out ∧ ∀ s ∈ tested, ∀ x : Int,
      (Gives ls s x ∧ (∃ y, x < y ∧ y < 0x110000 ∧ ¬ Gives ls s y) → Means header out (c!"charstr_idna_status_is_" ++ s) [.int x] (.int 1)) ∧
      (¬ (Gives ls s x ∧ ∃ y, x < y ∧ y < 0x110000 ∧ ¬ Gives ls s y) → Means header out (c!"charstr_idna_status_is_" ++ s) [.int x] (.int 0)) := by
  obtain ⟨t, tables, h1, h2, h3, h4, _⟩ := idna_file h hb
  refine ⟨_, h3, fun s hs x => ?_⟩
  have key : ∃ l, Means header (idnaOut tables (generateMappings 0x110000 (Table.mapping t))) (c!"charstr_idna_status_is_" ++ s) [.int x] (bit (runTest l x)) ∧
      l = generateTest 0x110000 (Table.status t) (String.ofList s) := by
    have hm := idnaOut_means h2 x
    rw [generate] at h1
    split at h1
    · cases h1
    split at h1
    · cases h1
    cases h1
    simp only [tested, List.mem_cons, List.not_mem_nil, or_false] at hs
    rcases hs with rfl | rfl | rfl | rfl | rfl
    · exact ⟨_, hm.1, rfl⟩
    · exact ⟨_, hm.2.1, rfl⟩
    · exact ⟨_, hm.2.2.1, rfl⟩
    · exact ⟨_, hm.2.2.2.1, rfl⟩
    · exact ⟨_, hm.2.2.2.2.1, rfl⟩
  obtain ⟨l, hm, rfl⟩ := key
  have hs' : s.map (fun c => Char.ofNat (UInt8.ofNat c.toNat).toNat) = s := by
    clear * - hs
    revert s
    decide
  have hx := idna_test_exact_partial 0x110000 (Table.status t) (String.ofList s) x
  have hiff : runTest (generateTest 0x110000 (Table.status t) (String.ofList s)) x = true ↔ Gives ls s x ∧ ∃ y, x < y ∧ y < 0x110000 ∧ ¬ Gives ls s y := by
    rw [hx, h4 s hs']
    refine and_congr_right fun hg => ?_
    have hg' := (h4 s hs' x).2 hg
    rw [InLastRun]
    constructor
    · intro hn
      push Not at hn
      obtain ⟨y, h5, h6, h7⟩ := hn
      refine ⟨y, lt_of_le_of_ne h5 ?_, by omega, ?_⟩
      · rintro rfl
        exact h7 (by simpa using hg'.2.2)
      · rw [← h4 s hs']
        exact fun hy => h7 (by simpa using hy.2.2)
    · rintro ⟨y, h5, h6, h7⟩ hl
      refine h7 ((h4 s hs' y).1 ⟨by have := hg'.1; omega, by omega, hl y.toNat (by omega) (by omega)⟩)
  constructor
  · intro hg
    rw [hiff.2 hg] at hm
    exact hm
  · intro hg
    rw [Bool.eq_false_iff.2 (mt hiff.1 hg)] at hm
    exact hm

/-- C134 for the other two predicates: the file compiles, and for an argument that is not negative the predicate for a status is true for just the code points
with the status for which there is a greater one with the status. Missing: the greatest, for which it is false if it is no multiple of 64 (compare
`idna_set_violated`) and outside the array otherwise, and negative arguments (`idna_set_negative`). -/
theorem emitted_idna_set_partial {lines : List (List UInt8)} {ls : List Line} (h : Data lines ls) {buffer : Nat → List UInt8}
    (hb : ∀ n, (buffer n).length = 100) :
    ∃ out, idnaFile buffer (lines.map (· ++ [0])) = .ok out ∧ ∀ s ∈ inSets, ∀ x : Int, 0 ≤ x →
      (Gives ls s x → (∃ y, x < y ∧ Gives ls s y) → Means header out (c!"charstr_idna_status_is_" ++ s) [.int x] (.int 1)) ∧
      (¬ Gives ls s x → Means header out (c!"charstr_idna_status_is_" ++ s) [.int x] (.int 0)) ∧
      (Gives ls s x → (∀ y, x < y → ¬ Gives ls s y) → x % 64 ≠ 0 → Means header out (c!"charstr_idna_status_is_" ++ s) [.int x] (.int 0)) := by
  obtain ⟨t, tables, h1, h2, h3, h4, _⟩ := idna_file h hb
  refine ⟨_, h3, fun s hs x hx => ?_⟩
  have key : ∃ set, generateSet 0x110000 (Table.status t) (String.ofList s) = .ok set ∧ ∀ b, runSet set x = .ok b →
      Means header (idnaOut tables (generateMappings 0x110000 (Table.mapping t))) (c!"charstr_idna_status_is_" ++ s) [.int x] (bit b) := by
    have hm := idnaOut_means h2 x
    rw [generate] at h1
    split at h1
    · cases h1
    rename_i h5
    split at h1
    · cases h1
    rename_i h6
    cases h1
    simp only [inSets, List.mem_cons, List.not_mem_nil, or_false] at hs
    rcases hs with rfl | rfl
    · exact ⟨_, h5, hm.2.2.2.2.2.1⟩
    · exact ⟨_, h6, hm.2.2.2.2.2.2.1⟩
  obtain ⟨set, hset, hm⟩ := key
  have hs' : s.map (fun c => Char.ofNat (UInt8.ofNat c.toNat).toNat) = s := by
    clear * - hs
    revert s
    decide
  have hex : ∃ y, 0 < y ∧ Gives ls s y := by
    simp only [inSets, List.mem_cons, List.not_mem_nil, or_false] at hs
    rcases hs with rfl | rfl
    · exact h.mapped
    · exact h.valid
  obtain ⟨y, hy, hgy⟩ := hex
  have hhy := (h4 s hs' y).2 hgy
  obtain ⟨_, h7⟩ | ⟨m, h7, h8, h9, h10⟩ := maxOn_spec (Table.status t) (String.ofList s) 0x110000
  · exact absurd hhy.2.2 (h7 _ (by have := hhy.1; have := hhy.2.1; omega))
  have hpos : 0 < m := by
    by_contra hn
    exact h10 y.toNat (by omega) (by have := hhy.2.1; omega) hhy.2.2
  obtain ⟨set', h11, h12, h13⟩ := idna_set_exact_partial 0x110000 m (Table.status t) (String.ofList s) h8 hpos h9 h10
  obtain rfl : set = set' := by rw [hset] at h11; exact Except.ok.inj h11
  have hgm : Gives ls s m := (h4 s hs' m).1 ⟨by omega, by omega, by simpa using h9⟩
  have hle : ∀ z, Gives ls s z → z ≤ m := fun z hz => by
    have hz := (h4 s hs' z).2 hz
    by_contra hlt
    exact h10 z.toNat (by omega) (by have := hz.1; have := hz.2.1; omega) hz.2.2
  refine ⟨fun hg hy => ?_, fun hg => ?_, fun hg hno h64 => ?_⟩
  · obtain ⟨y, h14, h15⟩ := hy
    obtain ⟨b, h16, h17⟩ := h12 x hx (by have := hle y h15; omega)
    have := hm b h16
    rw [h17.2 ((h4 s hs' x).2 hg)] at this
    exact this
  · have hne : x ≠ m := by rintro rfl; exact hg hgm
    obtain ⟨b, h16, h17⟩ := h12 x hx hne
    have := hm b h16
    have hb : b = false := by
      rw [← Bool.not_eq_true, h17, h4 s hs']; exact hg
    rw [hb] at this
    exact this
  · have hxm : x = m := by
      have := hle x hg
      by_contra hne
      exact hno m (by omega) hgm
    subst hxm
    rw [if_neg (by omega)] at h13
    exact hm false h13

/-! ## Examples -/

theorem sample_idna : Data sampleFile sampleLines where
  file := sample_file
  ok := sample_ok.1
  one := sample_ok.2
  mapped := ⟨0x41, by decide, ⟨0x41, 0x41, ascii "mapped", some [0x61, 0x301]⟩, by simp [sampleLines], 0x41, rfl, by decide, by decide⟩
  valid := ⟨1, by decide, ⟨0, 0x40, ascii "valid", none⟩, by simp [sampleLines], 1, rfl, by decide, by decide⟩
  some := ⟨0x41, 0x61, [0x301], ⟨0x41, 0x41, ascii "mapped", some [0x61, 0x301]⟩, by simp [sampleLines], 0x41, rfl, by decide, rfl⟩

/-- The sample: U+0041 is mapped to two code points, nothing else is mapped, U+0041 is not `valid`, U+1234 is. -/
example {buffer : Nat → List UInt8} (hb : ∀ n, (buffer n).length = 100) :
    ∃ out, idnaFile buffer (sampleFile.map (· ++ [0])) = .ok out ∧
      Means header out c!"charstr_idna_mapping" [.int 0x41] (.str [0x61, 0xCC, 0x81]) ∧
      Means header out c!"charstr_idna_mapping" [.int (-1)] .null ∧
      Means header out c!"charstr_idna_status_is_valid" [.int 0x1234] (.int 1) ∧
      Means header out c!"charstr_idna_status_is_mapped" [.int 0x41] (.int 0) ∧
      Means header out c!"charstr_idna_status_is_ignored" [.int 0x41] (.int 0) := by
  obtain ⟨out, h1, h2⟩ := emitted_idna_mapping sample_idna hb
  obtain ⟨out', h3, h4⟩ := emitted_idna_set_partial sample_idna hb
  obtain ⟨out'', h5, h6⟩ := emitted_idna_test_partial sample_idna hb
  obtain rfl : out = out' := by rw [h1] at h3; exact Except.ok.inj h3
  obtain rfl : out = out'' := by rw [h1] at h5; exact Except.ok.inj h5
  have h41 : Gives sampleLines c!"mapped" 0x41 := ⟨⟨0x41, 0x41, ascii "mapped", some [0x61, 0x301]⟩, by simp [sampleLines], 0x41, rfl, by decide, by decide⟩
  have hv : ∀ n : Nat, 0x42 ≤ n → n ≤ 0x10FFFF → Gives sampleLines c!"valid" n := fun n h h' =>
    ⟨⟨0x42, 0x10FFFF, ascii "valid", some []⟩, by simp [sampleLines], n, rfl, ⟨h, h'⟩, by decide⟩
  refine ⟨out, h1, (h2 0x41).1 0x61 [0x301] ⟨⟨0x41, 0x41, ascii "mapped", some [0x61, 0x301]⟩, by simp [sampleLines], 0x41, rfl, by decide, rfl⟩, (h2 (-1)).2 ?_,
    (h4 _ (by decide) 0x1234 (by decide)).1 (hv 0x1234 (by decide) (by decide)) ⟨0x1235, by decide, hv 0x1235 (by decide) (by decide)⟩,
    (h4 _ (by decide) 0x41 (by decide)).2.2 h41 ?_ (by decide), (h6 _ (by decide) 0x41).2 ?_⟩
  · rintro c m ⟨l, _, cp, h, _⟩
    omega
  · rintro y hy ⟨l, hl, cp, rfl, ha, hs⟩
    simp only [sampleLines, List.mem_cons, List.not_mem_nil, or_false] at hl
    rcases hl with rfl | rfl | rfl
    · exact absurd hs (by decide)
    · have : cp ≤ 0x41 := ha.2
      omega
    · exact absurd hs (by decide)
  · rintro ⟨⟨l, hl, cp, _, _, hs⟩, _⟩
    simp only [sampleLines, List.mem_cons, List.not_mem_nil, or_false] at hl
    rcases hl with rfl | rfl | rfl <;> exact absurd hs (by decide)

/-- C134 is violated: the file says U+0041 is `mapped`, and the predicate in the text says it is not. -/
theorem emitted_idna_violated {buffer : Nat → List UInt8} (hb : ∀ n, (buffer n).length = 100) :
    Gives sampleLines c!"mapped" 0x41 ∧ ∃ out, idnaFile buffer (sampleFile.map (· ++ [0])) = .ok out ∧
      Means header out c!"charstr_idna_status_is_mapped" [.int 0x41] (.int 0) := by
  obtain ⟨out, h3, h4⟩ := emitted_idna_set_partial sample_idna hb
  have h41 : Gives sampleLines c!"mapped" 0x41 := ⟨⟨0x41, 0x41, ascii "mapped", some [0x61, 0x301]⟩, by simp [sampleLines], 0x41, rfl, by decide, by decide⟩
  refine ⟨h41, out, h3, (h4 _ (by decide) 0x41 (by decide)).2.2 h41 ?_ (by decide)⟩
  rintro y hy ⟨l, hl, cp, rfl, ha, hs⟩
  simp only [sampleLines, List.mem_cons, List.not_mem_nil, or_false] at hl
  rcases hl with rfl | rfl | rfl
  · exact absurd hs (by decide)
  · have : cp ≤ 0x41 := ha.2
    omega
  · exact absurd hs (by decide)

/-- The text of a predicate. -/
example : testOut c!"ignored" [(0xAE, 0xAD), (0x350, 0x34F)] =
    c!"\nbool charstr_idna_status_is_ignored(int codepoint)\n{\n    if (codepoint < 174) return codepoint >= 173;\n    if (codepoint < 848) return codepoint >= 847;\n    return false;\n}\n" := by
  decide +kernel

/-- The text of a set. -/
example : setOut c!"mapped" ([0xAB, 0x1], 65) =
    c!"\nstatic const uint64_t set_mapped[2] = {\n    0x00000000000000ab, 0x0000000000000001 };\n\nbool charstr_idna_status_is_mapped(int codepoint)\n{\n    if (codepoint > 65)\n         return false;\n    return (set_mapped[codepoint / 64] & (uint64_t) 1 << codepoint % 64) != 0;\n}\n" := by
  decide +kernel

/-- The text of a mapping. -/
example : mapLine (0x41, [0x61, 0xCC, 0x81]) = c!"    { 65, \"\\141\\314\\201\" },\n" := by
  decide +kernel

end Verif.Emit
