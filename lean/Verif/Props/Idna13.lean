import Verif.Proofs.Host13

/-!
# C99, and C78 and C83 with the real data: `charstr_idna_encode` with the tables of Unicode 13

The specification is `/repo/idna/IdnaMappingTable.txt` and UTS #46 (Spec/Uts46.lean), `/repo/unicode/UnicodeData.txt`, normalization form C
(Spec/Unicode.lean) and RFC 3492 (Spec/Punycode.lean).
-/

set_option autoImplicit false

namespace Verif.Puny
open Verif.Spec Verif.Utf8 Verif.Charstr Verif.Unicode Verif.Unidata Verif.IdnaGen Verif.Categorize
open Verif.Spec.Utf8 (IsScalar enc width form Loose Legal Seq)
open Verif.Spec.Unicode (encs Scan Input)
open Verif.Spec.Punycode (HostAscii LongAscii ToAscii mapText)
open Verif.Spec.Uts46 (Row Step Processed)

/-! ### C78 and C83 -/

/-- The program `gen_idna_table`, given a text that says what `IdnaMappingTable.txt` does, has emitted `e`. -/
def Generated (e : Emitted) : Prop :=
  ∃ lines buffer, Text13 lines ∧ (∀ n, (buffer n).length = 100) ∧ IdnaGen.main buffer (lines.map (· ++ [0])) = .ok e

theorem generated_spec {e : Emitted} (h : Generated e) : emitted13 = .ok e ∧ e.Spec := by
  obtain ⟨lines, buffer, h1, h2, h3⟩ := h
  rw [main13 h1 h2] at h3
  obtain ⟨e', h4, h5⟩ := emitted13_spec
  rw [h3, Except.ok.injEq] at h4
  subst h4
  exact ⟨h3, h5⟩

/-- The program runs on every such text, and its output does not depend on the layout. -/
theorem idna13_succeeds : ∃ e, (∃ lines, Text13 lines) ∧ ∀ lines, Text13 lines → ∀ buffer : Nat → List UInt8, (∀ n, (buffer n).length = 100) →
    IdnaGen.main buffer (lines.map (· ++ [0])) = .ok e := by
  obtain ⟨e, h, _⟩ := emitted13_spec
  exact ⟨e, text13_exists, fun lines h1 buffer h2 => by rw [main13 h1 h2, h]⟩

theorem generated_exists : ∃ e, Generated e := by
  obtain ⟨e, ⟨lines, h⟩, h1⟩ := idna13_succeeds
  exact ⟨e, lines, fun n => List.replicate 100 0, h, fun n => List.length_replicate, h1 lines h _ fun n => List.length_replicate⟩

/-- C78 with the real data: the predicates used by the encoder hold just for the code points with the status in the file, and are defined
everywhere. Missing: U+3134A (valid) and U+2FA1D (mapped). -/
theorem idna13_predicates_partial {e : Emitted} (h : Generated e) (c : Nat) :
    (∃ b, runSet e.tables.valid c = .ok b ∧ (b = true ↔ c ≠ 0x3134A ∧ ∃ m, Row c .valid m)) ∧
    (∃ b, runSet e.tables.mapped c = .ok b ∧ (b = true ↔ c ≠ 0x2FA1D ∧ ∃ m, Row c .mapped m)) ∧
    (runTest e.tables.ignored c = true ↔ ∃ m, Row c .ignored m) ∧ (runTest e.tables.deviation c = true ↔ ∃ m, Row c .deviation m) :=
  have h := (generated_spec h).2
  ⟨h.valid c, h.mapped c, h.ignored c, h.deviation c⟩

/-- C78 is violated for these two. -/
theorem idna13_predicates_violated {e : Emitted} (h : Generated e) :
    (Row 0x3134A .valid [] ∧ runSet e.tables.valid (0x3134A : Nat) = .ok false) ∧
    (Row 0x2FA1D .mapped [0x2A600] ∧ runSet e.tables.mapped (0x2FA1D : Nat) = .ok false) := by
  obtain ⟨⟨b, h1, h2⟩, -⟩ := idna13_predicates_partial h 0x3134A
  obtain ⟨-, ⟨b', h3, h4⟩, -⟩ := idna13_predicates_partial h 0x2FA1D
  cases b with
  | true => simp at h2
  | false => cases b' with
    | true => simp at h4
    | false => exact ⟨⟨row_3134A, h1⟩, row_2FA1D, h3⟩

/-- C83 with the real data: `charstr_idna_status` names the status in the file. Missing: U+2FA1D, U+3134A and U+E01F0..U+10FFFF. -/
theorem idna13_status_partial {e : Emitted} (h : Generated e) {c : Nat} {s : Status} {m : List Nat} (hr : Row c s m)
    (hc : c ≠ 0x2FA1D ∧ c ≠ 0x3134A ∧ c < 0xE01F0) : charstrIdnaStatus e.tables c = .ok s.name := by
  rw [(generated_spec h).2.status c (row_lt hr), if_neg (by omega), (status13_iff s).2 ⟨m, hr⟩]

/-- C83 is violated for these: the result is "?" instead of "mapped", "valid" and "disallowed". -/
theorem idna13_status_violated {e : Emitted} (h : Generated e) :
    Row 0x2FA1D .mapped [0x2A600] ∧ Row 0x3134A .valid [] ∧ (∀ c, 0xE01F0 ≤ c → c < 0x110000 → ∃ m, Row c .disallowed m) ∧
    ∀ c : Nat, c < 0x110000 → (c = 0x2FA1D ∨ c = 0x3134A ∨ 0xE01F0 ≤ c) → charstrIdnaStatus e.tables c = .ok "?" := by
  refine ⟨row_2FA1D, row_3134A, fun c h1 h2 => ?_, fun c h1 h2 => by rw [(generated_spec h).2.status c h1, if_pos h2]⟩
  obtain ⟨s, m, hr⟩ := row_exists h2
  have hl := row_last hr
  refine ⟨m, ?_⟩
  rcases hl.2.2 with rfl | rfl | rfl | g
  · have := hl.1 rfl; omega
  · have := hl.2.1 rfl; omega
  · exact hr
  · omega

/-- `charstr_idna_mapping` returns the mapping in the file as UTF-8, NULL if there is none. -/
theorem idna13_mapping {e : Emitted} (h : Generated e) {c : Nat} {s : Status} {m : List Nat} (hr : Row c s m) :
    Returns (IdnaGen.lookup e.code c) (if m = [] then none else some (encs m)) := by
  obtain ⟨r, h1, h2⟩ := (generated_spec h).2.mapping c
  rwa [h2 s m hr] at h1

/-- The mapping of U+FB00 is "ff", U+00DF is a deviation, U+0378 is disallowed. -/
example : Row 0xFB00 .mapped [0x66, 0x66] ∧ Row 0xDF .deviation [0x73, 0x73] ∧ Row 0x378 .disallowed [] := by
  simp only [row_iff]; decide +kernel

/-! ### C99: the encoder -/

/-- The generated functions `charstr_puny.c` calls, made from the data of the repository. -/
def Real (id : Idna) : Prop :=
  ∃ e code, Generated e ∧ code13 = .ok code ∧ id = e.idna fun c => decide (category .Cn code c = .Mc)

theorem real_exists : ∃ id, Real id := by
  obtain ⟨e, h⟩ := generated_exists
  obtain ⟨code, h'⟩ := category13_succeeds
  exact ⟨_, e, code, h, h', rfl⟩

variable {id : Idna} {fresh : Nat → List UInt8}

theorem real_represents (h : Real id) : Represents id map13 := by
  obtain ⟨e, code, h1, _, rfl⟩ := h
  exact represents13 (generated_spec h1).2 _

/-- The marks of category Mc in UnicodeData.txt. -/
def IsMark (mark : Nat → Bool) : Prop := ∀ c : Nat, mark c = true ↔ Assigned lines13 c .Mc

theorem real_mark (h : Real id) {mark : Nat → Bool} (hm : IsMark mark) {c : Nat} (hk : Kept c) : id.mc c = mark c := by
  obtain ⟨e, code, _, h2, rfl⟩ := h
  rw [Bool.eq_iff_iff, hm, ← category_mark h2 c (kept_facts hk).1]
  exact decide_eq_true_iff

theorem real_mc (h : Real id) (c : Nat) : id.mc c = decide (result ranges13 c = .Mc) := by
  obtain ⟨e, code, _, h2, rfl⟩ := h
  obtain ⟨code', h1, h3⟩ := code13_spec
  rw [h2, Except.ok.injEq] at h1
  subst h1
  simp only [Emitted.idna, h3]

/-- Normalization to form C and step 1 of UTS #46. -/
def Prepared13 (cps z : List Nat) : Prop := ∃ y, NFC13 cps y ∧ Processed y z

theorem nfc_scalar {x y : List Nat} (hx : ∀ c ∈ x, IsScalar c) (h : NFC13 x y) : ∀ c ∈ y, IsScalar c := by
  obtain ⟨d, h1, h2⟩ := h
  exact compose_scalar h2 (nfd_scalar h1 hx)

theorem prepared_iff {cps z : List Nat} (hsc : ∀ c ∈ cps, IsScalar c) (hl : 0x3134A ∉ cps) : Prepared map13 cps z ↔ Prepared13 cps z := by
  constructor
  · rintro ⟨y, h1, h2⟩
    exact ⟨y, h1, (processed_iff (nfc_scalar hsc h1) (nfc_lost h1).1 ((nfc_lost h1).2 hl)).1 h2⟩
  · rintro ⟨y, h1, h2⟩
    exact ⟨y, h1, (processed_iff (nfc_scalar hsc h1) (nfc_lost h1).1 ((nfc_lost h1).2 hl)).2 h2⟩

/-- C99: with the tables of Unicode 13, `charstr_idna_encode` returns the ASCII form of the host name after normalization and step 1 of UTS #46,
if there is one in the limits it has and the text fits (C129). Missing: U+3134A (`idna13_refuses_valid`), texts that do not fit (C86, C91). -/
theorem idna13_encode_iff_partial (h : Real id) (hfr : ∀ n, (fresh n).length = n) {mark : Nat → Bool} (hm : IsMark mark) {t : List UInt8}
    (h0 : (0 : UInt8) ∉ t) (r : List UInt8) (hna : ∃ c ∈ t, 128 ≤ c.toNat) {cps : List Nat} (hs : Seq Legal t cps) (hl : 0x3134A ∉ cps)
    (out : List UInt8) :
    Returns (idnaEncode unicode13 id fresh (t ++ 0 :: r)) (some out) ↔ Fits (3 * t.length) cps ∧
      ∃ z o, Prepared13 cps z ∧ z ≠ [] ∧ (encs z).length ≤ 254 ∧ HostAscii mark z o ∧ out = o ++ [0] := by
  rw [idna_encode_exact (real_represents h) hfr h0 r hna hs]
  refine and_congr_right fun _ => exists_congr fun z => exists_congr fun o => ?_
  rw [prepared_iff (legal_encs hs).2 hl]
  constructor
  · rintro ⟨h1, h2, h3, h4, h5⟩
    obtain ⟨y, _, hp⟩ := _root_.id h1
    exact ⟨h1, h2, h3, (host_congr (fun c hc => real_mark h hm (processed_kept hp c hc)) o).1 h4, h5⟩
  · rintro ⟨h1, h2, h3, h4, h5⟩
    obtain ⟨y, _, hp⟩ := _root_.id h1
    exact ⟨h1, h2, h3, (host_congr (fun c hc => real_mark h hm (processed_kept hp c hc)) o).2 h4, h5⟩

/-- C77 with the real data: the call is undefined just when nothing is left of the host name, and an assertion fails just when an ASCII label
has more than 63 characters and everything before is in order. -/
theorem idna13_failure_iff (h : Real id) (hfr : ∀ n, (fresh n).length = n) {mark : Nat → Bool} (hm : IsMark mark) {t : List UInt8}
    (h0 : (0 : UInt8) ∉ t) (r : List UInt8) (hna : ∃ c ∈ t, 128 ≤ c.toNat) {cps : List Nat} (hs : Seq Legal t cps) (hl : 0x3134A ∉ cps) :
    (idnaEncode unicode13 id fresh (t ++ 0 :: r) = liftC (.error .ub) ↔ Fits (3 * t.length) cps ∧ Prepared13 cps []) ∧
    (idnaEncode unicode13 id fresh (t ++ 0 :: r) = liftC (.error .abort) ↔ Fits (3 * t.length) cps ∧ ∃ z, Prepared13 cps z ∧ (encs z).length ≤ 254 ∧ LongAscii mark z) := by
  obtain ⟨h1, h2⟩ := idna_failure_iff (real_represents h) hfr h0 r hna hs
  rw [h1, h2, prepared_iff (legal_encs hs).2 hl]
  refine ⟨Iff.rfl, and_congr_right fun _ => exists_congr fun z => ?_⟩
  rw [prepared_iff (legal_encs hs).2 hl]
  constructor
  · rintro ⟨g1, g2, g3⟩
    obtain ⟨y, _, hp⟩ := _root_.id g1
    exact ⟨g1, g2, (long_congr fun c hc => real_mark h hm (processed_kept hp c hc)).1 g3⟩
  · rintro ⟨g1, g2, g3⟩
    obtain ⟨y, _, hp⟩ := _root_.id g1
    exact ⟨g1, g2, (long_congr fun c hc => real_mark h hm (processed_kept hp c hc)).2 g3⟩

/-- The code points of the labels are valid or deviations in the file (UTS #46, section 4.1, criterion 6), none is an ASCII capital, and the labels
of the result decode to them by RFC 3492. -/
theorem idna13_labels (h : Real id) (hfr : ∀ n, (fresh n).length = n) {t : List UInt8} (h0 : (0 : UInt8) ∉ t) {r : List UInt8}
    (hna : ∃ c ∈ t, 128 ≤ c.toNat) {cps : List Nat} (hs : Seq Legal t cps) (hl : 0x3134A ∉ cps) {out : List UInt8}
    (hr : Returns (idnaEncode unicode13 id fresh (t ++ 0 :: r)) (some out)) :
    ∃ z o, Prepared13 cps z ∧ out = o ++ [0] ∧ (∀ c ∈ z, ∃ m, Row c .valid m ∨ Row c .deviation m) ∧
      List.Forall₂ (fun l e => (∀ c ∈ l, c < 128) ∧ e.map UInt8.toNat = l ∨ ∃ p, e = [0x78, 0x6E, 0x2D, 0x2D] ++ p ∧ Punycode.decode p = some l)
        (z.splitOn 0x2E) (o.splitOn 0x2E) := by
  obtain ⟨z, o, h1, h2, _, h4⟩ := idna_encode_sound (real_represents h) hfr h0 hna hs hr
  have h1 := (prepared_iff (legal_encs hs).2 hl).1 h1
  obtain ⟨y, _, hp⟩ := _root_.id h1
  have hk := processed_kept hp
  refine ⟨z, o, h1, h2, hk, ?_⟩
  have : ∀ l ∈ z.splitOn 0x2E, ∀ c ∈ l, ¬ (65 ≤ c ∧ c ≤ 90) := fun l hl c hc => (kept_facts (hk c (mem_splitOn hl hc))).2
  generalize z.splitOn 0x2E = ls at h4 this
  generalize o.splitOn 0x2E = es at h4
  induction h4 with
  | nil => exact .nil
  | cons h _ ih => exact .cons (toAscii_exact h (this _ (by simp))) (ih fun l hl => this l (List.mem_cons_of_mem _ hl))

theorem step_of {c : Nat} {r : Option (List Nat)} (h : c < 0x110000 ∧ uts46 c = r) : Step c r := h.2 ▸ uts46_step h.1

theorem encodes_none {id : Idna} {f : Nat → Option (List Nat)} {y : List Nat} {res : C (Option (List UInt8))} (h : Encodes id f y res)
    (hm : mapText f y = none) : res = .ok none := by
  cases res with
  | error e => cases e with
    | ub => rw [h.ub.1 rfl] at hm; cases hm
    | abort => obtain ⟨z, h1, _⟩ := h.abort.1 rfl; rw [h1] at hm; cases hm
  | ok v => cases v with
    | none => rfl
    | some out => obtain ⟨z, o, h1, _⟩ := (h.some out).1 rfl; rw [h1] at hm; cases hm

/-- C99 is violated: U+3134A is a valid character, but a host name that consists of it is refused. -/
theorem idna13_refuses_valid (h : Real id) (hfr : ∀ n, (fresh n).length = n) (r : List UInt8) :
    Returns (idnaEncode unicode13 id fresh (encs [0x3134A] ++ 0 :: r)) none ∧ NFC13 [0x3134A] [0x3134A] ∧ Processed [0x3134A] [0x3134A] ∧
      ∀ mark, IsMark mark → HostAscii mark [0x3134A] (bytes "xn--2o8n") := by
  have hq : Quick [0x3134A] := by unfold Quick; rw [unicode13_eq]; decide +kernel
  refine ⟨?_, quick_nfc (by decide) hq, ⟨[[0x3134A]], .cons (step_of (by decide +kernel)) .nil, rfl⟩, fun mark hm => ?_⟩
  · obtain ⟨res, h1, h2⟩ := idna_quick (real_represents h) hfr (cps := [0x3134A]) (by decide) (by decide) (by decide) hq r
    rw [h1, encodes_none h2 (by decide +kernel)]
    rfl
  · refine host_of (x := [0x3134A]) [bytes "xn--2o8n"] (fun c hc _ => ?_) (by decide) (.cons (toAscii_code (bytes "2o8n") (by decide +kernel)) .nil) (by decide) (by decide)
    simp only [List.mem_singleton] at hc
    subst hc
    rw [← real_mark h hm ⟨_, .inl row_3134A⟩, real_mc h]
    decide +kernel

/-- "b\u00FCcher.example" with a combining diaeresis and a capital is encoded as "xn--bcher-kva.example". -/
theorem idna13_sample (h : Real id) (hfr : ∀ n, (fresh n).length = n) (r : List UInt8) :
    Returns (idnaEncode unicode13 id fresh (encs (points "Bu\u0308cher.example") ++ 0 :: r)) (some (bytes "xn--bcher-kva.example" ++ [0])) := by
  have hn : NFD13 (points "Bu\u0308cher.example") (points "Bu\u0308cher.example") := by
    unfold NFD13; rw [nfd_self_iff tables flagsD (by decide), unicode13_eq]; decide +kernel
  have hroom : Room (points "Bu\u0308cher.example") := idna_room (by decide) (by decide)
  have hcalm : Calm (points "Bu\u0308cher.example") := short_calm fun d hd => by rw [Spec.Unicode.nfd_unique hd hn]; decide
  rw [idna_encode_iff (real_represents h) hfr (by decide) r (by decide) (seq_encs (by decide)) hroom hcalm]
  refine ⟨points "b\u00FCcher.example", bytes "xn--bcher-kva.example", ⟨points "B\u00FCcher.example", nfc_primary.2 ⟨_, hn, (compose_iff tables.toTable).2 ?_⟩, by decide +kernel⟩,
    by decide, by decide, ?_, rfl⟩
  · rw [unicode13_eq]; decide +kernel
  · refine host_of [bytes "xn--bcher-kva", bytes "example"] (fun c hc hge => ?_) (by decide)
      (.cons (toAscii_code (bytes "bcher-kva") (by decide +kernel)) (.cons (.inl (by decide)) .nil)) (by decide) (by decide)
    have : ∀ c ∈ points "b\u00FCcher.example", 128 ≤ c → c = 0xFC := by decide
    rw [this c hc hge, real_mc h]
    decide +kernel

/-- There are predicates for marks. -/
theorem mark_exists : ∃ mark, IsMark mark := by
  classical
  exact ⟨fun c => decide (Assigned lines13 c .Mc), fun c => decide_eq_true_iff⟩

/-! ### The findings with the real data -/

/-- C77: "\u00FC." and 64 times `a` fails an assertion, and U+00AD alone is undefined. -/
theorem idna13_crashes (h : Real id) (hfr : ∀ n, (fresh n).length = n) (r : List UInt8) :
    idnaEncode unicode13 id fresh (encs (0xFC :: 0x2E :: List.replicate 64 0x61) ++ 0 :: r) = liftC (.error .abort) ∧
    idnaEncode unicode13 id fresh (encs [0xAD] ++ 0 :: r) = liftC (.error .ub) :=
  ⟨idna_aborts (real_represents h) hfr (by decide +kernel) (by rw [real_mc h]; decide +kernel) r, idna_undefined (real_represents h) hfr (by decide +kernel) r⟩

/-- C90: "\u00FC" and "xn--tda" have the same result. -/
theorem idna13_collision (h : Real id) (hfr : ∀ n, (fresh n).length = n) :
    Returns (idnaEncode unicode13 id fresh (encs [0xFC] ++ [0])) (some (bytes "xn--tda" ++ [0])) ∧
    Returns (idnaEncode unicode13 id fresh (bytes "xn--tda" ++ [0])) (some (bytes "xn--tda" ++ [0])) :=
  idna_collision (real_represents h) hfr ⟨by decide +kernel, by rw [real_mc h]; decide +kernel⟩

/-- C91: host names that are refused although they are normalized, UTS #46 keeps all their characters and their ASCII form has 253 and 101
characters; and U+1D160, whose normalization is kept too. -/
theorem idna13_refuses (h : Real id) (hfr : ∀ n, (fresh n).length = n) (r : List UInt8) :
    (Returns (idnaEncode unicode13 id fresh (encs limit ++ 0 :: r)) none ∧ Processed limit limit ∧ ([0x2E].intercalate limitLabels).length = 253) ∧
    (Returns (idnaEncode unicode13 id fresh (encs chinese ++ 0 :: r)) none ∧ Processed chinese chinese ∧ ∃ o, HostAscii id.mc chinese o ∧ o.length = 101) ∧
    (Returns (idnaEncode unicode13 id fresh (encs [0x1D160] ++ 0 :: r)) none ∧ Prepared13 [0x1D160] [0x1D158, 0x1D165, 0x1D16E]) := by
  have keep : ∀ x : List Nat, (∀ c ∈ x, c < 0x110000 ∧ uts46 c = some [c]) → Processed x x := by
    intro x hx
    refine ⟨x.map fun c => [c], ?_, ?_⟩
    · induction x with
      | nil => exact .nil
      | cons c x ih => exact .cons (step_of (hx c (by simp))) (ih fun d hd => hx d (List.mem_cons_of_mem _ hd))
    · induction x with
      | nil => rfl
      | cons c x ih => simpa using ih fun d hd => hx d (List.mem_cons_of_mem _ hd)
  refine ⟨?_, ?_, ?_⟩
  · obtain ⟨h1, _, _, h2⟩ := idna_limit_off_by_one (real_represents h) hfr (by decide +kernel) r
    exact ⟨h1, keep _ (by decide +kernel), h2⟩
  · obtain ⟨h1, _, _, h2⟩ := idna_refuses_long_utf8 (real_represents h) hfr (by decide +kernel) (by rw [real_mc h]; decide +kernel) r
    exact ⟨h1, keep _ (by decide +kernel), h2⟩
  · obtain ⟨h1, h2, _⟩ := idna_spurious_overflow (id := id) hfr r
    exact ⟨h1, _, h2, keep _ (by decide +kernel)⟩

/-- C92: overlong encodings are accepted, and what follows C0 80 is dropped. -/
theorem idna13_malformed (h : Real id) (hfr : ∀ n, (fresh n).length = n) (r : List UInt8) :
    Returns (idnaEncode unicode13 id fresh ([0xC3, 0xBC, 0xC1, 0xA1] ++ 0 :: r)) (some (bytes "xn--a-dha" ++ [0])) ∧
    Returns (idnaEncode unicode13 id fresh ([0x65, 0xCC, 0x81, 0xC3, 0xA9, 0xC0, 0x80] ++ bytes "evil" ++ 0 :: r)) (some (bytes "xn--9caa" ++ [0])) :=
  ⟨idna_accepts_overlong (real_represents h) hfr (by decide +kernel) (by rw [real_mc h]; decide +kernel) r,
    idna_truncates (real_represents h) hfr (by decide +kernel) (by rw [real_mc h]; decide +kernel) r⟩

/-- C93: empty labels and labels that end with a hyphen are accepted, and labels that begin with a mark of category Mn, here U+0310. -/
theorem idna13_accepts (h : Real id) (hfr : ∀ n, (fresh n).length = n) (r : List UInt8) :
    Returns (idnaEncode unicode13 id fresh (encs (points "\u00FC..a") ++ 0 :: r)) (some (bytes "xn--tda..a" ++ [0])) ∧
    Returns (idnaEncode unicode13 id fresh (encs (points "\u00FC-.a") ++ 0 :: r)) (some (bytes "xn----dha.a" ++ [0])) ∧
    (Returns (idnaEncode unicode13 id fresh (encs [0x310, 0x61] ++ 0 :: r)) (some (bytes "xn--a-rcb" ++ [0])) ∧ Assigned lines13 (0x310 : Nat) .Mn) := by
  refine ⟨idna_accepts_empty_label (real_represents h) hfr (by decide +kernel) (by rw [real_mc h]; decide +kernel) r,
    idna_accepts_hyphen (real_represents h) hfr (by decide +kernel) (by rw [real_mc h]; decide +kernel) r, ?_, ?_⟩
  · refine idna_word (real_represents h) hfr (cps := [0x310, 0x61]) [bytes "xn--a-rcb"] ?_ (by decide) (by unfold Quick; rw [unicode13_eq]; decide +kernel)
      (by decide) (.cons (toAscii_code (bytes "a-rcb") (by decide +kernel)) .nil) (by decide) (by decide) (by decide) r
    simp only [real_mc h]
    decide +kernel
  · rw [assigned13]
    exact ⟨(0x300, 0x36F, .Mn), by decide +kernel, by decide, by decide, rfl⟩

/-- C95: U+FF21 U+0301 becomes "xn--a-xbb", which decodes to `a` U+0301 and not to U+00E1. -/
theorem idna13_not_normalized (h : Real id) (hfr : ∀ n, (fresh n).length = n) (r : List UInt8) :
    Returns (idnaEncode unicode13 id fresh (encs [0xFF21, 0x301] ++ 0 :: r)) (some (bytes "xn--a-xbb" ++ [0])) ∧
      Punycode.decode (bytes "a-xbb") = some [0x61, 0x301] ∧ NFC13 [0x61, 0x301] [0xE1] :=
  idna_not_normalized (real_represents h) hfr (by decide +kernel) r

end Verif.Puny
