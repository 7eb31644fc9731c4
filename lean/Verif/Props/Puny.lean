import Verif.Proofs.IdnaExact

/-!
# C74–C77, C90–C97 and C129: host names (charstr_puny.c)

The specification is RFC 3492 and the ASCII form of labels and host names (Spec/Punycode.lean), normalization form C (Spec/Unicode.lean) and
a mapping `f` that the generated IDNA functions represent (`Represents`). A host name is `t`, the bytes before the NUL.
-/

set_option autoImplicit false

namespace Verif.Puny
open Verif.Spec Verif.Utf8 Verif.Charstr Verif.Unicode Verif.Unidata
open Verif.Spec.Utf8 (IsScalar enc width form Loose Legal Seq)
open Verif.Spec.Unicode (encs Scan Input)
open Verif.Spec.Punycode (HostAscii LongAscii ToAscii mapText)

variable {id : Idna} {f : Nat → Option (List Nat)} {fresh : Nat → List UInt8}

/-- The decomposition takes less than three times as many bytes. -/
def Room (cps : List Nat) : Prop := ∀ d, NFD13 cps d → (encs d).length < 3 * (encs cps).length

/-- Recomposition never has more than 100 marks pending (see C86). -/
def Calm (cps : List Nat) : Prop := ∀ d, NFD13 cps d → ¬ Spec.Unicode.Excess unicode13.ccc Unicode.Primary 100 d

/-- Normalization and mapping of the host name. -/
def Prepared (f : Nat → Option (List Nat)) (cps z : List Nat) : Prop := ∃ y, NFC13 cps y ∧ mapText f y = some z

/-- Only a text all of whose characters become three times as long has no room; one ASCII character makes the difference. -/
theorem idna_room {cps : List Nat} (hsc : ∀ c ∈ cps, IsScalar c) (ha : ∃ c ∈ cps, c < 128) : Room cps := fun _ hd => ascii_room hsc ha hd

/-- Texts without a run of more than 100 marks are calm. -/
theorem idna_calm {cps : List Nat} (h : ∀ d, NFD13 cps d → ∀ x b y, d = x ++ b ++ y → (∀ c ∈ b, unicode13.ccc c ≠ 0) → b.length ≤ 100) : Calm cps := by
  intro d hd
  rw [excess_primary, ← gok_iff tables.toTable]
  exact gok_of_runs (h d hd)

theorem short_calm {cps : List Nat} (h : ∀ d, NFD13 cps d → d.length ≤ 100) : Calm cps := by
  refine idna_calm fun d hd x b y he _ => ?_
  have := h d hd
  rw [he] at this
  simp only [List.length_append] at this
  omega

/-- The result for a host name in UTF-8 that is not ASCII. -/
theorem idna_main (hf : Represents id f) (hfr : ∀ n, (fresh n).length = n) {t : List UInt8} (h0 : (0 : UInt8) ∉ t) (r : List UInt8)
    (hna : ∃ c ∈ t, 128 ≤ c.toNat) {cps : List Nat} (hs : Seq Legal t cps) :
    ∃ y res, idnaEncode unicode13 id fresh (t ++ 0 :: r) = liftC res ∧ NFC13 cps y ∧
      (Fits (3 * t.length) cps ∧ Encodes id f y res ∨ ¬ Fits (3 * t.length) cps ∧ res = .ok none) := by
  obtain ⟨rfl, hsc⟩ := legal_encs hs
  have hz : 0 ∉ cps := fun h => h0 ((encs_zero hsc).2 h)
  have hlen : (encs cps).length < 3 * (encs cps).length := by
    obtain ⟨c, hc, -⟩ := hna
    have := List.length_pos_of_mem hc
    omega
  obtain ⟨res, h1, h2⟩ := idna_reach hf hfr h0 r hna (scan_true.1 (scan_encs hsc))
  simp only [reach_iff hsc hz hlen] at h2
  rcases h2 with ⟨y, ⟨h2, h3⟩, h4⟩ | ⟨h2, h3⟩
  · exact ⟨y, res, h1, h3, .inl ⟨h2, h4⟩⟩
  · obtain ⟨d, g1, _⟩ := nfd_exists hsc
    have hy : NFC13 cps _ := ⟨d, g1, by rw [compose_primary]; exact (compose_iff tables.toTable).2 rfl⟩
    exact ⟨_, res, h1, hy, .inr ⟨fun h => h2 _ ⟨h, hy⟩, h3⟩⟩

/-- With room and without long runs of marks, a text fits. -/
theorem idna_fits {t : List UInt8} {cps : List Nat} (hs : Seq Legal t cps) (hroom : Room cps) (hcalm : Calm cps) : Fits (3 * t.length) cps := by
  obtain ⟨rfl, hsc⟩ := legal_encs hs
  exact .inr fun d g1 => ⟨hroom d g1, hcalm d g1⟩

/-! ### C74: the result -/

/-- C74: a string that is returned is NUL-terminated and has the labels of the normalized and mapped host name in ASCII form: those that are
not ASCII are "xn--" and Punycode that a decoder for RFC 3492 reads as the label. -/
theorem idna_encode_sound (hf : Represents id f) (hfr : ∀ n, (fresh n).length = n) {t : List UInt8} (h0 : (0 : UInt8) ∉ t) {r : List UInt8}
    (hna : ∃ c ∈ t, 128 ≤ c.toNat) {cps : List Nat} (hs : Seq Legal t cps) {out : List UInt8}
    (hr : Returns (idnaEncode unicode13 id fresh (t ++ 0 :: r)) (some out)) :
    ∃ z o, Prepared f cps z ∧ out = o ++ [0] ∧ (0 : UInt8) ∉ o ∧ List.Forall₂ ToAscii (z.splitOn 0x2E) (o.splitOn 0x2E) := by
  obtain ⟨y, res, h1, h2, h3⟩ := idna_main hf hfr h0 r hna hs
  rw [h1, returns_iff] at hr
  rcases h3 with ⟨-, h3⟩ | ⟨-, h3⟩
  · obtain ⟨z, o, g1, _, _, g4, rfl⟩ := (h3.some out).1 hr
    refine ⟨z, o, ⟨y, h2, g1⟩, rfl, fun hz => ?_, host_labels g4⟩
    rcases host_chars g4 _ hz with h | h | h | h
    · cases h
    · cases h
    · exact absurd h.1 (by decide)
    · exact absurd h.1 (by decide)
  · rw [h3] at hr; cases hr

theorem prepared_nfc {cps y z : List Nat} (h : NFC13 cps y) : Prepared f cps z ↔ mapText f y = some z := by
  constructor
  · rintro ⟨y', k1, k2⟩
    rwa [nfc_unique k1 h] at k2
  · exact fun h' => ⟨y, h, h'⟩

/-- C129: for every host name in UTF-8 that is not ASCII, just which string is returned and when. -/
theorem idna_encode_exact (hf : Represents id f) (hfr : ∀ n, (fresh n).length = n) {t : List UInt8} (h0 : (0 : UInt8) ∉ t) (r : List UInt8)
    (hna : ∃ c ∈ t, 128 ≤ c.toNat) {cps : List Nat} (hs : Seq Legal t cps) (out : List UInt8) :
    Returns (idnaEncode unicode13 id fresh (t ++ 0 :: r)) (some out) ↔ Fits (3 * t.length) cps ∧
      ∃ z o, Prepared f cps z ∧ z ≠ [] ∧ (encs z).length ≤ 254 ∧ HostAscii id.mc z o ∧ out = o ++ [0] := by
  obtain ⟨y, res, h1, h2, h3⟩ := idna_main hf hfr h0 r hna hs
  rw [h1, returns_iff]
  simp only [prepared_nfc h2]
  rcases h3 with ⟨h3, h4⟩ | ⟨h3, h4⟩
  · rw [h4.some]
    exact ⟨fun h => ⟨h3, h⟩, fun h => h.2⟩
  · rw [h4]
    exact ⟨fun h => (by cases h), fun h => absurd h.1 h3⟩

/-- C74: just which host names are encoded, and how. -/
theorem idna_encode_iff (hf : Represents id f) (hfr : ∀ n, (fresh n).length = n) {t : List UInt8} (h0 : (0 : UInt8) ∉ t) (r : List UInt8)
    (hna : ∃ c ∈ t, 128 ≤ c.toNat) {cps : List Nat} (hs : Seq Legal t cps) (hroom : Room cps) (hcalm : Calm cps) (out : List UInt8) :
    Returns (idnaEncode unicode13 id fresh (t ++ 0 :: r)) (some out) ↔
      ∃ z o, Prepared f cps z ∧ z ≠ [] ∧ (encs z).length ≤ 254 ∧ HostAscii id.mc z o ∧ out = o ++ [0] := by
  rw [idna_encode_exact hf hfr h0 r hna hs]
  exact and_iff_right (idna_fits hs hroom hcalm)

/-- C74: the decoder determines the encoding: there is just one ASCII form of a label, and of a host name. -/
theorem idna_ascii_form_unique : (∀ {l : List Nat} {e e' : List UInt8}, ToAscii l e → ToAscii l e' → e = e') ∧
    ∀ {mark : Nat → Bool} {x : List Nat} {o o' : List UInt8}, HostAscii mark x o → HostAscii mark x o' → o = o' :=
  ⟨toAscii_unique, host_unique⟩

/-! Cases for which the statements can be computed. -/

theorem mapText_self {cps : List Nat} (h : ∀ c ∈ cps, f c = some [c]) : mapText f cps = some cps := by
  induction cps with
  | nil => rfl
  | cons c cps ih => rw [mapText, h c (by simp), ih fun x hx => h x (List.mem_cons_of_mem _ hx)]; rfl

/-- Checks for `HostAscii`. -/
theorem host_of {mark : Nat → Bool} {x : List Nat} (es : List (List UInt8)) (hm : ∀ c ∈ x, 128 ≤ c → mark c = false)
    (h1 : (x.getLast? ≠ some 0x2D ∧ ∀ l ∈ x.splitOn 0x2E, l.head? ≠ some 0x2D ∧
      ∀ c ∈ l, c < 128 → c = 0x2D ∨ 48 ≤ c ∧ c ≤ 57 ∨ 65 ≤ c ∧ c ≤ 90 ∨ 97 ≤ c ∧ c ≤ 122))
    (h2 : List.Forall₂ ToAscii (x.splitOn 0x2E) es) (h3 : ∀ e ∈ es, e.length ≤ 63)
    (h4 : ([0x2E].intercalate es).length ≤ 252 + if x.getLast? = some 0x2E then 1 else 0) : HostAscii mark x ([0x2E].intercalate es) := by
  refine ⟨h1.1, fun l hl => ⟨(h1.2 l hl).1, (h1.2 l hl).2, fun c hc hge => hm c ?_ hge⟩, es, h2, h3, rfl, h4⟩
  have hcl : c ∈ l := List.mem_of_head? hc
  rw [← List.intercalate_splitOn (xs := x) 0x2E]
  generalize x.splitOn 0x2E = ls at hl
  clear h1 h2 h3 h4
  induction ls with
  | nil => cases hl
  | cons a ls ih =>
    have e : ∀ b ls', ls = b :: ls' → [0x2E].intercalate (a :: ls) = a ++ 0x2E :: [0x2E].intercalate ls := by
      rintro b ls' rfl
      simp [List.intercalate, List.intersperse]
    rcases List.mem_cons.1 hl with rfl | hl
    · cases ls with
      | nil => simpa [List.intercalate, List.intersperse] using hcl
      | cons b ls' => rw [e b ls' rfl]; simp [hcl]
    · cases ls with
      | nil => cases hl
      | cons b ls' => rw [e b ls' rfl]; simp [ih hl]

theorem toAscii_code {l : List Nat} (p : List UInt8) (h : (∃ c ∈ l, 128 ≤ c) ∧ Punycode.decode p = some (l.map Punycode.lower) ∧
    ∀ c ∈ p, ¬ (65 ≤ c.toNat ∧ c.toNat ≤ 90)) : ToAscii l ([0x78, 0x6E, 0x2D, 0x2D] ++ p) := .inr ⟨h.1, p, rfl, h.2⟩

/-- The text as bytes. -/
def bytes (s : String) : List UInt8 := s.toList.map fun c => UInt8.ofNat c.toNat

/-- The text as code points. -/
def points (s : String) : List Nat := s.toList.map Char.toNat

/-- Functions for a small mapping: U+00AD is ignored, capital letters are mapped, everything else is valid. -/
def sample : Idna where
  valid c := c != 0xAD && !(decide (65 ≤ c) && decide (c ≤ 90))
  deviation _ := false
  ignored c := c == 0xAD
  mapped c := decide (65 ≤ c) && decide (c ≤ 90)
  mapping c := if 65 ≤ c ∧ c ≤ 90 then some [UInt8.ofNat (c + 32)] else none
  mc _ := false

/-- The mapping. -/
def sampleMap (c : Nat) : Option (List Nat) := if c = 0xAD then some [] else if 65 ≤ c ∧ c ≤ 90 then some [c + 32] else some [c]

theorem sample_represents : Represents sample sampleMap := by
  constructor
  · intro c _ h
    simp [sample] at h
    rw [sampleMap, if_neg h.1, if_neg (by omega)]
  · intro c _ _ h
    simp [sample] at h
    rw [sampleMap, if_pos h]
  · intro c _ _ h h'
    simp [sample] at h h'
    refine ⟨[c + 32], by rw [sampleMap, if_neg h, if_pos h'], ?_, ?_⟩
    · simp only [List.mem_singleton, forall_eq]; left; omega
    · rw [encs_ascii (by simp; omega)]
      simp [sample, h']
  · intro c _ h h1 h2
    simp [sample] at h h1 h2
    omega

/-- `u` and U+0308 are composed to U+00FC. -/
example : Seq Legal (encs (points "bu\u0308cher.example")) (points "bu\u0308cher.example") ∧ Room (points "bu\u0308cher.example") ∧
    Prepared sampleMap (points "bu\u0308cher.example") (points "b\u00FCcher.example") ∧
    HostAscii sample.mc (points "b\u00FCcher.example") (bytes "xn--bcher-kva.example") := by
  have hn : NFD13 (points "bu\u0308cher.example") (points "bu\u0308cher.example") := by
    unfold NFD13; rw [nfd_self_iff tables flagsD (by decide), unicode13_eq]; decide +kernel
  refine ⟨seq_encs (by decide), idna_room (by decide) (by decide), ⟨points "b\u00FCcher.example", nfc_primary.2 ⟨_, hn, (compose_iff tables.toTable).2 ?_⟩, by decide⟩, ?_⟩
  · rw [unicode13_eq]; decide +kernel
  · exact host_of [bytes "xn--bcher-kva", bytes "example"] (by simp [sample]) (by decide)
      (.cons (toAscii_code (bytes "bcher-kva") (by decide +kernel)) (.cons (.inl (by decide)) .nil)) (by decide) (by decide)

/-- Two of the samples in section 7.1 of RFC 3492: Arabic (Egyptian) and Spanish with capitals. -/
example : Punycode.decode (bytes "egbpdaj6bu4bxfgehfvwxn") = some [0x644, 0x64A, 0x647, 0x645, 0x627, 0x628, 0x62A, 0x643, 0x644, 0x645, 0x648, 0x634, 0x639,
      0x631, 0x628, 0x64A, 0x61F] ∧
    Punycode.decode (bytes "PorqunopuedensimplementehablarenEspaol-fmd56a") = some (points "Porqu\u00E9nopuedensimplementehablarenEspa\u00F1ol") := by
  decide +kernel

/-! ### C75: arithmetic -/

/-- C75: encoding a label does not overflow, reads and writes inside the arrays and terminates, for every text the caller passes; the result is
the position after the label or NULL, and the characters of the ASCII form as far as there is room. -/
theorem punycode_encode_safe (id : Idna) {x : List Nat} (hx : ∀ c ∈ x, IsScalar c) (hne : x ≠ []) (hlen : (encs x).length ≤ 254) (r : List UInt8) :
    ∃ e, ToAscii (x.takeWhile (· ≠ 0x2E)) e ∧ ∀ (buf : List UInt8) (q : Nat), q ≤ buf.length →
      ∃ next buf' size, punycodeEncode id (encs x ++ r, some (encs x).length) buf q (buf.length - q) = .ok (next, buf', size) ∧ buf'.length = buf.length ∧
        (next ≠ none → size = e.length ∧ buf'.take q = buf.take q ∧ (q + e.length ≤ buf.length → (buf'.drop q).take e.length = e)) := by
  obtain ⟨e, h1, _, h3⟩ := punycode_spec id x r hx hne hlen
  refine ⟨e, h1, fun buf q hq => ?_⟩
  have h := h3 buf q hq
  have e1 : (buf.take q ++ over (buf.drop q) e).length = buf.length := by
    rw [List.length_append, over_length, List.length_take, List.length_drop]; omega
  split at h
  · refine ⟨_, _, _, h, e1, fun _ => ⟨rfl, ?_, fun hle => ?_⟩⟩
    · rw [List.take_append, List.take_take, List.length_take]
      simp; omega
    · have hd : (buf.take q ++ over (buf.drop q) e).drop q = over (buf.drop q) e :=
        List.drop_left' (by rw [List.length_take, Nat.min_eq_left hq])
      rw [hd, over, List.take_of_length_le (l := e) (by rw [List.length_drop]; omega), List.take_left]
  · exact ⟨_, _, _, h, rfl, fun hn => absurd rfl hn⟩

/-- C75: for every string the call ends: it returns, fails an assertion or is undefined, and it is undefined only if a text is mapped to nothing. -/
theorem idna_terminates (hf : Represents id f) (hfr : ∀ n, (fresh n).length = n) {t : List UInt8} (h0 : (0 : UInt8) ∉ t) (r : List UInt8) :
    ∃ res, idnaEncode unicode13 id fresh (t ++ 0 :: r) = liftC res ∧ (res = .error .ub → ∃ y, (∀ c ∈ y, IsScalar c) ∧ mapText f y = some []) := by
  by_cases ha : ∀ c ∈ t, c.toNat < 128
  · exact ⟨.ok (some (t.map Spec.Charstr.lower ++ [0])), idna_ascii unicode13 id fresh h0 ha r, fun h => by (cases h)⟩
  · push Not at ha
    obtain ⟨cps, b, hs⟩ := scan_exists t
    obtain ⟨y, res, h1, h2, h3, _⟩ := idna_spec hf hfr h0 r ha hs
    refine ⟨res, h1, fun h => ?_⟩
    rcases h3 with h3 | h3
    · exact ⟨y, h2, h3.ub.1 h⟩
    · rw [h3] at h; cases h

example : points "b\u00FCcher.de" ≠ [] ∧ (encs (points "b\u00FCcher.de")).length ≤ 254 ∧ ∀ c ∈ points "b\u00FCcher.de", IsScalar c := by decide

/-! ### C76: ASCII -/

/-- C76 up to the case of letters: an ASCII string is copied in lower case. Missing: capitals are not copied, see `idna_ascii_not_copied`. -/
theorem idna_ascii_partial (u : Ucd) (id : Idna) (fresh : Nat → List UInt8) {t : List UInt8} (h0 : (0 : UInt8) ∉ t) (ha : ∀ c ∈ t, c.toNat < 128) (r : List UInt8) :
    Returns (idnaEncode u id fresh (t ++ 0 :: r)) (some (t.map Spec.Charstr.lower ++ [0])) ∧
    ((∀ c ∈ t, ¬ (65 ≤ c.toNat ∧ c.toNat ≤ 90)) → Returns (idnaEncode u id fresh (t ++ 0 :: r)) (some (t ++ [0]))) := by
  have h := idna_ascii u id fresh h0 ha r
  refine ⟨h, fun hl => ?_⟩
  have : t.map Spec.Charstr.lower = t := by
    conv_rhs => rw [← List.map_id t]
    exact List.map_congr_left fun c hc => if_neg (hl c hc)
  rwa [this] at h

example : (0 : UInt8) ∉ bytes "[2001:db8::1]" ∧ ∀ c ∈ bytes "[2001:db8::1]", c.toNat < 128 := by decide

/-- C76 is violated: the documentation promises a copy, but "A" becomes "a". -/
theorem idna_ascii_not_copied (u : Ucd) (id : Idna) (fresh : Nat → List UInt8) :
    Returns (idnaEncode u id fresh (bytes "A" ++ [0])) (some (bytes "a" ++ [0])) :=
  idna_ascii u id fresh (t := bytes "A") (by decide) (by decide) []

/-! ### C77: failures -/

theorem liftC_inj {α : Type} {x y : C α} (h : (liftC x : D α) = liftC y) : x = y := by
  have : some x = some y := h
  exact Option.some.inj this

/-- C77, C129: just when the call is undefined and when an assertion fails. -/
theorem idna_failure_iff (hf : Represents id f) (hfr : ∀ n, (fresh n).length = n) {t : List UInt8} (h0 : (0 : UInt8) ∉ t) (r : List UInt8)
    (hna : ∃ c ∈ t, 128 ≤ c.toNat) {cps : List Nat} (hs : Seq Legal t cps) :
    (idnaEncode unicode13 id fresh (t ++ 0 :: r) = liftC (.error .ub) ↔ Fits (3 * t.length) cps ∧ Prepared f cps []) ∧
    (idnaEncode unicode13 id fresh (t ++ 0 :: r) = liftC (.error .abort) ↔
      Fits (3 * t.length) cps ∧ ∃ z, Prepared f cps z ∧ (encs z).length ≤ 254 ∧ LongAscii id.mc z) := by
  obtain ⟨y, res, h1, h2, h3⟩ := idna_main hf hfr h0 r hna hs
  have hl : ∀ x : C (Option (List UInt8)), (liftC res : D _) = liftC x ↔ res = x := fun x => ⟨liftC_inj, fun h => by rw [h]⟩
  rw [h1, hl, hl]
  simp only [prepared_nfc h2]
  rcases h3 with ⟨h3, h4⟩ | ⟨h3, rfl⟩
  · rw [h4.ub, h4.abort]
    exact ⟨⟨fun h => ⟨h3, h⟩, fun h => h.2⟩, ⟨fun h => ⟨h3, h⟩, fun h => h.2⟩⟩
  · exact ⟨⟨fun h => (by cases h), fun h => absurd h.1 h3⟩, ⟨fun h => (by cases h), fun h => absurd h.1 h3⟩⟩

/-- C77 for host names that are not mapped to nothing and have no ASCII label of more than 63 characters: a string or NULL is returned. Missing:
the others, see `idna_aborts` and `idna_undefined`. -/
theorem idna_safe_partial (hf : Represents id f) (hfr : ∀ n, (fresh n).length = n) {t : List UInt8} (h0 : (0 : UInt8) ∉ t) (r : List UInt8)
    {cps : List Nat} (hs : Seq Legal t cps)
    (hok : ∀ z, Prepared f cps z → z ≠ [] ∧ ∀ l ∈ z.splitOn 0x2E, (∀ c ∈ l, c < 128) → l.length ≤ 63) :
    ∃ res, Returns (idnaEncode unicode13 id fresh (t ++ 0 :: r)) res := by
  by_cases ha : ∀ c ∈ t, c.toNat < 128
  · exact ⟨_, idna_ascii unicode13 id fresh h0 ha r⟩
  · push Not at ha
    obtain ⟨y, res, h1, h2, h3⟩ := idna_main hf hfr h0 r ha hs
    rw [h1]
    rcases h3 with ⟨-, h3⟩ | ⟨-, h3⟩
    · cases res with
      | ok v => exact ⟨v, rfl⟩
      | error e =>
        exfalso
        cases e with
        | ub => exact (hok [] ⟨y, h2, h3.ub.1 rfl⟩).1 rfl
        | abort =>
          obtain ⟨z, g1, _, _, before, l, after, es, g2, _, _, _, _, _, g3, g4⟩ := h3.abort.1 rfl
          have := (hok z ⟨y, h2, g1⟩).2 l (by rw [g2]; simp) g3
          omega
    · exact ⟨none, by rw [h3]; rfl⟩

/-- C77 is violated: the assertion in `encode_filtered` fails for U+00FC, a full stop and 64 times `a`. -/
theorem idna_aborts (hf : Represents id f) (hfr : ∀ n, (fresh n).length = n) (hv : f 0xFC = some [0xFC] ∧ f 0x2E = some [0x2E] ∧ f 0x61 = some [0x61])
    (hm : id.mc 0xFC = false) (r : List UInt8) :
    idnaEncode unicode13 id fresh (encs (0xFC :: 0x2E :: List.replicate 64 0x61) ++ 0 :: r) = liftC (.error .abort) := by
  obtain ⟨res, h1, h2⟩ := idna_quick hf hfr (cps := 0xFC :: 0x2E :: List.replicate 64 0x61) (by decide) (by decide) (by decide)
    (by unfold Quick; rw [unicode13_eq]; decide +kernel) r
  have hmap : mapText f (0xFC :: 0x2E :: List.replicate 64 0x61) = some (0xFC :: 0x2E :: List.replicate 64 0x61) :=
    mapText_self (by
      intro c hc
      simp only [List.mem_cons, List.mem_replicate] at hc
      rcases hc with rfl | rfl | ⟨_, rfl⟩
      · exact hv.1
      · exact hv.2.1
      · exact hv.2.2)
  rw [h1, h2.abort.2 ⟨_, hmap, by decide, by decide, [[0xFC]], List.replicate 64 0x61, [], [bytes "xn--tda"], by decide, ?_, ?_, by decide, by decide, ?_, by decide, by decide⟩]
  · simp only [List.mem_singleton, forall_eq]
    exact ⟨by decide, by decide, by simpa using hm⟩
  · exact .cons (toAscii_code (bytes "tda") (by decide +kernel)) .nil
  · exact ⟨by decide, by decide, by intro c hc h; have : c = 0x61 := by simpa using hc.symm
                                    omega⟩

/-- C77 is violated: U+00AD alone, which is ignored, makes the call undefined (arrays of length zero). -/
theorem idna_undefined (hf : Represents id f) (hfr : ∀ n, (fresh n).length = n) (hv : f 0xAD = some []) (r : List UInt8) :
    idnaEncode unicode13 id fresh (encs [0xAD] ++ 0 :: r) = liftC (.error .ub) := by
  obtain ⟨res, h1, h2⟩ := idna_quick hf hfr (cps := [0xAD]) (by decide) (by decide) (by decide) (by unfold Quick; rw [unicode13_eq]; decide +kernel) r
  rw [h1, h2.ub.2 (by simp [mapText, hv])]

example : sampleMap 0xAD = some [] ∧ (sampleMap 0xFC = some [0xFC] ∧ sampleMap 0x2E = some [0x2E] ∧ sampleMap 0x61 = some [0x61]) ∧ sample.mc 0xFC = false := by
  decide

/-! ### C90: different host names have different results -/

/-- C90: host names with the same result are the same after normalization and mapping, up to ASCII capitals, if none of their labels is ASCII and
begins with "xn--". -/
theorem idna_injective_partial (hf : Represents id f) (hfr : ∀ n, (fresh n).length = n) {t t' : List UInt8} (h0 : (0 : UInt8) ∉ t) (h0' : (0 : UInt8) ∉ t')
    {r r' : List UInt8} (hna : ∃ c ∈ t, 128 ≤ c.toNat) (hna' : ∃ c ∈ t', 128 ≤ c.toNat) {cps cps' : List Nat} (hs : Seq Legal t cps) (hs' : Seq Legal t' cps')
    {out : List UInt8} (hr : Returns (idnaEncode unicode13 id fresh (t ++ 0 :: r)) (some out))
    (hr' : Returns (idnaEncode unicode13 id fresh (t' ++ 0 :: r')) (some out))
    (hx : ∀ z, Prepared f cps z ∨ Prepared f cps' z → ∀ l ∈ z.splitOn 0x2E, (∀ c ∈ l, c < 128) → (l.map Punycode.lower).take 4 ≠ [0x78, 0x6E, 0x2D, 0x2D]) :
    ∃ z z', Prepared f cps z ∧ Prepared f cps' z' ∧ z.map Punycode.lower = z'.map Punycode.lower := by
  have key : ∀ {t r : List UInt8} {cps : List Nat}, (0 : UInt8) ∉ t → (∃ c ∈ t, 128 ≤ c.toNat) → Seq Legal t cps →
      Returns (idnaEncode unicode13 id fresh (t ++ 0 :: r)) (some out) → ∃ z o, Prepared f cps z ∧ HostAscii id.mc z o ∧ out = o ++ [0] := by
    intro t r cps h0 hna hs hr
    obtain ⟨y, res, h1, h2, h3⟩ := idna_main hf hfr h0 r hna hs
    rw [h1, returns_iff] at hr
    rcases h3 with ⟨-, h3⟩ | ⟨-, h3⟩
    · obtain ⟨z, o, g1, _, _, g4, g5⟩ := (h3.some out).1 hr
      exact ⟨z, o, ⟨y, h2, g1⟩, g4, g5⟩
    · rw [h3] at hr; cases hr
  obtain ⟨z, o, g1, g2, rfl⟩ := key h0 hna hs hr
  obtain ⟨z', o', g1', g2', g3⟩ := key h0' hna' hs' hr'
  rw [List.append_cancel_right_eq] at g3
  subst g3
  exact ⟨z, z', g1, g1', host_inj g2 g2' (fun l hl hfk => hx z (.inl g1) l hl hfk.1 hfk.2) (fun l hl hfk => hx z' (.inr g1') l hl hfk.1 hfk.2)⟩

/-- A host name that the quick check recognizes as normalized, of characters that are kept. -/
theorem idna_word (hf : Represents id f) (hfr : ∀ n, (fresh n).length = n) {cps : List Nat} {out : List UInt8} (es : List (List UInt8))
    (hv : ∀ c ∈ cps, f c = some [c] ∧ (128 ≤ c → id.mc c = false)) (hsc : (∀ c ∈ cps, IsScalar c) ∧ 0 ∉ cps ∧ (∃ c ∈ cps, 128 ≤ c) ∧ (encs cps).length ≤ 254)
    (hq : Quick cps) (h1 : (cps.getLast? ≠ some 0x2D ∧ ∀ l ∈ cps.splitOn 0x2E, l.head? ≠ some 0x2D ∧
      ∀ c ∈ l, c < 128 → c = 0x2D ∨ 48 ≤ c ∧ c ≤ 57 ∨ 65 ≤ c ∧ c ≤ 90 ∨ 97 ≤ c ∧ c ≤ 122))
    (h2 : List.Forall₂ ToAscii (cps.splitOn 0x2E) es) (h3 : ∀ e ∈ es, e.length ≤ 63)
    (h4 : ([0x2E].intercalate es).length ≤ 252 + if cps.getLast? = some 0x2E then 1 else 0) (h5 : out = [0x2E].intercalate es ++ [0]) (r : List UInt8) :
    Returns (idnaEncode unicode13 id fresh (encs cps ++ 0 :: r)) (some out) := by
  obtain ⟨res, g1, g2⟩ := idna_quick hf hfr hsc.1 hsc.2.1 hsc.2.2.1 hq r
  rw [g1, returns_iff, g2.some]
  refine ⟨cps, _, mapText_self fun c hc => (hv c hc).1, ?_, hsc.2.2.2, host_of es (fun c hc => (hv c hc).2) h1 h2 h3 h4, h5⟩
  rintro rfl
  obtain ⟨c, hc, _⟩ := hsc.2.2.1
  cases hc

/-- C90 is violated: U+00FC and "xn--tda" have the same result. -/
theorem idna_collision (hf : Represents id f) (hfr : ∀ n, (fresh n).length = n) (hv : f 0xFC = some [0xFC] ∧ id.mc 0xFC = false) :
    Returns (idnaEncode unicode13 id fresh (encs [0xFC] ++ [0])) (some (bytes "xn--tda" ++ [0])) ∧
    Returns (idnaEncode unicode13 id fresh (bytes "xn--tda" ++ [0])) (some (bytes "xn--tda" ++ [0])) := by
  refine ⟨idna_word hf hfr (cps := [0xFC]) [bytes "xn--tda"] (by simpa using hv) (by decide) (by unfold Quick; rw [unicode13_eq]; decide +kernel) (by decide)
    (.cons (toAscii_code (bytes "tda") (by decide +kernel)) .nil) (by decide) (by decide) (by decide) [], ?_⟩
  exact idna_ascii unicode13 id fresh (t := bytes "xn--tda") (by decide) (by decide) []

/-! ### C91: every host name within the limits of DNS is encoded -/

/-- C91 for host names that take at most 254 bytes as UTF-8 after mapping and whose ASCII form has at most 252 characters (253 with a full stop at
the end), with room and without long runs of marks. Missing: the others, see `idna_limit_off_by_one`, `idna_refuses_long_utf8` and
`idna_spurious_overflow`. -/
theorem idna_complete_partial (hf : Represents id f) (hfr : ∀ n, (fresh n).length = n) {t : List UInt8} (h0 : (0 : UInt8) ∉ t) (r : List UInt8)
    (hna : ∃ c ∈ t, 128 ≤ c.toNat) {cps z : List Nat} (hs : Seq Legal t cps) (hroom : Room cps) (hcalm : Calm cps) (hz : Prepared f cps z) (hne : z ≠ [])
    (hlen : (encs z).length ≤ 254) {o : List UInt8} (ho : HostAscii id.mc z o) : Returns (idnaEncode unicode13 id fresh (t ++ 0 :: r)) (some (o ++ [0])) :=
  (idna_encode_iff hf hfr h0 r hna hs hroom hcalm _).2 ⟨z, o, hz, hne, hlen, ho, rfl⟩

theorem quick_none (hf : Represents id f) (hfr : ∀ n, (fresh n).length = n) {cps : List Nat} (hv : ∀ c ∈ cps, f c = some [c])
    (hsc : (∀ c ∈ cps, IsScalar c) ∧ 0 ∉ cps ∧ (∃ c ∈ cps, 128 ≤ c)) (hq : Quick cps)
    (hs : ∀ l ∈ cps.splitOn 0x2E, l.length ≤ 63) (hno : (encs cps).length ≤ 254 → ∀ o, ¬ HostAscii id.mc cps o) (r : List UInt8) :
    Returns (idnaEncode unicode13 id fresh (encs cps ++ 0 :: r)) none := by
  obtain ⟨res, g1, g2⟩ := idna_quick hf hfr hsc.1 hsc.2.1 hsc.2.2 hq r
  have hm := mapText_self hv
  rw [g1, returns_iff]
  cases res with
  | error e =>
    exfalso
    cases e with
    | ub =>
      have := g2.ub.1 rfl
      rw [hm, Option.some.injEq] at this
      rw [this] at hsc
      obtain ⟨c, hc, _⟩ := hsc.2.2
      cases hc
    | abort =>
      obtain ⟨z, k1, _, _, before, l, after, es, k2, _, _, _, _, _, k3, k4⟩ := g2.abort.1 rfl
      rw [hm, Option.some.injEq] at k1
      subst k1
      have := hs l (by rw [k2]; simp)
      omega
  | ok v =>
    cases v with
    | none => rfl
    | some out =>
      exfalso
      obtain ⟨z, o, k1, _, k3, k4, _⟩ := (g2.some out).1 rfl
      rw [hm, Option.some.injEq] at k1
      subst k1
      exact hno k3 o k4

/-- A host name with the ASCII form xn--tda and four labels of 61, 61, 61 and 59 times `a`. -/
def limit : List Nat := 0xFC :: 0x2E :: List.replicate 61 0x61 ++ 0x2E :: List.replicate 61 0x61 ++ 0x2E :: List.replicate 61 0x61 ++ 0x2E :: List.replicate 59 0x61

/-- The ASCII form of its labels. -/
def limitLabels : List (List UInt8) :=
  [bytes "xn--tda", List.replicate 61 0x61, List.replicate 61 0x61, List.replicate 61 0x61, List.replicate 59 0x61]

theorem limit_forms : List.Forall₂ ToAscii (limit.splitOn 0x2E) limitLabels := by
  have : limit.splitOn 0x2E = [[0xFC], List.replicate 61 0x61, List.replicate 61 0x61, List.replicate 61 0x61, List.replicate 59 0x61] := by decide +kernel
  rw [this]
  refine .cons (toAscii_code (bytes "tda") (by decide +kernel)) (.cons (.inl ?_) (.cons (.inl ?_) (.cons (.inl ?_) (.cons (.inl ?_) .nil)))) <;> decide

/-- C91 is violated: a host name whose ASCII form has 253 characters, as many as DNS allows without the full stop at the end, is refused. -/
theorem idna_limit_off_by_one (hf : Represents id f) (hfr : ∀ n, (fresh n).length = n) (hv : f 0xFC = some [0xFC] ∧ f 0x2E = some [0x2E] ∧ f 0x61 = some [0x61])
    (r : List UInt8) : Returns (idnaEncode unicode13 id fresh (encs limit ++ 0 :: r)) none ∧
      List.Forall₂ ToAscii (limit.splitOn 0x2E) limitLabels ∧ (∀ e ∈ limitLabels, e.length ≤ 63) ∧ ([0x2E].intercalate limitLabels).length = 253 := by
  refine ⟨quick_none hf hfr ?_ ⟨by decide +kernel, by decide +kernel, by decide⟩ (by unfold Quick; rw [unicode13_eq]; decide +kernel) (by decide +kernel) ?_ r,
    limit_forms, by decide, by decide +kernel⟩
  · have : ∀ c ∈ limit, c = 0xFC ∨ c = 0x2E ∨ c = 0x61 := by decide +kernel
    intro c hc
    rcases this c hc with rfl | rfl | rfl
    · exact hv.1
    · exact hv.2.1
    · exact hv.2.2
  · rintro - o ⟨_, _, es, g1, _, rfl, g2⟩
    rw [toAscii_unique_all g1 limit_forms] at g2
    revert g2
    decide +kernel

/-- Two labels of 44 times U+4E00. -/
def chinese : List Nat := List.replicate 44 0x4E00 ++ 0x2E :: List.replicate 44 0x4E00

/-- C91 is violated: a host name that takes 265 bytes as UTF-8 is refused though its ASCII form has 101 characters; the comment "encoding won't
shorten it" is wrong. -/
theorem idna_refuses_long_utf8 (hf : Represents id f) (hfr : ∀ n, (fresh n).length = n) (hv : f 0x4E00 = some [0x4E00] ∧ f 0x2E = some [0x2E])
    (hm : id.mc 0x4E00 = false) (r : List UInt8) :
    Returns (idnaEncode unicode13 id fresh (encs chinese ++ 0 :: r)) none ∧ NFC13 chinese chinese ∧ mapText f chinese = some chinese ∧
      ∃ o, HostAscii id.mc chinese o ∧ o.length = 101 := by
  have h1 : ∀ c ∈ chinese, c = 0x4E00 ∨ c = 0x2E := by decide +kernel
  have h2 : ∀ c ∈ chinese, f c = some [c] := by
    intro c hc
    rcases h1 c hc with rfl | rfl
    · exact hv.1
    · exact hv.2
  have hq : Quick chinese := by unfold Quick; rw [unicode13_eq]; decide +kernel
  have hsc : (∀ c ∈ chinese, IsScalar c) ∧ 0 ∉ chinese ∧ ∃ c ∈ chinese, 128 ≤ c := ⟨by decide +kernel, by decide +kernel, 0x4E00, by decide, by decide⟩
  refine ⟨quick_none hf hfr h2 hsc hq (by decide +kernel) ?_ r, quick_nfc hsc.1 hq, mapText_self h2, _,
    host_of [bytes "xn--4gqaaaaaaaaaaaaaaaaaaaaaaaaaaaaaaaaaaaaaaaaaaa", bytes "xn--4gqaaaaaaaaaaaaaaaaaaaaaaaaaaaaaaaaaaaaaaaaaaa"] ?_ (by decide +kernel) ?_
      (by decide) (by decide), by decide⟩
  · have : (encs chinese).length = 265 := by decide +kernel
    omega
  · intro c hc hge
    rcases h1 c hc with rfl | rfl
    · exact hm
    · omega
  · have : chinese.splitOn 0x2E = [List.replicate 44 0x4E00, List.replicate 44 0x4E00] := by decide +kernel
    rw [this]
    have ha : ToAscii (List.replicate 44 0x4E00) (bytes "xn--4gqaaaaaaaaaaaaaaaaaaaaaaaaaaaaaaaaaaaaaaaaaaa") :=
      toAscii_code (bytes "4gqaaaaaaaaaaaaaaaaaaaaaaaaaaaaaaaaaaaaaaaaaaa") (by decide +kernel)
    exact .cons ha (.cons ha .nil)

/-- C91 is violated: U+1D160 is refused whatever the mapping, for its decomposition needs one byte more than was reserved ("should be enough for
decomposing"). With a mapping that keeps the characters of its normalization it has an ASCII form. -/
theorem idna_spurious_overflow (hfr : ∀ n, (fresh n).length = n) (r : List UInt8) :
    Returns (idnaEncode unicode13 id fresh (encs [0x1D160] ++ 0 :: r)) none ∧ NFC13 [0x1D160] [0x1D158, 0x1D165, 0x1D16E] ∧
      ToAscii [0x1D158, 0x1D165, 0x1D16E] (bytes "xn--9e1h0a1a") := by
  have hsc : ∀ c ∈ [0x1D160], IsScalar c := by decide
  have hn : NFD13 [0x1D160] [0x1D158, 0x1D165, 0x1D16E] := by
    unfold NFD13; rw [unicode13_eq]
    exact Spec.Unicode.nfd_iff.2 ⟨[0x1D158, 0x1D165, 0x1D16E] ++ [], .cons (fullF_full 5 _ _ (by decide +kernel)) .nil, by decide +kernel⟩
  have hz : (0 : UInt8) ∉ encs [0x1D160] := by decide
  have hin : Input (encs [0x1D160] ++ 0 :: r, some (encs [0x1D160]).length) (encs [0x1D160]) := ⟨0 :: r, rfl, hz, .inl rfl⟩
  refine ⟨?_, nfc_primary.2 ⟨_, hn, (compose_iff tables.toTable).2 (by rw [unicode13_eq]; decide +kernel)⟩, toAscii_code (bytes "9e1h0a1a") (by decide +kernel)⟩
  have h1 : isAllAscii (encs [0x1D160] ++ 0 :: r) = .ok false := by rw [isAllAscii_spec _ r hz]; rfl
  have h2 : canonicallyComposed unicode13 (encs [0x1D160] ++ 0 :: r, some (encs [0x1D160]).length) = .ok false := by
    obtain ⟨k, h1, h2⟩ := detect_zero (u := unicode13) (disallowed := nfcDisallowed) (maybe := nfcMaybe) (by decide) (by decide) (by decide) hin (scan_encs hsc)
    have : k ≠ 0 := by rw [ne_eq, h2, unicode13_eq]; decide +kernel
    rw [canonicallyComposed, h1]
    simp [bind, Except.bind, this, pure, Except.pure]
  have h3 : canonicallyDecomposed unicode13 (encs [0x1D160] ++ 0 :: r, some (encs [0x1D160]).length) = .ok false := by
    obtain ⟨k, h1, h2⟩ := detect_zero (u := unicode13) (disallowed := nfdDisallowed) (maybe := nfdMaybe) (by decide) (by decide) (by decide) hin (scan_encs hsc)
    have : k ≠ 0 := by rw [ne_eq, h2, unicode13_eq]; decide +kernel
    rw [canonicallyDecomposed, h1]
    simp [bind, Except.bind, this, pure, Except.pure]
  obtain ⟨buf', h4, _⟩ := (unicode_decompose_complete_partial hin (scan_true.1 (scan_encs hsc)) hn
    (by rintro c hc ⟨l, v, t, _, _, _, h⟩; simp only [List.mem_singleton] at hc; simp only [Spec.Unicode.syllable] at h; omega)
    (buf := fresh (3 * (encs [0x1D160]).length + 1)) (e := 3 * (encs [0x1D160]).length) (by rw [hfr]; omega)).2 (by decide)
  rw [idnaEncode, liftC_bind h1]
  simp only [Bool.false_eq_true, if_false]
  rw [liftC_bind (strlen_spec _ r hz), liftC_bind h2]
  simp only [Bool.false_eq_true, if_false]
  rw [liftC_bind h3]
  simp only [Bool.false_eq_true, if_false]
  rw [returns_bind h4]
  rfl

/-! ### C92: malformed UTF-8 -/

/-- C92 up to overlong encodings: NULL is returned for a string that is not a sequence of encodings the decoder accepts. Missing: overlong encodings,
see `idna_accepts_overlong` and `idna_truncates`. -/
theorem idna_malformed_partial (hf : Represents id f) (hfr : ∀ n, (fresh n).length = n) {t : List UInt8} (h0 : (0 : UInt8) ∉ t) (r : List UInt8)
    (hbad : ∀ cps, ¬ Seq Loose t cps) : Returns (idnaEncode unicode13 id fresh (t ++ 0 :: r)) none := by
  obtain ⟨cps, b, hs⟩ := scan_exists t
  have hb : b = false := by
    cases b with
    | false => rfl
    | true => exact absurd (scan_true.1 hs) (hbad cps)
  have hna : ∃ c ∈ t, 128 ≤ c.toNat := by
    by_contra hn
    push Not at hn
    refine hbad (t.map UInt8.toNat) ?_
    have h1 : ∀ c ∈ t.map UInt8.toNat, c < 128 := by
      intro c hc
      obtain ⟨x, hx, rfl⟩ := List.mem_map.1 hc
      exact hn x hx
    have h2 : encs (t.map UInt8.toNat) = t := by
      rw [encs_ascii h1, List.map_map]
      conv_rhs => rw [← List.map_id t]
      exact List.map_congr_left fun x _ => by simp
    have := scan_true.1 (scan_encs (d := t.map UInt8.toNat) fun c hc => .inl (by have := h1 c hc; omega))
    rwa [h2] at this
  obtain ⟨y, res, h1, _, _, h4, _⟩ := idna_spec hf hfr h0 r hna hs
  rw [h1, returns_iff, h4 hb]

example : ∀ cps, ¬ Seq Loose [0xC3, 0x28] cps := by
  have h := decode_lim (t := [0xC3, 0x28]) (by simp) []
  have e : decode ([0xC3, 0x28] ++ [], some [0xC3, (0x28 : UInt8)].length) = .ok none := by decide +kernel
  rcases h with ⟨_, h⟩ | ⟨_, _, _, h, _⟩
  · intro cps hs
    have := scan_unique (scan_true.2 hs) (.bad (by simp) h)
    cases this.2
  · rw [e] at h; cases h

theorem reach_unique {n : Nat} {cps y y' : List Nat} (h : Reach n cps y) (h' : Reach n cps y') : y' = y := by
  have hu : ∀ {x y y' : List Nat}, Spec.Unicode.Compose unicode13.ccc Unicode.Primary [] x y → Spec.Unicode.Compose unicode13.ccc Unicode.Primary [] x y' → y' = y := by
    intro x y y' k k'
    rw [compose_primary, compose_iff tables.toTable] at k k'
    rw [k, k']
  cases h with
  | composed g =>
    cases h' with
    | composed => rfl
    | decomposed k => exact absurd g k
    | other k => exact absurd g k
  | decomposed g1 g2 _ g3 =>
    cases h' with
    | composed k => exact absurd k g1
    | decomposed _ _ _ k => exact hu g3 k
    | other _ k => exact absurd g2 k
  | other g1 g2 g3 _ _ g4 =>
    cases h' with
    | composed k => exact absurd k g1
    | decomposed _ k => exact absurd k g2
    | other _ _ k1 _ _ k2 =>
      rw [Spec.Unicode.nfd_unique k1 g3] at k2
      exact hu g4 k2

/-- C92, C129: the outcome for every string of bytes that is not ASCII: what is encoded, and when the call is undefined or an assertion fails. -/
theorem idna_bytes_exact (hf : Represents id f) (hfr : ∀ n, (fresh n).length = n) {t : List UInt8} (h0 : (0 : UInt8) ∉ t) (r : List UInt8)
    (hna : ∃ c ∈ t, 128 ≤ c.toNat) :
    (∀ out, Returns (idnaEncode unicode13 id fresh (t ++ 0 :: r)) (some out) ↔ ∃ cps y z o, Seq Loose t cps ∧ Reach (3 * t.length) cps y ∧
      mapText f y = some z ∧ z ≠ [] ∧ (encs z).length ≤ 254 ∧ HostAscii id.mc z o ∧ out = o ++ [0]) ∧
    (idnaEncode unicode13 id fresh (t ++ 0 :: r) = liftC (.error .ub) ↔ ∃ cps y, Seq Loose t cps ∧ Reach (3 * t.length) cps y ∧ mapText f y = some []) ∧
    (idnaEncode unicode13 id fresh (t ++ 0 :: r) = liftC (.error .abort) ↔ ∃ cps y z, Seq Loose t cps ∧ Reach (3 * t.length) cps y ∧
      mapText f y = some z ∧ (encs z).length ≤ 254 ∧ LongAscii id.mc z) := by
  have hl : ∀ res x : C (Option (List UInt8)), (liftC res : D _) = liftC x ↔ res = x := fun res x => ⟨liftC_inj, fun h => by rw [h]⟩
  have key : ∃ res, idnaEncode unicode13 id fresh (t ++ 0 :: r) = liftC res ∧
      ((∃ cps y, Seq Loose t cps ∧ Reach (3 * t.length) cps y ∧ Encodes id f y res) ∨
        (∀ cps y, Seq Loose t cps → ¬ Reach (3 * t.length) cps y) ∧ res = .ok none) := by
    by_cases hs : ∃ cps, Seq Loose t cps
    · obtain ⟨cps, hs⟩ := hs
      obtain ⟨res, h1, h2⟩ := idna_reach hf hfr h0 r hna hs
      refine ⟨res, h1, ?_⟩
      rcases h2 with ⟨y, h2, h3⟩ | ⟨h2, h3⟩
      · exact .inl ⟨cps, y, hs, h2, h3⟩
      · refine .inr ⟨fun cps' y hs' => ?_, h3⟩
        obtain ⟨rfl, -⟩ := scan_unique (scan_true.2 hs') (scan_true.2 hs)
        exact h2 y
    · exact ⟨.ok none, idna_malformed_partial hf hfr h0 r fun cps h => hs ⟨cps, h⟩, .inr ⟨fun cps _ h => absurd ⟨cps, h⟩ hs, rfl⟩⟩
  obtain ⟨res, h1, h2⟩ := key
  rw [h1, hl, hl]
  simp only [returns_iff]
  rcases h2 with ⟨cps, y, h2, h3, h4⟩ | ⟨h2, rfl⟩
  · have hu : ∀ {cps' y'}, Seq Loose t cps' → Reach (3 * t.length) cps' y' → y' = y := by
      intro cps' y' k1 k2
      obtain ⟨rfl, -⟩ := scan_unique (scan_true.2 k1) (scan_true.2 h2)
      exact reach_unique h3 k2
    refine ⟨fun out => ?_, ?_, ?_⟩
    · rw [h4.some]
      constructor
      · rintro ⟨z, o, h⟩; exact ⟨cps, y, z, o, h2, h3, h⟩
      · rintro ⟨cps', y', z, o, k1, k2, h⟩
        rw [hu k1 k2] at h
        exact ⟨z, o, h⟩
    · rw [h4.ub]
      constructor
      · exact fun h => ⟨cps, y, h2, h3, h⟩
      · rintro ⟨cps', y', k1, k2, h⟩
        rwa [hu k1 k2] at h
    · rw [h4.abort]
      constructor
      · rintro ⟨z, h⟩; exact ⟨cps, y, z, h2, h3, h⟩
      · rintro ⟨cps', y', z, k1, k2, h⟩
        rw [hu k1 k2] at h
        exact ⟨z, h⟩
  · refine ⟨fun out => ⟨fun h => (by cases h), ?_⟩, ⟨fun h => (by cases h), ?_⟩, ⟨fun h => (by cases h), ?_⟩⟩
    · rintro ⟨cps, y, z, o, k1, k2, _⟩; exact absurd k2 (h2 _ _ k1)
    · rintro ⟨cps, y, k1, k2, _⟩; exact absurd k2 (h2 _ _ k1)
    · rintro ⟨cps, y, z, k1, k2, _⟩; exact absurd k2 (h2 _ _ k1)

/-- U+0390 fits without room for its decomposition, which takes three times as many bytes. U+1D160 does not fit. -/
example : Fits 6 [0x390] ∧ ¬ Room [0x390] ∧ ¬ Fits 12 [0x1D160] := by
  have hd : NFD13 [0x390] [0x3B9, 0x308, 0x301] := by
    unfold NFD13; rw [unicode13_eq]
    exact Spec.Unicode.nfd_iff.2 ⟨[0x3B9, 0x308, 0x301] ++ [], .cons (fullF_full 5 _ _ (by decide +kernel)) .nil, by decide +kernel⟩
  have hd' : NFD13 [0x1D160] [0x1D158, 0x1D165, 0x1D16E] := by
    unfold NFD13; rw [unicode13_eq]
    exact Spec.Unicode.nfd_iff.2 ⟨[0x1D158, 0x1D165, 0x1D16E] ++ [], .cons (fullF_full 5 _ _ (by decide +kernel)) .nil, by decide +kernel⟩
  refine ⟨.inl (checked_iff.2 (by unfold Quick; rw [unicode13_eq]; decide +kernel)), fun h => absurd (h _ hd) (by decide +kernel), ?_⟩
  rintro (h | h)
  · have := (checked_iff.1 h).1
    rw [unicode13_eq] at this
    revert this
    decide +kernel
  · exact absurd (h _ hd').1 (by decide +kernel)

/-- C92 is violated: C1 A1, an overlong encoding of `a`, is accepted. -/
theorem idna_accepts_overlong (hf : Represents id f) (hfr : ∀ n, (fresh n).length = n) (hv : f 0xFC = some [0xFC] ∧ f 0x61 = some [0x61]) (hm : id.mc 0xFC = false)
    (r : List UInt8) : Returns (idnaEncode unicode13 id fresh ([0xC3, 0xBC, 0xC1, 0xA1] ++ 0 :: r)) (some (bytes "xn--a-dha" ++ [0])) := by
  have hs : Seq Loose ([0xC3, 0xBC] ++ ([0xC1, 0xA1] ++ [])) [0xFC, 0x61] :=
    .cons ⟨by decide, 2, by decide, by decide, by decide, by decide⟩ (.cons ⟨by decide, 2, by decide, by decide, by decide, by decide⟩ .nil)
  obtain ⟨res, h1, h2⟩ := idna_quick_loose hf hfr (t := [0xC3, 0xBC, 0xC1, 0xA1]) (by decide) (by decide) hs
    (by unfold Quick; rw [unicode13_eq]; decide +kernel) r
  rw [h1, returns_iff, h2.some]
  refine ⟨[0xFC, 0x61], _, mapText_self (by simpa using hv), by simp, by decide, host_of [bytes "xn--a-dha"] ?_ (by decide)
    (.cons (toAscii_code (l := [0xFC, 0x61]) (bytes "a-dha") (by decide +kernel)) .nil) (by decide) (by decide), by decide⟩
  simpa using hm

/-- C92 is violated: C0 80, an overlong encoding of NUL, and all that follows is dropped. The host name is `e`, U+0301, U+00E9, C0 80 and "evil". -/
theorem idna_truncates (hf : Represents id f) (hfr : ∀ n, (fresh n).length = n) (hv : f 0xE9 = some [0xE9]) (hm : id.mc 0xE9 = false) (r : List UInt8) :
    Returns (idnaEncode unicode13 id fresh ([0x65, 0xCC, 0x81, 0xC3, 0xA9, 0xC0, 0x80] ++ bytes "evil" ++ 0 :: r)) (some (bytes "xn--9caa" ++ [0])) := by
  have hs : Seq Loose ([0x65] ++ ([0xCC, 0x81] ++ ([0xC3, 0xA9] ++ ([0xC0, 0x80] ++ encs (points "evil")))))
      ([0x65, 0x301, 0xE9, 0] ++ points "evil") :=
    .cons ⟨by decide, 1, by decide, by decide, by decide, by decide⟩ (.cons ⟨by decide, 2, by decide, by decide, by decide, by decide⟩
      (.cons ⟨by decide, 2, by decide, by decide, by decide, by decide⟩ (.cons ⟨by decide, 2, by decide, by decide, by decide, by decide⟩
        (scan_true.1 (scan_encs (by decide))))))
  have he : [0x65] ++ ([0xCC, 0x81] ++ ([0xC3, 0xA9] ++ ([0xC0, 0x80] ++ encs (points "evil")))) =
      [0x65, 0xCC, 0x81, 0xC3, 0xA9, 0xC0, 0x80] ++ bytes "evil" := by decide
  rw [he] at hs
  generalize ht : [0x65, 0xCC, 0x81, 0xC3, 0xA9, 0xC0, 0x80] ++ bytes "evil" = t at hs ⊢
  have hz : (0 : UInt8) ∉ t := by rw [← ht]; decide
  have hin : Input (t ++ 0 :: r, some t.length) t := ⟨0 :: r, rfl, hz, .inl rfl⟩
  have h1 : isAllAscii (t ++ 0 :: r) = .ok false := by rw [isAllAscii_spec _ r hz, ← ht]; rfl
  have h2 : canonicallyComposed unicode13 (t ++ 0 :: r, some t.length) = .ok false := by
    obtain ⟨k, h1, h2⟩ := detect_zero (u := unicode13) (disallowed := nfcDisallowed) (maybe := nfcMaybe) (by decide) (by decide) (by decide) hin (scan_true.2 hs)
    have : k ≠ 0 := by rw [ne_eq, h2, unicode13_eq]; decide +kernel
    rw [canonicallyComposed, h1]
    simp [bind, Except.bind, this, pure, Except.pure]
  have h3 : canonicallyDecomposed unicode13 (t ++ 0 :: r, some t.length) = .ok false := by
    obtain ⟨k, h1, h2⟩ := detect_zero (u := unicode13) (disallowed := nfdDisallowed) (maybe := nfdMaybe) (by decide) (by decide) (by decide) hin (scan_true.2 hs)
    have : k ≠ 0 := by rw [ne_eq, h2, unicode13_eq]; decide +kernel
    rw [canonicallyDecomposed, h1]
    simp [bind, Except.bind, this, pure, Except.pure]
  have hn : NFD13 ([0x65, 0x301, 0xE9, 0] ++ points "evil") ([0x65, 0x301, 0x65, 0x301] ++ 0 :: points "evil") := by
    unfold NFD13; rw [unicode13_eq]
    exact Spec.Unicode.nfd_iff.2 ⟨[0x65] ++ ([0x301] ++ ([0x65, 0x301] ++ ([0] ++ ([0x65] ++ ([0x76] ++ ([0x69] ++ ([0x6C] ++ []))))))),
      .cons (fullF_full 5 _ _ (by decide +kernel)) (.cons (fullF_full 5 _ _ (by decide +kernel)) (.cons (fullF_full 5 _ _ (by decide +kernel))
        (.cons (fullF_full 5 _ _ (by decide +kernel)) (.cons (fullF_full 5 _ _ (by decide +kernel)) (.cons (fullF_full 5 _ _ (by decide +kernel))
          (.cons (fullF_full 5 _ _ (by decide +kernel)) (.cons (fullF_full 5 _ _ (by decide +kernel)) .nil))))))), by decide +kernel⟩
  obtain ⟨d, k1, k2, k3⟩ := unicode_decompose_13 hin hs
  have := Spec.Unicode.nfd_unique k1 hn
  subst this
  have hlen : (encs ([0x65, 0x301, 0x65, 0x301] ++ 0 :: points "evil")).length < 3 * t.length := by rw [← ht]; decide
  have h4 := k3 (fresh (3 * t.length + 1)) (3 * t.length) (by rw [hfr]; omega) hlen
  generalize hS : (fresh (3 * t.length + 1)).drop ((encs ([0x65, 0x301, 0x65, 0x301] ++ 0 :: points "evil")).length + 1) = s at h4
  have hp : encs ([0x65, 0x301, 0x65, 0x301] ++ 0 :: points "evil") = encs [0x65, 0x301, 0x65, 0x301] ++ 0 :: encs (points "evil") := by decide
  have hin2 : Input (encs ([0x65, 0x301, 0x65, 0x301] ++ 0 :: points "evil") ++ 0 :: s, some (encs ([0x65, 0x301, 0x65, 0x301] ++ 0 :: points "evil")).length)
      (encs [0x65, 0x301, 0x65, 0x301]) := by
    refine ⟨0 :: (encs (points "evil") ++ 0 :: s), by rw [hp]; simp, by decide, .inr ⟨⟨_, rfl⟩, ?_⟩⟩
    intro n hn
    simp only [Option.some.injEq] at hn
    subst hn
    refine ⟨by rw [hp]; simp, by simp⟩
  obtain ⟨y, res, j1, j2, j3⟩ := encodeNfd_spec hf hfr hin2 rfl (scan_encs (by decide))
  have hy : y = [0xE9, 0xE9] := by
    rw [compose_primary, compose_iff tables.toTable] at j1
    rw [j1, unicode13_eq]; decide +kernel
  subst hy
  have hx : ¬ Spec.Unicode.Excess unicode13.ccc Unicode.Primary 100 [0x65, 0x301, 0x65, 0x301] := by
    rw [excess_primary, ← gok_iff tables.toTable]
    refine gok_of_runs fun x b y he _ => ?_
    have := congrArg List.length he
    simp only [List.length_append, List.length_cons, List.length_nil] at this
    omega
  have henc : Encodes id f [0xE9, 0xE9] res := by
    rcases j3 with ⟨_, _, h⟩ | ⟨h | h, _⟩
    · exact h
    · cases h
    · exact absurd h hx
  rw [idnaEncode, liftC_bind h1]
  simp only [Bool.false_eq_true, if_false]
  rw [liftC_bind (strlen_spec _ r hz), liftC_bind h2]
  simp only [Bool.false_eq_true, if_false]
  rw [liftC_bind h3]
  simp only [Bool.false_eq_true, if_false]
  rw [returns_bind h4]
  simp only []
  rw [j2, returns_iff, henc.some]
  exact ⟨[0xE9, 0xE9], _, mapText_self (by simpa using hv), by simp, by decide, host_of [bytes "xn--9caa"] (by simpa using hm) (by decide)
    (.cons (toAscii_code (l := [0xE9, 0xE9]) (bytes "9caa") (by decide +kernel)) .nil) (by decide) (by decide), by decide⟩

/-! ### C93: malformed labels -/

/-- What holds of every result for a string that is not ASCII, whatever its bytes. -/
theorem idna_result (hf : Represents id f) (hfr : ∀ n, (fresh n).length = n) {t : List UInt8} (h0 : (0 : UInt8) ∉ t) {r : List UInt8}
    (hna : ∃ c ∈ t, 128 ≤ c.toNat) {out : List UInt8} (hr : Returns (idnaEncode unicode13 id fresh (t ++ 0 :: r)) (some out)) :
    ∃ y z o, (∀ c ∈ y, IsScalar c) ∧ mapText f y = some z ∧ z ≠ [] ∧ HostAscii id.mc z o ∧ out = o ++ [0] := by
  obtain ⟨cps, b, hs⟩ := scan_exists t
  obtain ⟨y, res, h1, h2, h3, _⟩ := idna_spec hf hfr h0 r hna hs
  rw [h1, returns_iff] at hr
  rcases h3 with h3 | h3
  · obtain ⟨z, o, g1, g2, _, g4, g5⟩ := (h3.some out).1 hr
    exact ⟨y, z, o, h2, g1, g2, g4, g5⟩
  · rw [h3] at hr; cases hr

/-- C93 without empty labels and labels that end with a hyphen: if a string is returned, the mapped host name is not empty, no label begins with
a hyphen or a combining mark of category Mc, the ASCII characters of labels are letters, digits and hyphens, and the host name does not end with a
hyphen. Missing: see `idna_accepts_empty_label` and `idna_accepts_hyphen`. -/
theorem idna_labels_partial (hf : Represents id f) (hfr : ∀ n, (fresh n).length = n) {t : List UInt8} (h0 : (0 : UInt8) ∉ t) {r : List UInt8}
    (hna : ∃ c ∈ t, 128 ≤ c.toNat) {cps : List Nat} (hs : Seq Legal t cps) {out : List UInt8}
    (hr : Returns (idnaEncode unicode13 id fresh (t ++ 0 :: r)) (some out)) :
    ∃ z, Prepared f cps z ∧ z ≠ [] ∧ z.getLast? ≠ some 0x2D ∧ ∀ l ∈ z.splitOn 0x2E, l.head? ≠ some 0x2D ∧
      (∀ c ∈ l, c < 128 → c = 0x2D ∨ 48 ≤ c ∧ c ≤ 57 ∨ 65 ≤ c ∧ c ≤ 90 ∨ 97 ≤ c ∧ c ≤ 122) ∧ ∀ c, l.head? = some c → 128 ≤ c → id.mc c = false := by
  obtain ⟨y, res, h1, h2, h3⟩ := idna_main hf hfr h0 r hna hs
  rw [h1, returns_iff] at hr
  rcases h3 with ⟨-, h3⟩ | ⟨-, h3⟩
  · obtain ⟨z, o, g1, g2, _, g4, _⟩ := (h3.some out).1 hr
    exact ⟨z, ⟨y, h2, g1⟩, g2, g4.1, g4.2.1⟩
  · rw [h3] at hr; cases hr

/-- C93 is violated: the empty label in "ü..a" is accepted, though a comment says "label is empty" is an error. -/
theorem idna_accepts_empty_label (hf : Represents id f) (hfr : ∀ n, (fresh n).length = n)
    (hv : f 0xFC = some [0xFC] ∧ f 0x2E = some [0x2E] ∧ f 0x61 = some [0x61]) (hm : id.mc 0xFC = false) (r : List UInt8) :
    Returns (idnaEncode unicode13 id fresh (encs (points "\u00FC..a") ++ 0 :: r)) (some (bytes "xn--tda..a" ++ [0])) := by
  refine idna_word hf hfr (cps := [0xFC, 0x2E, 0x2E, 0x61]) [bytes "xn--tda", [], bytes "a"] ?_ (by decide) (by unfold Quick; rw [unicode13_eq]; decide +kernel)
    (by decide) ?_ (by decide) (by decide) (by decide) r
  · simp [hv, hm]
  · exact .cons (toAscii_code (l := [0xFC]) (bytes "tda") (by decide +kernel)) (.cons (.inl (by decide)) (.cons (.inl (by decide)) .nil))

/-- C93 is violated: the label "ü-" in "ü-.a" is accepted, though "label ends with hyphen" is an error: only the end of the host name is checked. -/
theorem idna_accepts_hyphen (hf : Represents id f) (hfr : ∀ n, (fresh n).length = n)
    (hv : f 0xFC = some [0xFC] ∧ f 0x2D = some [0x2D] ∧ f 0x2E = some [0x2E] ∧ f 0x61 = some [0x61]) (hm : id.mc 0xFC = false) (r : List UInt8) :
    Returns (idnaEncode unicode13 id fresh (encs (points "\u00FC-.a") ++ 0 :: r)) (some (bytes "xn----dha.a" ++ [0])) := by
  refine idna_word hf hfr (cps := [0xFC, 0x2D, 0x2E, 0x61]) [bytes "xn----dha", bytes "a"] ?_ (by decide) (by unfold Quick; rw [unicode13_eq]; decide +kernel)
    (by decide) ?_ (by decide) (by decide) (by decide) r
  · simp [hv, hm]
  · exact .cons (toAscii_code (l := [0xFC, 0x2D]) (bytes "--dha") (by decide +kernel)) (.cons (.inl (by decide)) .nil)

/-! ### C94: canonical equivalence -/

/-- C94: canonically equivalent host names have the same result, unless NULL is returned for one that does not fit. -/
theorem idna_equivalent_any (hf : Represents id f) (hfr : ∀ n, (fresh n).length = n) {t t' : List UInt8} (h0 : (0 : UInt8) ∉ t) (h0' : (0 : UInt8) ∉ t')
    (r r' : List UInt8) (hna : ∃ c ∈ t, 128 ≤ c.toNat) (hna' : ∃ c ∈ t', 128 ≤ c.toNat) {cps cps' d : List Nat} (hs : Seq Legal t cps) (hs' : Seq Legal t' cps')
    (hd : NFD13 cps d) (hd' : NFD13 cps' d) :
    idnaEncode unicode13 id fresh (t ++ 0 :: r) = idnaEncode unicode13 id fresh (t' ++ 0 :: r') ∨
    ¬ Fits (3 * t.length) cps ∧ Returns (idnaEncode unicode13 id fresh (t ++ 0 :: r)) none ∨
    ¬ Fits (3 * t'.length) cps' ∧ Returns (idnaEncode unicode13 id fresh (t' ++ 0 :: r')) none := by
  obtain ⟨y, res, h1, h2, h3⟩ := idna_main hf hfr h0 r hna hs
  obtain ⟨y', res', h1', h2', h3'⟩ := idna_main hf hfr h0' r' hna' hs'
  have hy : y = y' := by
    obtain ⟨c, k1, k2⟩ := h2'
    refine nfc_unique h2 ⟨d, hd, ?_⟩
    rwa [Spec.Unicode.nfd_unique hd' k1]
  subst hy
  rw [h1, h1', returns_iff, returns_iff]
  rcases h3 with ⟨_, h3⟩ | h3
  · rcases h3' with ⟨_, h3'⟩ | h3'
    · rw [encodes_unique h3 h3']; exact .inl rfl
    · exact .inr (.inr h3')
  · exact .inr (.inl h3)

/-- C94: canonically equivalent host names have the same result. -/
theorem idna_equivalent (hf : Represents id f) (hfr : ∀ n, (fresh n).length = n) {t t' : List UInt8} (h0 : (0 : UInt8) ∉ t) (h0' : (0 : UInt8) ∉ t')
    (r r' : List UInt8) (hna : ∃ c ∈ t, 128 ≤ c.toNat) (hna' : ∃ c ∈ t', 128 ≤ c.toNat) {cps cps' d : List Nat} (hs : Seq Legal t cps) (hs' : Seq Legal t' cps')
    (hroom : Room cps) (hroom' : Room cps') (hcalm : Calm cps) (hd : NFD13 cps d) (hd' : NFD13 cps' d) :
    idnaEncode unicode13 id fresh (t ++ 0 :: r) = idnaEncode unicode13 id fresh (t' ++ 0 :: r') := by
  have hcalm' : Calm cps' := fun d' hd1 => by rw [Spec.Unicode.nfd_unique hd1 hd']; exact hcalm d hd
  rcases idna_equivalent_any hf hfr h0 h0' r r' hna hna' hs hs' hd hd' with h | ⟨h, _⟩ | ⟨h, _⟩
  · exact h
  · exact absurd (idna_fits hs hroom hcalm) h
  · exact absurd (idna_fits hs' hroom' hcalm') h

/-- "bücher" with U+00FC and with `u` and U+0308. -/
example : NFD13 (points "b\u00FCcher") (points "bu\u0308cher") ∧ NFD13 (points "bu\u0308cher") (points "bu\u0308cher") ∧ Room (points "b\u00FCcher") ∧
    Calm (points "b\u00FCcher") := by
  have h : NFD13 (points "b\u00FCcher") (points "bu\u0308cher") := by
    unfold NFD13; rw [unicode13_eq]
    exact Spec.Unicode.nfd_iff.2 ⟨[0x62] ++ ([0x75, 0x308] ++ ([0x63] ++ ([0x68] ++ ([0x65] ++ ([0x72] ++ []))))),
      .cons (fullF_full 5 _ _ (by decide +kernel)) (.cons (fullF_full 5 _ _ (by decide +kernel)) (.cons (fullF_full 5 _ _ (by decide +kernel))
        (.cons (fullF_full 5 _ _ (by decide +kernel)) (.cons (fullF_full 5 _ _ (by decide +kernel)) (.cons (fullF_full 5 _ _ (by decide +kernel)) .nil))))),
      by decide +kernel⟩
  refine ⟨h, (unicode_normal_idempotent (y := points "bu\u0308cher")).1 h, idna_room (by decide) (by decide), short_calm fun d hd => ?_⟩
  rw [Spec.Unicode.nfd_unique hd h]
  decide

/-! ### C95: the encoded labels are normalized -/

/-- C95 for host names whose normalization consists of characters that are kept: what is encoded is in normalization form C. Missing: characters that
are mapped, see `idna_not_normalized`. -/
theorem idna_normalized_partial (hf : Represents id f) (hfr : ∀ n, (fresh n).length = n) {t : List UInt8} (h0 : (0 : UInt8) ∉ t) {r : List UInt8}
    (hna : ∃ c ∈ t, 128 ≤ c.toNat) {cps : List Nat} (hs : Seq Legal t cps) (hkeep : ∀ y, NFC13 cps y → ∀ c ∈ y, f c = some [c])
    {out : List UInt8} (hr : Returns (idnaEncode unicode13 id fresh (t ++ 0 :: r)) (some out)) :
    ∃ z o, NFC13 cps z ∧ NFC13 z z ∧ out = o ++ [0] ∧ List.Forall₂ ToAscii (z.splitOn 0x2E) (o.splitOn 0x2E) := by
  obtain ⟨z, o, ⟨y, h1, h2⟩, h3, _, h4⟩ := idna_encode_sound hf hfr h0 hna hs hr
  rw [mapText_self (hkeep y h1), Option.some.injEq] at h2
  subst h2
  exact ⟨y, o, h1, unicode_normal_idempotent.2 h1, h3, h4⟩

/-- C95 is violated: U+FF21 U+0301 becomes "xn--a-xbb", which decodes to `a` U+0301 and not to U+00E1, since the text is not normalized again after
mapping U+FF21 to `a`. -/
theorem idna_not_normalized (hf : Represents id f) (hfr : ∀ n, (fresh n).length = n) (hv : f 0xFF21 = some [0x61] ∧ f 0x301 = some [0x301]) (r : List UInt8) :
    Returns (idnaEncode unicode13 id fresh (encs [0xFF21, 0x301] ++ 0 :: r)) (some (bytes "xn--a-xbb" ++ [0])) ∧
      Punycode.decode (bytes "a-xbb") = some [0x61, 0x301] ∧ NFC13 [0x61, 0x301] [0xE1] := by
  have hsc : ∀ c ∈ [0xFF21, 0x301], IsScalar c := by decide
  have hn : NFD13 [0xFF21, 0x301] [0xFF21, 0x301] := by
    unfold NFD13; rw [nfd_self_iff tables flagsD hsc, unicode13_eq]; decide +kernel
  have hc : NFC13 [0xFF21, 0x301] [0xFF21, 0x301] := nfc_primary.2 ⟨_, hn, (compose_iff tables.toTable).2 (by rw [unicode13_eq]; decide +kernel)⟩
  have hn' : NFD13 [0x61, 0x301] [0x61, 0x301] := by
    unfold NFD13; rw [nfd_self_iff tables flagsD (by decide), unicode13_eq]; decide +kernel
  refine ⟨?_, by decide +kernel, nfc_primary.2 ⟨_, hn', (compose_iff tables.toTable).2 (by rw [unicode13_eq]; decide +kernel)⟩⟩
  have hroom : Room [0xFF21, 0x301] := fun d hd => by rw [Spec.Unicode.nfd_unique hd hn]; decide
  have hcalm : Calm [0xFF21, 0x301] := short_calm fun d hd => by rw [Spec.Unicode.nfd_unique hd hn]; decide
  rw [idna_encode_iff hf hfr (by decide) r (by decide) (seq_encs hsc) hroom hcalm]
  exact ⟨[0x61, 0x301], _, ⟨_, hc, by simp [mapText, hv]⟩, by simp, by decide, ⟨by decide, by
    have : ([0x61, 0x301] : List Nat).splitOn 0x2E = [[0x61, 0x301]] := by decide
    rw [this]
    simp only [List.mem_singleton, forall_eq]
    refine ⟨by decide, by decide, fun c hc hge => ?_⟩
    simp only [List.head?_cons, Option.some.injEq] at hc
    omega, [bytes "xn--a-xbb"], .cons (toAscii_code (l := [0x61, 0x301]) (bytes "a-xbb") (by decide +kernel)) .nil, by decide, rfl, by decide⟩, by decide⟩

/-! ### C96: the characters and the size of the result -/

/-- C96: whatever the bytes of a string that is not ASCII, a result consists of lower-case letters, digits, hyphens and full stops and the NUL; it has
at most 253 characters, and its labels at most 63. -/
theorem idna_output (hf : Represents id f) (hfr : ∀ n, (fresh n).length = n) {t : List UInt8} (h0 : (0 : UInt8) ∉ t) {r : List UInt8}
    (hna : ∃ c ∈ t, 128 ≤ c.toNat) {out : List UInt8} (hr : Returns (idnaEncode unicode13 id fresh (t ++ 0 :: r)) (some out)) :
    ∃ o, out = o ++ [0] ∧ (∀ b ∈ o, b = 0x2E ∨ b = 0x2D ∨ 97 ≤ b.toNat ∧ b.toNat ≤ 122 ∨ 48 ≤ b.toNat ∧ b.toNat ≤ 57) ∧ o.length ≤ 253 ∧
      ∀ e ∈ o.splitOn 0x2E, e.length ≤ 63 := by
  obtain ⟨y, z, o, _, _, _, h4, rfl⟩ := idna_result hf hfr h0 hna hr
  refine ⟨o, rfl, host_chars h4, ?_, ?_⟩
  · obtain ⟨_, _, _, _, _, _, h⟩ := h4
    split at h <;> omega
  · have hl := host_labels h4
    obtain ⟨_, _, es, g1, g2, _⟩ := h4
    rwa [toAscii_unique_all hl g1]

/-! ### C97: results are not changed -/

/-- C97: encoding a result returns the same string. -/
theorem idna_idempotent (hf : Represents id f) (hfr : ∀ n, (fresh n).length = n) {t : List UInt8} (h0 : (0 : UInt8) ∉ t) {r : List UInt8} {out : List UInt8}
    (hr : Returns (idnaEncode unicode13 id fresh (t ++ 0 :: r)) (some out)) : Returns (idnaEncode unicode13 id fresh out) (some out) := by
  have key : ∀ o : List UInt8, (∀ b ∈ o, b ≠ 0 ∧ b.toNat < 128 ∧ ¬ (65 ≤ b.toNat ∧ b.toNat ≤ 90)) →
      Returns (idnaEncode unicode13 id fresh (o ++ [0])) (some (o ++ [0])) := fun o ho =>
    (idna_ascii_partial unicode13 id fresh (fun h => (ho 0 h).1 rfl) (fun c hc => (ho c hc).2.1) []).2 fun c hc => (ho c hc).2.2
  by_cases ha : ∀ c ∈ t, c.toNat < 128
  · have := returns_unique (idna_ascii unicode13 id fresh h0 ha r) hr
    rw [Option.some.injEq] at this
    rw [← this]
    refine key _ fun b hb => ?_
    obtain ⟨c, hc, rfl⟩ := List.mem_map.1 hb
    have h1 := ha c hc
    have h2 : c ≠ 0 := fun h => h0 (h ▸ hc)
    have h3 : c.toNat ≠ 0 := fun h => h2 (UInt8.toNat_inj.1 h)
    simp only [Spec.Charstr.lower, ne_eq, ← UInt8.toNat_inj]
    have : (0 : UInt8).toNat = 0 := rfl
    split
    · rw [UInt8.toNat_add]
      have : (32 : UInt8).toNat = 32 := rfl
      omega
    · omega
  · push Not at ha
    obtain ⟨o, rfl, h1, _⟩ := idna_output hf hfr h0 ha hr
    refine key o fun b hb => ?_
    have e0 : (0 : UInt8).toNat = 0 := rfl
    have e1 : (0x2E : UInt8).toNat = 46 := rfl
    have e2 : (0x2D : UInt8).toNat = 45 := rfl
    have := h1 b hb
    simp only [ne_eq, ← UInt8.toNat_inj] at this ⊢
    omega

/-- The hypotheses of C96 and C97 hold of "ü" with the sample functions. -/
example (hfr : ∀ n, (fresh n).length = n) : ∃ out, Returns (idnaEncode unicode13 sample fresh (encs [0xFC] ++ 0 :: [])) (some out) :=
  ⟨_, (idna_collision sample_represents hfr (by decide)).1⟩

end Verif.Puny
