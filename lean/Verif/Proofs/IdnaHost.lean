import Verif.Proofs.IdnaEncode
import Verif.Props.Charstr

/-! Consequences of `idna_spec` and facts about the ASCII form of host names. -/

set_option autoImplicit false

namespace Verif.Puny
open Verif.Spec Verif.Utf8 Verif.Charstr Verif.Unicode Verif.Unidata
open Verif.Spec.Utf8 (IsScalar enc width form Loose Legal Seq)
open Verif.Spec.Unicode (encs Scan Input FullAll Full)

/-! ### The characters of the ASCII form -/

theorem steps_value {ds : List UInt8} : ∀ {s s' : Punycode.State}, Punycode.steps s ds = some s' → ∀ c ∈ ds, ∃ d, Punycode.value c = some d := by
  induction ds with
  | nil => simp
  | cons a ds ih =>
    intro s s' h c hc
    simp only [Punycode.steps] at h
    cases hs : Punycode.step s a with
    | none => simp [hs] at h
    | some s1 =>
      simp only [hs] at h
      rcases List.mem_cons.1 hc with rfl | hc
      · simp only [Punycode.step] at hs
        cases hv : Punycode.value c with
        | none => simp [hv] at hs
        | some d => exact ⟨d, rfl⟩
      · exact ih h c hc

theorem decode_chars {p : List UInt8} {L : List Nat} (h : Punycode.decode p = some L) :
    ∀ c ∈ p, c = 0x2D ∨ (∃ d, Punycode.value c = some d) ∨ c.toNat < 128 ∧ c.toNat ∈ L := by
  obtain ⟨b, ext, hb, hp, st, h1, h2, h3⟩ := decode_parts h
  have hlo := (steps_final (start_sane b hb) h1 h2).1.lo
  have hmem : ∀ c ∈ b, c.toNat ∈ L := by
    intro c hc
    have hm : c.toNat ∈ (b.map UInt8.toNat).filter (· < 128) := by
      rw [List.mem_filter]
      exact ⟨List.mem_map_of_mem hc, by simpa using hb c hc⟩
    rw [← hlo, h3] at hm
    exact (List.mem_filter.1 hm).1
  intro c hc
  rw [hp] at hc
  split at hc
  · exact .inr (.inl (steps_value h1 c hc))
  · rcases List.mem_append.1 hc with hc | hc
    · exact .inr (.inr ⟨hb c hc, hmem c hc⟩)
    · rcases List.mem_cons.1 hc with hc | hc
      · exact .inl hc
      · exact .inr (.inl (steps_value h1 c hc))

/-- A lower-case letter, a digit or a hyphen. -/
def Ldh (b : UInt8) : Prop := b = 0x2D ∨ 97 ≤ b.toNat ∧ b.toNat ≤ 122 ∨ 48 ≤ b.toNat ∧ b.toNat ≤ 57

theorem lower_ldh {c : Nat} (h : c = 0x2D ∨ 48 ≤ c ∧ c ≤ 57 ∨ 65 ≤ c ∧ c ≤ 90 ∨ 97 ≤ c ∧ c ≤ 122) {b : UInt8} (hb : b.toNat = Punycode.lower c) : Ldh b := by
  simp only [Punycode.lower] at hb
  simp only [Ldh, ← UInt8.toNat_inj]
  have : (0x2D : UInt8).toNat = 45 := rfl
  split at hb <;> omega

theorem toAscii_ldh {mark : Nat → Bool} {l : List Nat} {e : List UInt8} (ha : Punycode.Acceptable mark l) (h : Punycode.ToAscii l e) : ∀ b ∈ e, Ldh b := by
  rcases h with ⟨h1, rfl⟩ | ⟨_, p, rfl, h2, h3⟩
  · intro b hb
    obtain ⟨c, hc, rfl⟩ := List.mem_map.1 hb
    have := h1 c hc
    refine lower_ldh (ha.2.1 c hc this) ?_
    rw [UInt8.toNat_ofNat']
    apply Nat.mod_eq_of_lt
    simp only [Punycode.lower]; split <;> omega
  · intro b hb
    rcases List.mem_append.1 hb with hb | hb
    · simp only [List.mem_cons, List.not_mem_nil, or_false] at hb
      rcases hb with rfl | rfl | rfl | rfl <;> simp [Ldh]
    · have hu := h3 b hb
      rcases decode_chars h2 b hb with rfl | ⟨d, hd⟩ | ⟨hlt, hm⟩
      · exact .inl rfl
      · simp only [Punycode.value] at hd
        simp only [Ldh]
        split_ifs at hd <;> first | tauto | simp at hd
      · obtain ⟨c, hc, hl⟩ := List.mem_map.1 hm
        have : c < 128 := by
          rw [← hl] at hlt
          simp only [Punycode.lower] at hlt
          split at hlt <;> omega
        exact lower_ldh (ha.2.1 c hc this) hl.symm

theorem mem_intercalate {b : UInt8} {es : List (List UInt8)} (h : b ∈ [0x2E].intercalate es) : b = 0x2E ∨ ∃ e ∈ es, b ∈ e := by
  induction es with
  | nil => simp [List.intercalate] at h
  | cons e es ih =>
    cases es with
    | nil => rw [intercalate_one] at h; exact .inr ⟨e, by simp, h⟩
    | cons e' es =>
      rw [intercalate_cons (by simp)] at h
      simp only [List.mem_append, List.mem_singleton] at h
      rcases h with (h | h) | h
      · exact .inr ⟨e, by simp, h⟩
      · exact .inl h
      · rcases ih h with h | ⟨e1, h1, h2⟩
        · exact .inl h
        · exact .inr ⟨e1, List.mem_cons_of_mem _ h1, h2⟩

theorem forall₂_ldh {mark : Nat → Bool} {ls : List (List Nat)} {es : List (List UInt8)} (h : List.Forall₂ Punycode.ToAscii ls es)
    (ha : ∀ l ∈ ls, Punycode.Acceptable mark l) : ∀ e ∈ es, ∀ b ∈ e, Ldh b := by
  induction h with
  | nil => simp
  | cons h1 _ ih =>
    intro e he
    rcases List.mem_cons.1 he with rfl | he
    · exact toAscii_ldh (ha _ (by simp)) h1
    · exact ih (fun l hl => ha l (List.mem_cons_of_mem _ hl)) e he

theorem host_chars {mark : Nat → Bool} {x : List Nat} {o : List UInt8} (h : Punycode.HostAscii mark x o) : ∀ b ∈ o, b = 0x2E ∨ Ldh b := by
  obtain ⟨_, h2, es, h3, h4, rfl, _⟩ := h
  intro b hb
  rcases mem_intercalate hb with rfl | ⟨e, he, hb⟩
  · exact .inl rfl
  · exact .inr (forall₂_ldh h3 h2 e he b hb)

/-- The labels of the output are the ASCII forms of the labels of the host name. -/
theorem host_labels {mark : Nat → Bool} {x : List Nat} {o : List UInt8} (h : Punycode.HostAscii mark x o) :
    List.Forall₂ Punycode.ToAscii (x.splitOn 0x2E) (o.splitOn 0x2E) := by
  obtain ⟨_, h2, es, h3, h4, rfl, _⟩ := h
  rw [List.splitOn_intercalate]
  · exact h3
  · intro l hl hd
    rcases forall₂_ldh h3 h2 l hl _ hd with h | h | h
    · cases h
    · exact absurd h.1 (by decide)
    · exact absurd h.1 (by decide)
  · intro he
    subst he
    cases hx : x.splitOn 0x2E with
    | nil => exact splitOn_ne x hx
    | cons a b => rw [hx] at h3; cases h3

theorem host_unique {mark : Nat → Bool} {x : List Nat} {o o' : List UInt8} (h : Punycode.HostAscii mark x o) (h' : Punycode.HostAscii mark x o') : o = o' := by
  have h1 := toAscii_unique_all (host_labels h) (host_labels h')
  rw [← List.intercalate_splitOn (xs := o) 0x2E, h1, List.intercalate_splitOn]

/-! ### Host names with the same ASCII form -/

/-- An ASCII label that looks like the ASCII form of another one. -/
def Fake (l : List Nat) : Prop := (∀ c ∈ l, c < 128) ∧ (l.map Punycode.lower).take 4 = [0x78, 0x6E, 0x2D, 0x2D]

theorem ascii_toNat {l : List Nat} (h : ∀ c ∈ l, c < 128) : (l.map fun c => UInt8.ofNat (Punycode.lower c)).map UInt8.toNat = l.map Punycode.lower := by
  rw [List.map_map]
  apply List.map_congr_left
  intro c hc
  have := lower_lt (h c hc)
  simp only [Function.comp_apply, UInt8.toNat_ofNat']
  omega

theorem toAscii_inj {l l' : List Nat} {e : List UInt8} (h : Punycode.ToAscii l e) (h' : Punycode.ToAscii l' e) (hf : ¬ Fake l) (hf' : ¬ Fake l') :
    l.map Punycode.lower = l'.map Punycode.lower := by
  have mix : ∀ {l l' : List Nat} {e p : List UInt8}, (∀ c ∈ l, c < 128) → e = (l.map fun c => UInt8.ofNat (Punycode.lower c)) →
      e = [0x78, 0x6E, 0x2D, 0x2D] ++ p → Fake l := by
    intro l l' e p h1 h2 h3
    refine ⟨h1, ?_⟩
    rw [← ascii_toNat h1, ← h2, h3]
    rfl
  rcases h with ⟨h1, h2⟩ | ⟨_, p, h2, h3, _⟩
  · rcases h' with ⟨h1', h2'⟩ | ⟨_, p', h2', _⟩
    · rw [← ascii_toNat h1, ← ascii_toNat h1', ← h2, ← h2']
    · exact absurd (mix (l' := l) h1 h2 h2') hf
  · rcases h' with ⟨h1', h2'⟩ | ⟨_, p', h2', h3', _⟩
    · exact absurd (mix (l' := l) h1' h2' h2) hf'
    · rw [h2] at h2'
      have := List.append_cancel_left h2'
      subst this
      rw [h3] at h3'
      exact Option.some.inj h3'

theorem toAscii_inj_all {ls : List (List Nat)} {es : List (List UInt8)} (h : List.Forall₂ Punycode.ToAscii ls es) :
    ∀ {ls'}, List.Forall₂ Punycode.ToAscii ls' es → (∀ l ∈ ls, ¬ Fake l) → (∀ l ∈ ls', ¬ Fake l) →
      ls.map (List.map Punycode.lower) = ls'.map (List.map Punycode.lower) := by
  induction h with
  | nil => intro ls' h' _ _; cases h'; rfl
  | cons h1 _ ih =>
    intro ls' h' hf hf'
    cases h' with
    | cons h2 h3 =>
      rw [List.map_cons, List.map_cons, toAscii_inj h1 h2 (hf _ (by simp)) (hf' _ (by simp)),
        ih h3 (fun l hl => hf l (List.mem_cons_of_mem _ hl)) (fun l hl => hf' l (List.mem_cons_of_mem _ hl))]

theorem map_intercalate (f : Nat → Nat) (hf : f 0x2E = 0x2E) (ls : List (List Nat)) :
    ([0x2E].intercalate ls).map f = [0x2E].intercalate (ls.map (List.map f)) := by
  induction ls with
  | nil => simp [List.intercalate]
  | cons l ls ih =>
    cases ls with
    | nil => simp [List.intercalate, List.intersperse]
    | cons l' ls =>
      simp only [List.intercalate, List.intersperse, List.map_cons, List.flatten_cons, List.map_append, List.map_nil, hf] at ih ⊢
      rw [ih]

theorem host_inj {mark : Nat → Bool} {x x' : List Nat} {o : List UInt8} (h : Punycode.HostAscii mark x o) (h' : Punycode.HostAscii mark x' o)
    (hf : ∀ l ∈ x.splitOn 0x2E, ¬ Fake l) (hf' : ∀ l ∈ x'.splitOn 0x2E, ¬ Fake l) : x.map Punycode.lower = x'.map Punycode.lower := by
  have := toAscii_inj_all (host_labels h) (host_labels h') hf hf'
  rw [← List.intercalate_splitOn (xs := x) 0x2E, ← List.intercalate_splitOn (xs := x') 0x2E, map_intercalate _ (by decide), map_intercalate _ (by decide), this]

/-! ### Normalization -/

theorem nfc_unique {x y y' : List Nat} (h : NFC13 x y) (h' : NFC13 x y') : y = y' := by
  obtain ⟨d, h1, h2⟩ := h
  obtain ⟨d', h1', h2'⟩ := h'
  rw [Spec.Unicode.nfd_unique h1' h1] at h2'
  rw [compose_primary, compose_iff tables.toTable] at h2 h2'
  rw [h2, h2']

/-- With an ASCII character the decomposition is less than three times as long. -/
theorem ascii_room {cps d : List Nat} (hsc : ∀ c ∈ cps, IsScalar c) (ha : ∃ c ∈ cps, c < 128) (hd : NFD13 cps d) :
    (encs d).length < 3 * (encs cps).length := by
  obtain ⟨c, hc, hlt⟩ := ha
  obtain ⟨a, b, rfl⟩ := List.append_of_mem hc
  obtain ⟨d', h1, rfl⟩ := Spec.Unicode.nfd_iff.1 hd
  rw [encs_perm_length (Spec.Unicode.ord_perm d')]
  obtain ⟨da, r, h2, h3, rfl⟩ := Spec.Unicode.fullAll_append h1
  cases h3 with
  | @cons _ _ dc db h4 h5 =>
    have hself : Full unicode13.decomp c [c] := by
      refine .self ?_ ?_
      · have : ∀ c : Fin 128, unicode13.decomp c.val = none := by rw [unicode13_eq]; decide +kernel
        exact this ⟨c, hlt⟩
      · rintro ⟨l, v, t, _, _, _, h⟩
        simp only [Spec.Unicode.syllable] at h; omega
    rw [← Spec.Unicode.full_unique h4 hself]
    obtain ⟨da', g1, _, g2⟩ := fullAll_exists (cps := a) (fun x hx => hsc x (by simp [hx]))
    obtain ⟨db', g3, _, g4⟩ := fullAll_exists (cps := b) (fun x hx => hsc x (by simp [hx]))
    rw [← Spec.Unicode.fullAll_unique h2 g1, ← Spec.Unicode.fullAll_unique h5 g3]
    have hw : (enc c).length = 1 := by rw [enc_length, width, if_pos (by omega)]
    simp only [encs_append, encs_cons, encs_nil, List.length_append, hw, List.length_nil]
    omega

/-! ### The encoder -/

theorem returns_iff {α : Type} (x : C α) (a : α) : Returns (liftC x) a ↔ x = .ok a := by
  cases x <;> simp [Returns, liftC]

theorem idna_ascii (u : Ucd) (id : Idna) (fresh : Nat → List UInt8) {t : List UInt8} (h0 : (0 : UInt8) ∉ t) (ha : ∀ c ∈ t, c.toNat < 128) (r : List UInt8) :
    Returns (idnaEncode u id fresh (t ++ 0 :: r)) (some (t.map Spec.Charstr.lower ++ [0])) := by
  have h1 : isAllAscii (t ++ 0 :: r) = .ok true := by
    rw [isAllAscii_spec t r h0]
    congr 1
    simpa using ha
  rw [idnaEncode, liftC_bind h1]
  simp only [if_true]
  rw [liftC_bind (dup_spec t r h0), liftC_bind (case_str t [] h0).1]
  rfl

theorem encs_ascii {cps : List Nat} (h : ∀ c ∈ cps, c < 128) : encs cps = cps.map UInt8.ofNat := by
  induction cps with
  | nil => rfl
  | cons c cps ih =>
    rw [encs_cons, ih fun x hx => h x (List.mem_cons_of_mem _ hx), List.map_cons, enc, width, if_pos (by have := h c (by simp); omega)]
    rfl

/-- A character that is not ASCII takes a byte that is not. -/
theorem encs_nonascii {cps : List Nat} (hsc : ∀ c ∈ cps, IsScalar c) (h : ∃ c ∈ cps, 128 ≤ c) : ∃ b ∈ encs cps, 128 ≤ b.toNat := by
  by_contra hn
  push Not at hn
  have h1 : ∀ c ∈ (encs cps).map UInt8.toNat, c < 128 := by
    intro c hc
    obtain ⟨b, hb, rfl⟩ := List.mem_map.1 hc
    exact hn b hb
  have h2 : encs ((encs cps).map UInt8.toNat) = encs cps := by
    rw [encs_ascii h1, List.map_map]
    conv_rhs => rw [← List.map_id (encs cps)]
    apply List.map_congr_left
    intro b _
    simp
  have h3 := encs_inj (fun c hc => .inl (by have := h1 c hc; omega)) hsc h2
  obtain ⟨c, hc, hge⟩ := h
  rw [← h3] at hc
  have := h1 c hc
  omega

/-- The quick check tells that the text is in normalization form C. -/
def Quick (cps : List Nat) : Prop := bad unicode13 nfcDisallowed 0 cps = false ∧ ∀ c ∈ cps, unicode13.flags c &&& nfcMaybe = 0

theorem quick_nfc {cps : List Nat} (hsc : ∀ c ∈ cps, IsScalar c) (hq : Quick cps) : NFC13 cps cps := by
  obtain ⟨h5, h6⟩ := not_bad_ordered hq.1
  exact nfc_primary.2 (stable_nfc tables h5 fun c hc => flagsC c (hsc c hc) (h6 c hc) (hq.2 c hc))

theorem idna_quick_loose {id : Idna} {f : Nat → Option (List Nat)} (hf : Represents id f) {fresh : Nat → List UInt8} (hfr : ∀ n, (fresh n).length = n)
    {t : List UInt8} {cps : List Nat} (hz : (0 : UInt8) ∉ t) (hna : ∃ c ∈ t, 128 ≤ c.toNat) (hs : Seq Loose t cps) (hq : Quick cps) (r : List UInt8) :
    ∃ res, idnaEncode unicode13 id fresh (t ++ 0 :: r) = liftC res ∧ Encodes id f cps res := by
  have ha : isAllAscii (t ++ 0 :: r) = .ok false := by
    rw [isAllAscii_spec _ r hz]
    obtain ⟨c, hc, h⟩ := hna
    congr 1
    rw [decide_eq_false_iff_not]
    intro h'
    have := h' c hc
    omega
  have hc : canonicallyComposed unicode13 (t ++ 0 :: r, some t.length) = .ok true := by
    obtain ⟨k, h1, h2⟩ := detect_zero (u := unicode13) (disallowed := nfcDisallowed) (maybe := nfcMaybe) (by decide) (by decide) (by decide)
      (p := (t ++ 0 :: r, some t.length)) ⟨0 :: r, rfl, hz, .inl rfl⟩ (scan_true.2 hs)
    rw [canonicallyComposed, h1]
    have : k = 0 := h2.2 ⟨rfl, hq.1, hq.2⟩
    subst this
    rfl
  obtain ⟨res, k1, k2, _⟩ := encodeNfc_spec hf hfr (scan_true.2 hs) (0 :: r)
  refine ⟨res, ?_, k2 rfl⟩
  rw [idnaEncode, liftC_bind ha]
  simp only [Bool.false_eq_true, if_false]
  rw [liftC_bind (strlen_spec _ r hz), liftC_bind hc]
  simpa using k1

theorem idna_quick {id : Idna} {f : Nat → Option (List Nat)} (hf : Represents id f) {fresh : Nat → List UInt8} (hfr : ∀ n, (fresh n).length = n)
    {cps : List Nat} (hsc : ∀ c ∈ cps, IsScalar c) (h0 : 0 ∉ cps) (hna : ∃ c ∈ cps, 128 ≤ c) (hq : Quick cps) (r : List UInt8) :
    ∃ res, idnaEncode unicode13 id fresh (encs cps ++ 0 :: r) = liftC res ∧ Encodes id f cps res :=
  idna_quick_loose hf hfr (fun h => h0 ((encs_zero hsc).1 h)) (encs_nonascii hsc hna) (scan_true.1 (scan_encs hsc)) hq r

theorem encodes_unique {id : Idna} {f : Nat → Option (List Nat)} {y : List Nat} {res res' : C (Option (List UInt8))} (h : Encodes id f y res)
    (h' : Encodes id f y res') : res = res' := by
  cases res with
  | error e =>
    cases e with
    | ub => exact (h'.ub.2 (h.ub.1 rfl)).symm
    | abort => exact (h'.abort.2 (h.abort.1 rfl)).symm
  | ok v =>
    cases v with
    | some out => exact ((h'.some out).2 ((h.some out).1 rfl)).symm
    | none =>
      cases res' with
      | error e =>
        cases e with
        | ub => exact h.ub.2 (h'.ub.1 rfl)
        | abort => exact h.abort.2 (h'.abort.1 rfl)
      | ok v =>
        cases v with
        | some out => exact (h.some out).2 ((h'.some out).1 rfl)
        | none => rfl

end Verif.Puny
