import Verif.Proofs.Host13

/-! Property C90 in full: just which host names have the same encoding. -/

set_option autoImplicit false

namespace Verif.Puny
open Verif.Spec Verif.Utf8 Verif.Charstr Verif.Unicode Verif.Unidata
open Verif.Spec.Utf8 (IsScalar enc width form Loose Legal Seq)
open Verif.Spec.Unicode (encs)
open Verif.Spec.Punycode (HostAscii ToAscii mapText decode lower)

variable {id : Idna} {f : Nat → Option (List Nat)} {fresh : Nat → List UInt8}

/-- `l` is an ASCII label, "xn--" and the Punycode of the label `l'`, which is not ASCII, in any case. -/
def Disguise (l l' : List Nat) : Prop :=
  (∀ c ∈ l, c < 128) ∧ (∃ c ∈ l', 128 ≤ c) ∧ ∃ p : List UInt8, l.map lower = [0x78, 0x6E, 0x2D, 0x2D] ++ p.map UInt8.toNat ∧ decode p = some (l'.map lower)

/-- Labels that are the same up to ASCII capitals, or one of which is the ASCII form of the other. -/
def SameLabel (l l' : List Nat) : Prop := l.map lower = l'.map lower ∨ Disguise l l' ∨ Disguise l' l

theorem lower_ascii (c : Nat) : lower c < 128 ↔ c < 128 := by simp only [lower]; split_ifs <;> omega

theorem lower_ascii_all {l l' : List Nat} (h : l.map lower = l'.map lower) (hl : ∀ c ∈ l, c < 128) : ∀ c ∈ l', c < 128 := by
  intro c hc
  have : lower c ∈ l.map lower := by rw [h]; exact List.mem_map.2 ⟨c, hc, rfl⟩
  obtain ⟨d, hd, e⟩ := List.mem_map.1 this
  rw [← lower_ascii, ← e, lower_ascii]
  exact hl d hd

theorem toNat_inj {x y : List UInt8} (h : x.map UInt8.toNat = y.map UInt8.toNat) : x = y :=
  (List.map_injective_iff.2 fun _ _ => UInt8.toNat_inj.1) h

theorem disguise_same {l l' : List Nat} {e e' : List UInt8} (h1 : ∀ c ∈ l, c < 128) (h2 : e = l.map fun c => UInt8.ofNat (lower c)) (hn : ∃ c ∈ l', 128 ≤ c)
    {p : List UInt8} (hp : e' = [0x78, 0x6E, 0x2D, 0x2D] ++ p) (hd : decode p = some (l'.map lower)) (hu : ∀ c ∈ p, ¬ (65 ≤ c.toNat ∧ c.toNat ≤ 90)) :
    e = e' ↔ Disguise l l' := by
  have hl : e.map UInt8.toNat = l.map lower := by rw [h2]; exact ascii_toNat h1
  constructor
  · rintro rfl
    refine ⟨h1, hn, p, ?_, hd⟩
    rw [← hl, hp, List.map_append]; rfl
  · rintro ⟨-, -, q, h3, h4⟩
    have hq : p = q := by
      refine decode_unique hd h4 hu fun c hc => ?_
      have : c.toNat ∈ l.map lower := by rw [h3]; exact List.mem_append_right _ (List.mem_map.2 ⟨c, hc, rfl⟩)
      obtain ⟨d, -, hd⟩ := List.mem_map.1 this
      unfold NotUpper
      rw [← hd]
      simp only [lower]
      split_ifs <;> omega
    subst hq
    apply toNat_inj
    rw [hl, h3, hp, List.map_append]; rfl

/-- The ASCII forms of two labels are the same just if the labels are in this relation. -/
theorem toAscii_same {l l' : List Nat} {e e' : List UInt8} (h : ToAscii l e) (h' : ToAscii l' e') : e = e' ↔ SameLabel l l' := by
  have notboth : ∀ {l : List Nat}, (∀ c ∈ l, c < 128) → ¬ ∃ c ∈ l, 128 ≤ c := by
    rintro l h ⟨c, hc, h'⟩
    have := h c hc
    omega
  rcases h with ⟨h1, h2⟩ | ⟨h1, p, h2, h3, h4⟩
  · rcases h' with ⟨h1', h2'⟩ | ⟨h1', p', h2', h3', h4'⟩
    · have ha : e.map UInt8.toNat = l.map lower := by rw [h2]; exact ascii_toNat h1
      have ha' : e'.map UInt8.toNat = l'.map lower := by rw [h2']; exact ascii_toNat h1'
      constructor
      · rintro rfl; exact .inl (ha.symm.trans ha')
      · rintro (h | h | h)
        · exact toNat_inj (by rw [ha, ha', h])
        · exact absurd h.2.1 (notboth h1')
        · exact absurd h.2.1 (notboth h1)
    · rw [disguise_same h1 h2 h1' h2' h3' h4']
      constructor
      · exact fun h => .inr (.inl h)
      · rintro (h | h | h)
        · exact absurd h1' (notboth (lower_ascii_all h h1))
        · exact h
        · exact absurd h.2.1 (notboth h1)
  · rcases h' with ⟨h1', h2'⟩ | ⟨h1', p', h2', h3', h4'⟩
    · rw [eq_comm, disguise_same h1' h2' h1 h2 h3 h4]
      constructor
      · exact fun h => .inr (.inr h)
      · rintro (h | h | h)
        · exact absurd h1 (notboth (lower_ascii_all h.symm h1'))
        · exact absurd h.2.1 (notboth h1')
        · exact h
    · constructor
      · intro h
        rw [h2, h2'] at h
        rw [List.append_cancel_left h, h3'] at h3
        exact .inl (Option.some.inj h3.symm)
      · rintro (h | h | h)
        · rw [h] at h3
          rw [h2, h2', decode_unique h3 h3' h4 h4']
        · exact absurd h1 (notboth h.1)
        · exact absurd h1' (notboth h.1)

theorem toAscii_same_all {ls ls' : List (List Nat)} {es : List (List UInt8)} (h : List.Forall₂ ToAscii ls es) :
    ∀ {ls' es'}, List.Forall₂ ToAscii ls' es' → (es = es' ↔ List.Forall₂ SameLabel ls ls') := by
  clear ls'
  induction h with
  | nil =>
    intro ls' es' h'
    cases h' with
    | nil => simp
    | cons _ _ => simp
  | cons h1 _ ih =>
    intro ls' es' h'
    cases h' with
    | nil => simp
    | cons h2 h3 => rw [List.cons_eq_cons, List.forall₂_cons, toAscii_same h1 h2, ih h3]

theorem split_nodot (n : Nat) : ∀ x : List Nat, x.length ≤ n → ∀ l ∈ x.splitOn 0x2E, 0x2E ∉ l := by
  induction n with
  | zero =>
    intro x hx l hl
    obtain rfl : x = [] := List.length_eq_zero_iff.1 (by omega)
    rw [splitOn_nodot (by simp)] at hl
    simp at hl; subst hl; simp
  | succ n ih =>
    intro x hx l hl
    by_cases h : 0x2E ∈ x
    · obtain ⟨a, b, rfl, ha⟩ := List.eq_append_cons_of_mem h
      rw [splitOn_dot (fun c hc => by rintro rfl; exact ha hc)] at hl
      rcases List.mem_cons.1 hl with rfl | hl
      · exact ha
      · exact ih b (by simp at hx; omega) l hl
    · rw [splitOn_nodot (fun c hc => by rintro rfl; exact h hc)] at hl
      rw [List.mem_singleton.1 hl]; exact h

theorem map_intercalate8 (g : Nat → UInt8) (hg : g 0x2E = 0x2E) (ls : List (List Nat)) :
    ([0x2E].intercalate ls).map g = [0x2E].intercalate (ls.map (List.map g)) := by
  induction ls with
  | nil => simp [List.intercalate]
  | cons l ls ih =>
    cases ls with
    | nil => simp [List.intercalate, List.intersperse]
    | cons l' ls =>
      simp only [List.intercalate, List.intersperse, List.map_cons, List.flatten_cons, List.map_append, List.map_nil, hg] at ih ⊢
      rw [ih]

/-- A host name in ASCII, label by label. -/
theorem ascii_labels {x : List Nat} (h : ∀ c ∈ x, c < 128) :
    List.Forall₂ ToAscii (x.splitOn 0x2E) ((x.map fun c => UInt8.ofNat (lower c)).splitOn 0x2E) := by
  have h1 : (x.map fun c => UInt8.ofNat (lower c)).splitOn 0x2E = (x.splitOn 0x2E).map (List.map fun c => UInt8.ofNat (lower c)) := by
    conv_lhs => rw [← List.intercalate_splitOn (xs := x) 0x2E]
    rw [map_intercalate8 _ (by decide), List.splitOn_intercalate]
    · intro l hl hd
      obtain ⟨k, hk, rfl⟩ := List.mem_map.1 hl
      obtain ⟨c, hc, e⟩ := List.mem_map.1 hd
      have hlt := h c (mem_splitOn hk hc)
      have hn := split_nodot _ x (le_refl _) k hk
      have : lower c = 0x2E := by
        have := congrArg UInt8.toNat e
        have hl := (lower_ascii c).2 hlt
        simp only [UInt8.toNat_ofNat'] at this
        have h46 : (0x2E : UInt8).toNat = 0x2E := by decide
        omega
      have hc' : c = 0x2E := by simp only [lower] at this; split_ifs at this <;> omega
      subst hc'
      exact hn hc
    · intro he
      exact splitOn_ne x (List.map_eq_nil_iff.1 he)
  rw [h1, List.forall₂_map_right_iff, List.forall₂_same]
  exact fun l hl => .inl ⟨fun c hc => h c (mem_splitOn hl hc), rfl⟩

/-- What is encoded: the host name itself if it is ASCII, otherwise what normalization and mapping make of it. -/
def Form (f : Nat → Option (List Nat)) (cps z : List Nat) : Prop := (∀ c ∈ cps, c < 128) ∧ z = cps ∨ (∃ c ∈ cps, 128 ≤ c) ∧ Prepared f cps z

theorem form_labels (hf : Represents id f) (hfr : ∀ n, (fresh n).length = n) {t r : List UInt8} (h0 : (0 : UInt8) ∉ t) {cps : List Nat} (hs : Seq Legal t cps)
    {out : List UInt8} (hr : Returns (idnaEncode unicode13 id fresh (t ++ 0 :: r)) (some out)) :
    ∃ z o, Form f cps z ∧ out = o ++ [0] ∧ List.Forall₂ ToAscii (z.splitOn 0x2E) (o.splitOn 0x2E) := by
  obtain ⟨rfl, hsc⟩ := legal_encs hs
  by_cases ha : ∀ c ∈ cps, c < 128
  · have he := encs_ascii ha
    have h1 := idna_ascii unicode13 id fresh h0 (by
      rw [he]
      intro b hb
      obtain ⟨c, hc, rfl⟩ := List.mem_map.1 hb
      have := ha c hc
      simp only [UInt8.toNat_ofNat']
      omega) r
    have h2 := returns_unique h1 hr
    refine ⟨cps, _, .inl ⟨ha, rfl⟩, (Option.some.inj h2).symm, ?_⟩
    have h3 : (encs cps).map Spec.Charstr.lower = cps.map fun c => UInt8.ofNat (lower c) := by
      rw [he, List.map_map]
      refine List.map_congr_left fun c hc => ?_
      have := ha c hc
      have key : ∀ c < 128, Spec.Charstr.lower (UInt8.ofNat c) = UInt8.ofNat (lower c) := by decide +kernel
      exact key c this
    rw [h3]
    exact ascii_labels ha
  · push Not at ha
    obtain ⟨y, res, h1, h2, h3⟩ := idna_main hf hfr h0 r (encs_nonascii hsc ha) hs
    rw [h1, returns_iff] at hr
    rcases h3 with ⟨-, h3⟩ | ⟨-, h3⟩
    · obtain ⟨z, o, g1, _, _, g4, g5⟩ := (h3.some out).1 hr
      exact ⟨z, o, .inr ⟨ha, y, h2, g1⟩, g5, host_labels g4⟩
    · rw [h3] at hr; cases hr

theorem mapText_unique {z z' y : List Nat} (h : mapText f y = some z) (h' : mapText f y = some z') : z = z' := by rw [h] at h'; exact Option.some.inj h'

/-- C90, for all host names in UTF-8 that are encoded: the results are the same just if the host names have, after normalization and mapping, as many
labels and each label of one is the same, up to ASCII capitals, as the label of the other at its place, or its ASCII form, or the other way round. -/
theorem idna_same_iff (hf : Represents id f) (hfr : ∀ n, (fresh n).length = n) {t t' r r' : List UInt8} (h0 : (0 : UInt8) ∉ t) (h0' : (0 : UInt8) ∉ t')
    {cps cps' : List Nat} (hs : Seq Legal t cps) (hs' : Seq Legal t' cps') {out out' : List UInt8}
    (hr : Returns (idnaEncode unicode13 id fresh (t ++ 0 :: r)) (some out)) (hr' : Returns (idnaEncode unicode13 id fresh (t' ++ 0 :: r')) (some out')) :
    ∃ z z', Form f cps z ∧ Form f cps' z' ∧ (out = out' ↔ List.Forall₂ SameLabel (z.splitOn 0x2E) (z'.splitOn 0x2E)) := by
  obtain ⟨z, o, h1, rfl, h2⟩ := form_labels hf hfr h0 hs hr
  obtain ⟨z', o', h1', rfl, h2'⟩ := form_labels hf hfr h0' hs' hr'
  refine ⟨z, z', h1, h1', ?_⟩
  rw [List.append_cancel_right_eq, ← toAscii_same_all (ls' := []) h2 h2']
  constructor
  · rintro rfl; rfl
  · intro h
    rw [← List.intercalate_splitOn (xs := o) 0x2E, h, List.intercalate_splitOn]

/-- What is encoded is determined by the host name. -/
theorem form_unique {cps z z' : List Nat} (h : Form f cps z) (h' : Form f cps z') : z = z' := by
  rcases h with ⟨h1, rfl⟩ | ⟨⟨c, hc, h1⟩, y, h2, h3⟩
  · rcases h' with ⟨_, rfl⟩ | ⟨⟨c, hc, h2⟩, _⟩
    · rfl
    · have := h1 c hc; omega
  · rcases h' with ⟨h4, _⟩ | ⟨_, y', h4, h5⟩
    · have := h4 c hc; omega
    · rw [nfc_unique h4 h2] at h5
      exact mapText_unique h3 h5

/-- U+00FC and "XN--tda" are in the relation, U+00FC and "xn--tdb" are not. -/
example : SameLabel [0xFC] [0x58, 0x4E, 0x2D, 0x2D, 0x74, 0x64, 0x61] ∧ ¬ SameLabel [0xFC] [0x78, 0x6E, 0x2D, 0x2D, 0x74, 0x64, 0x62] := by
  refine ⟨.inr (.inr ⟨by decide, ⟨0xFC, by simp, by decide⟩, bytes "tda", by decide, by decide +kernel⟩), ?_⟩
  rintro (h | h | h)
  · exact absurd h (by decide)
  · exact absurd (h.1 0xFC (by simp)) (by decide)
  · obtain ⟨-, -, p, h1, h2⟩ := h
    have : p = bytes "tdb" := toNat_inj (by
      have h3 : [0x78, 0x6E, 0x2D, 0x2D] ++ (bytes "tdb").map UInt8.toNat = [0x78, 0x6E, 0x2D, 0x2D] ++ p.map UInt8.toNat := by rw [← h1]; decide
      exact (List.append_cancel_left h3).symm)
    subst this
    exact absurd h2 (by decide +kernel)

end Verif.Puny
