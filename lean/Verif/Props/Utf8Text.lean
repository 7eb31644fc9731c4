import Verif.Proofs.Utf8Text
import Verif.Props.Charstr
import Verif.Props.Utf8

/-!
Property C126: the functions of `charstr.c` that work byte by byte keep UTF-8 texts intact.

`A` is `Legal` (UTF-8 as defined by Unicode) or `Loose` (what `charstr_valid_utf8` accepts: `charstr_valid_text`).
-/

set_option autoImplicit false

namespace Verif.Utf8
open Verif.Spec.Utf8 Verif.Spec.Charstr Verif.Charstr

variable {A : List UInt8 → Nat → Prop}

/-- `charstr_valid_utf8` accepts exactly the texts for `Loose`. -/
theorem charstr_valid_text (s t : List UInt8) (hs : (0 : UInt8) ∉ s) : valid (s ++ 0 :: t) = .ok true ↔ ∃ cps, Seq Loose s cps := by
  obtain ⟨b, e, h⟩ := utf8_valid_exact_partial s t hs
  rw [e, ← h]
  simp

/-- Cutting out an ASCII byte. -/
theorem seq_at (hA : Enc A) {d : UInt8} (hd : d.toNat < 128) {a b : List UInt8} {cps : List Nat} (h : Seq A (a ++ d :: b) cps) :
    ∃ x y, cps = x ++ d.toNat :: y ∧ Seq A a x ∧ Seq A b y := by
  obtain ⟨x, y, rfl, hx, hy⟩ := seq_cut hA h a (d :: b) rfl (by simp [isCont]; omega)
  obtain ⟨z, rfl, hz⟩ := seq_drop hA (d := [d]) (Seq.cons (p := [d]) (ascii_enc hA hd) .nil) hy
  exact ⟨x, z, rfl, hx, hz⟩

/-- C126. `charstr_split` at an ASCII character: the pieces are texts, and their characters, joined by the delimiter, are the characters of the
whole. -/
theorem utf8_split_pieces (hA : Enc A) (d : UInt8) (h0 : d ≠ 0) (hd : d.toNat < 128) (max : Nat) (s t : List UInt8) (hs : 0 ∉ s) {cps : List Nat}
    (h : Seq A s cps) : ∃ ps qs, split d max (s ++ 0 :: t) = .ok (ps.map (· ++ [0])) ∧ List.Forall₂ (Seq A) ps qs ∧
      List.intercalate [d.toNat] qs = cps := by
  obtain ⟨ps, e, hp⟩ := split_correct d h0 max s t hs
  refine ⟨ps, ?_⟩
  simp only [e, true_and]
  have hne : ps ≠ [] := by intro hc; have := hp.count; rw [hc] at this; simp at this
  have key : ∀ (ps : List (List UInt8)) (cps : List Nat), ps ≠ [] → Seq A (List.intercalate [d] ps) cps →
      ∃ qs, List.Forall₂ (Seq A) ps qs ∧ List.intercalate [d.toNat] qs = cps := by
    intro ps
    induction ps with
    | nil => intro _ h; exact absurd rfl h
    | cons p ps ih =>
      intro cps _ h
      cases ps with
      | nil => exact ⟨[cps], .cons (by simpa using h) .nil, by simp⟩
      | cons q ps =>
        have e : List.intercalate [d] (p :: q :: ps) = p ++ d :: List.intercalate [d] (q :: ps) := by simp [List.intercalate]
        rw [e] at h
        obtain ⟨x, y, rfl, hx, hy⟩ := seq_at hA hd h
        obtain ⟨qs, h1, h2⟩ := ih y (by simp) hy
        refine ⟨x :: qs, .cons hx h1, ?_⟩
        cases qs with
        | nil => cases h1
        | cons z qs => rw [← h2]; simp [List.intercalate]
  exact key ps cps hne (by rw [hp.join]; exact h)

/-- C126. `charstr_split_str` at a text: the same. -/
theorem utf8_split_str_pieces (hA : Enc A) (d u s t : List UInt8) (hd : 0 ∉ d) (hs : 0 ∉ s) (max : Nat) {dcps cps : List Nat} (h1 : Seq A d dcps)
    (h : Seq A s cps) : ∃ ps qs, splitStr (s ++ 0 :: t) (d ++ 0 :: u) max = .ok (ps.map (· ++ [0])) ∧ List.Forall₂ (Seq A) ps qs ∧
      List.intercalate dcps qs = cps := by
  obtain ⟨ps, e, hp, -⟩ := split_str_correct d u s t hd hs max
  refine ⟨ps, ?_⟩
  simp only [e, true_and]
  clear e hs
  induction hp generalizing cps with
  | limit s => exact ⟨[cps], .cons h .nil, by simp⟩
  | none max s _ => exact ⟨[cps], .cons h .nil, by simp⟩
  | cut max a b ps hl _ ih =>
    rw [List.append_assoc] at h
    obtain ⟨x, y, rfl, hx, hy⟩ : ∃ x y, cps = x ++ y ∧ Seq A a x ∧ Seq A (d ++ b) y := by
      by_cases hd0 : d = []
      · have := hl [] (a ++ b) (by simp [hd0])
        have : a = [] := List.length_eq_zero_iff.1 (by simpa using this)
        subst this
        exact ⟨[], cps, rfl, .nil, h⟩
      · refine seq_cut hA h a (d ++ b) rfl ?_
        intro c hc
        apply seq_head hA h1 c
        cases d with
        | nil => exact absurd rfl hd0
        | cons y d => simpa using hc
    obtain ⟨z, rfl, hz⟩ := seq_drop hA h1 hy
    obtain ⟨qs, h3, h4⟩ := ih hz
    refine ⟨x :: qs, .cons hx h3, ?_⟩
    cases qs with
    | nil =>
      cases h3
      simp at h4
      rename_i hh
      cases hh
    | cons w qs => rw [← h4]; simp [List.intercalate]

theorem ws_ascii (c : UInt8) (h : isWs c = true) : c.toNat < 128 := by
  have : ∀ c : UInt8, ¬ c.toNat < 128 → isWs c = false := by apply u8_all; decide +kernel
  by_contra hc
  rw [this c hc] at h
  exact absurd h (by decide)

/-- Without leading and trailing ASCII bytes. -/
theorem seq_trim (hA : Enc A) {a r b : List UInt8} {cps : List Nat} (ha : ∀ c ∈ a, c.toNat < 128) (hb : ∀ c ∈ b.head?, c.toNat < 128)
    (h : Seq A (a ++ r ++ b) cps) : ∃ y z, cps = a.map (·.toNat) ++ y ++ z ∧ Seq A r y ∧ Seq A b z := by
  rw [List.append_assoc] at h
  obtain ⟨x, rfl, hx⟩ := seq_drop hA (ascii_seq hA ha) h
  obtain ⟨y, z, rfl, hy, hz⟩ := seq_cut hA hx r b rfl (fun c hc => by have := hb c hc; unfold isCont; omega)
  exact ⟨y, z, by simp, hy, hz⟩

/-- C126. `charstr_strip` of a text is a text: the white space taken away at both ends is whole characters. -/
theorem utf8_strip_text (hA : Enc A) (s t : List UInt8) (hs : 0 ∉ s) {cps : List Nat} (h : Seq A s cps) :
    ∃ r x y z, strip (some (s ++ 0 :: t)) = .ok (some (r ++ [0])) ∧ cps = x ++ y ++ z ∧ Seq A r y ∧ ∀ c ∈ x ++ z, c < 128 := by
  obtain ⟨r, e, a, b, rfl, ha, hb, _⟩ := (strip_spec s t hs).1
  have hb' : ∀ c ∈ b, c.toNat < 128 := fun c hc => ws_ascii c (hb c hc)
  obtain ⟨y, z, rfl, hy, hz⟩ := seq_trim hA (fun c hc => ws_ascii c (ha c hc)) (fun c hc => hb' c (List.mem_of_mem_head? hc)) h
  refine ⟨r, _, y, z, e, rfl, hy, ?_⟩
  have : z = b.map (·.toNat) := by
    obtain ⟨w, e1, e2⟩ := seq_drop hA (ascii_seq hA hb') (b := []) (by simpa using hz)
    generalize hn : ([] : List UInt8) = n at e2
    cases e2 with
    | nil => simpa using e1
    | cons hp _ => exact absurd (List.append_eq_nil_iff.1 hn.symm).1 (loose_ne_nil (hA.loose hp))
  intro c hc
  rw [this, List.mem_append, List.mem_map, List.mem_map] at hc
  rcases hc with ⟨x, hx, rfl⟩ | ⟨x, hx, rfl⟩
  · exact ws_ascii x (ha x hx)
  · exact hb' x hx

/-- C126. The atoms of a text are texts. -/
theorem utf8_split_atoms_pieces (hA : Enc A) (s t : List UInt8) (hs : 0 ∉ s) {cps : List Nat} (h : Seq A s cps) :
    ∃ as : List (List UInt8), splitAtoms (s ++ 0 :: t) = .ok (as.map (· ++ [0])) ∧ ∀ a ∈ as, ∃ cs, Seq A a cs ∧ cs <:+: cps := by
  obtain ⟨as, e, ha⟩ := split_atoms_correct s t hs
  refine ⟨as, e, ?_⟩
  clear e hs
  induction ha generalizing cps with
  | done => simp
  | atom w a r as hw h0 _ hr _ ih =>
    obtain ⟨y, z, rfl, hy, hz⟩ := seq_trim hA (fun c hc => ws_ascii c (hw c hc)) (fun c hc => ws_ascii c (hr c hc)) h
    intro b hb
    rcases List.mem_cons.1 hb with rfl | hb
    · exact ⟨y, hy, _, z, rfl⟩
    · obtain ⟨cs, h1, h2⟩ := ih hz b hb
      exact ⟨cs, h1, h2.trans (List.suffix_append _ _).isInfix⟩

/-- C126. Case conversion of a text yields a text. In UTF-8 proper it maps the ASCII letters and leaves all other characters. -/
theorem utf8_case_text (s t : List UInt8) (hs : 0 ∉ s) :
    (∀ A, Enc A → (∃ cps, Seq A s cps) → ∃ l u, lcaseStr (s ++ 0 :: t) = .ok (l ++ 0 :: t) ∧ ucaseStr (s ++ 0 :: t) = .ok (u ++ 0 :: t) ∧
      (∃ cps, Seq A l cps) ∧ ∃ cps, Seq A u cps) ∧
    ∀ cps, Seq Legal s cps → ∃ l u, lcaseStr (s ++ 0 :: t) = .ok (l ++ 0 :: t) ∧ ucaseStr (s ++ 0 :: t) = .ok (u ++ 0 :: t) ∧
      Seq Legal l (cps.map fun cp => if 65 ≤ cp ∧ cp ≤ 90 then cp + 32 else cp) ∧
      Seq Legal u (cps.map fun cp => if 97 ≤ cp ∧ cp ≤ 122 then cp - 32 else cp) := by
  obtain ⟨e1, e2⟩ := case_str s t hs
  constructor
  · rintro A hA ⟨cps, h⟩
    refine ⟨_, _, e1, e2, seq_map hA lower ?_ ?_ h, seq_map hA upper ?_ ?_ h⟩
    · intro c hc; have := lower_toNat c; rw [this.1]; exact (this.2.2.1 hc).1
    · intro c hc; exact ((lower_toNat c).2.2.2 hc).1
    · intro c hc; have := lower_toNat c; rw [this.2.1]; exact (this.2.2.1 hc).2
    · intro c hc; exact ((lower_toNat c).2.2.2 hc).2
  · intro cps h
    refine ⟨_, _, e1, e2, legal_map lower lowerCp ?_ ?_ ?_ h, legal_map upper upperCp ?_ ?_ ?_ h⟩
    · intro c hc; have := lower_toNat c; exact ⟨by rw [this.1]; exact (this.2.2.1 hc).1, this.1⟩
    · intro c hc; exact ((lower_toNat c).2.2.2 hc).1
    · intro n hn; unfold lowerCp; rw [if_neg (by omega)]
    · intro c hc; have := lower_toNat c; exact ⟨by rw [this.2.1]; exact (this.2.2.1 hc).2, this.2.1⟩
    · intro c hc; exact ((lower_toNat c).2.2.2 hc).2
    · intro n hn; unfold upperCp; rw [if_neg (by omega)]

/-- C126. What `charstr_skip_prefix` leaves of a text when the prefix is a text is a text, and the prefix was a prefix of the characters. -/
theorem utf8_skip_prefix_text (hA : Enc A) (s p t u : List UInt8) (hs : 0 ∉ s) (hp : 0 ∉ p) {cps pcps : List Nat} (h : Seq A s cps)
    (h' : Seq A p pcps) {r : List UInt8} (hr : skipPrefix (s ++ 0 :: t) (p ++ 0 :: u) = .ok (some r)) :
    ∃ o rcps, r = o ++ 0 :: t ∧ Seq A o rcps ∧ cps = pcps ++ rcps := by
  rw [skip_prefix_iff s p t u hs hp] at hr
  split at hr
  · rename_i hpre
    obtain ⟨b, rfl⟩ := hpre
    obtain ⟨y, rfl, hy⟩ := seq_drop hA h' h
    injection hr with hr
    injection hr with hr
    exact ⟨b, y, by rw [← hr]; simp, hy, rfl⟩
  · injection hr with hr
    cases hr

/-- Comparison of character sequences by number, a shorter prefix first. -/
def cpCmp : List Nat → List Nat → Int
  | [], [] => 0
  | [], _ :: _ => -1
  | _ :: _, [] => 1
  | a :: as, b :: bs => if a < b then -1 else if b < a then 1 else cpCmp as bs

/-- Bytes compare like characters. -/
theorem lexCmp_legal {a b : List UInt8} {x y : List Nat} (ha : Seq Legal a x) (hb : Seq Legal b y) : lexCmp a b = cpCmp x y := by
  induction ha generalizing b y with
  | nil =>
    cases hb with
    | nil => rfl
    | cons hp _ =>
      obtain ⟨c, q, rfl, _⟩ := loose_shape (legal_loose hp)
      rfl
  | @cons p cp r x hp hr ih =>
    cases hb with
    | nil =>
      obtain ⟨c, q, rfl, _⟩ := loose_shape (legal_loose hp)
      rfl
    | @cons q cq s y hq hs =>
      obtain ⟨v1, rfl⟩ := hp
      obtain ⟨v2, rfl⟩ := hq
      simp only [cpCmp]
      rcases Nat.lt_trichotomy cp cq with hlt | rfl | hlt
      · rw [if_pos hlt, enc_lt v2 hlt]
      · rw [if_neg (by omega), if_neg (by omega), lexCmp_append, ih hs]
      · rw [if_neg (by omega), if_pos hlt, lexCmp_swap, enc_lt v1 hlt]; rfl

/-- C126. On UTF-8 texts `charstr_case_cmp` compares character by character, by the number of the character in lower case. -/
theorem utf8_case_cmp_order (a b t u : List UInt8) (ha : 0 ∉ a) (hb : 0 ∉ b) {x y : List Nat} (h : Seq Legal a x) (h' : Seq Legal b y) :
    caseCmp (a ++ 0 :: t) (b ++ 0 :: u) = .ok (cpCmp (x.map fun cp => if 65 ≤ cp ∧ cp ≤ 90 then cp + 32 else cp)
      (y.map fun cp => if 65 ≤ cp ∧ cp ≤ 90 then cp + 32 else cp)) := by
  obtain ⟨l, _, e1, _, l1, _⟩ := (utf8_case_text a t ha).2 x h
  obtain ⟨k, _, e2, _, l2, _⟩ := (utf8_case_text b u hb).2 y h'
  rw [(case_str a t ha).1] at e1
  rw [(case_str b u hb).1] at e2
  injection e1 with e1
  injection e2 with e2
  obtain rfl := List.append_cancel_right e1
  obtain rfl := List.append_cancel_right e2
  rw [case_cmp_lexicographic a b t u ha hb, lexCmp_legal l1 l2]

/-- C126 needs an ASCII delimiter: splitting "é" at the byte 0xA9 leaves a piece that is no text. -/
theorem utf8_split_condition : split 0xA9 1 [0xC3, 0xA9, 0] = .ok [[0xC3, 0], [0]] ∧ valid [0xC3, 0xA9, 0] = .ok true ∧ valid [0xC3, 0] = .ok false := by
  refine ⟨by decide +kernel, ?_, ?_⟩
  · exact (charstr_valid_text [0xC3, 0xA9] [] (by decide)).2 ⟨[0xE9], Seq.cons (p := [0xC3, 0xA9]) ⟨by decide, 2, by omega, by omega, by decide, by decide⟩ .nil⟩
  · obtain ⟨b, e, h⟩ := utf8_valid_exact_partial [0xC3] [] (by decide)
    have e' : valid [0xC3, 0] = .ok b := e
    rw [e']
    cases b with
    | false => rfl
    | true =>
      obtain ⟨cps, hc⟩ := h.1 rfl
      exfalso
      generalize hs : [(0xC3 : UInt8)] = s at hc
      cases hc with
      | nil => cases hs
      | cons hp hr =>
        obtain ⟨c, q, rfl, _, _, _, h5⟩ := loose_shape hp
        injection hs with h1 h2
        subst h1
        have := h5 (by decide)
        cases q with
        | nil => exact this rfl
        | cons y q => cases h2

/-- "é,ß" split at the comma, the case of "Éa" and the order of "é" and "𝄞". -/
example : Seq Legal [0xC3, 0xA9, 44, 0xC3, 0x9F] [0xE9, 44, 0xDF] ∧ split 44 5 [0xC3, 0xA9, 44, 0xC3, 0x9F, 0] = .ok [[0xC3, 0xA9, 0], [0xC3, 0x9F, 0]] ∧
    ucaseStr [0xC3, 0x89, 97, 0] = .ok [0xC3, 0x89, 65, 0] ∧ caseCmp [0xC3, 0xA9, 0] [0xF0, 0x9D, 0x84, 0x9E, 0] = .ok (-1) := by
  refine ⟨?_, by decide +kernel, by decide +kernel, by decide +kernel⟩
  exact Seq.cons (p := [0xC3, 0xA9]) ⟨by decide, by decide⟩ (Seq.cons (p := [44]) ⟨by decide, by decide⟩
    (Seq.cons (p := [0xC3, 0x9F]) ⟨by decide, by decide⟩ .nil))

end Verif.Utf8
