import Verif.Proofs.PunyHost
import Verif.Proofs.PunyUnique
import Verif.Props.Unicode

/-! Encoding a host name. -/

namespace Verif.Puny
open Verif.Spec Verif.Utf8 Verif.Charstr Verif.Unicode Verif.Unidata
open Verif.Spec.Utf8 (IsScalar enc width form Loose Legal Seq)
open Verif.Spec.Unicode (encs Scan Input)

set_option autoImplicit false

/-! ### Labels -/

theorem refused_iff (id : Idna) (l : List Nat) : Refused id l ↔ ¬ Punycode.Acceptable id.mc l := by
  have hg : Good id true l ↔ (∀ c ∈ l, c < 128 → c = 0x2D ∨ 48 ≤ c ∧ c ≤ 57 ∨ 65 ≤ c ∧ c ≤ 90 ∨ 97 ≤ c ∧ c ≤ 122) ∧
      ∀ c, l.head? = some c → 128 ≤ c → id.mc c = false := by
    simp only [Good, Alnum, true_imp_iff]
    refine and_congr_right fun _ => ⟨fun h c hc => ?_, fun h c l' hl => h c (by rw [hl]; rfl)⟩
    obtain ⟨l', hl'⟩ : ∃ l', l = c :: l' := by
      cases l with
      | nil => cases hc
      | cons a l => simp only [List.head?_cons, Option.some.injEq] at hc; exact ⟨l, by rw [hc]⟩
    exact h c l' hl'
  rw [Refused, Punycode.Acceptable, hg]
  tauto

theorem intercalate_cons {e : List UInt8} {es : List (List UInt8)} (h : es ≠ []) :
    [0x2E].intercalate (e :: es) = e ++ [0x2E] ++ [(0x2E : UInt8)].intercalate es := by
  obtain ⟨a, es, rfl⟩ := List.exists_cons_of_ne_nil h
  simp [List.intercalate, List.intersperse]

theorem intercalate_one (e : List UInt8) : [0x2E].intercalate [e] = e := by simp [List.intercalate, List.intersperse]

theorem intercalate_dot : ∀ {es : List (List UInt8)}, es ≠ [] → [0x2E].intercalate (es ++ [[]]) = [0x2E].intercalate es ++ [(0x2E : UInt8)]
  | [e], _ => by rw [List.singleton_append, intercalate_cons (by simp), intercalate_one, intercalate_one]; simp
  | e :: e' :: es, _ => by
    rw [List.cons_append, intercalate_cons (by simp), intercalate_cons (by simp), intercalate_dot (es := e' :: es) (by simp)]
    simp

/-- When the labels are encoded. -/
theorem outcome_some (id : Idna) (hyphen dot : Prop) {ls : List (List Nat)} {es : List (List UInt8)} (h : List.Forall₂ Punycode.ToAscii ls es)
    (hne : ls ≠ []) (w out : List UInt8) : outcome id hyphen dot ls es w = .ok (some out) ↔
      ¬ hyphen ∧ (∀ l ∈ ls, Punycode.Acceptable id.mc l) ∧ (∀ e ∈ es, e.length ≤ 63) ∧ w.length + ([0x2E].intercalate es).length + 1 ≤ 253 ∧
        ∃ d, (dot → d = [0x2E]) ∧ (¬ dot → d = []) ∧ out = w ++ [0x2E].intercalate es ++ d ++ [0] := by
  induction h generalizing w with
  | nil => exact absurd rfl hne
  | @cons l e ls es h1 h2 ih =>
    rw [outcome]
    by_cases c1 : hyphen ∨ Refused id l
    · rw [if_pos c1]
      refine ⟨fun h => by (cases h), fun h => absurd c1 ?_⟩
      rintro (hc | hc)
      · exact h.1 hc
      · exact (refused_iff id l).1 hc (h.2.1 l (by simp))
    rw [if_neg c1]
    simp only [not_or, refused_iff, not_not] at c1
    by_cases c2 : e.length > 63
    · rw [if_pos c2]
      refine ⟨fun h => by (split_ifs at h <;> cases h), fun h => ?_⟩
      have := h.2.2.1 e (by simp)
      omega
    rw [if_neg c2]
    by_cases hls : ls = []
    · subst hls
      cases h2
      simp only [intercalate_one, List.forall_mem_singleton, if_true]
      by_cases c3 : w.length + e.length + 1 > 253
      · rw [if_pos c3]
        exact ⟨fun h => by (cases h), fun h => by omega⟩
      rw [if_neg c3, Except.ok.injEq, Option.some.injEq]
      constructor
      · intro h
        refine ⟨c1.1, c1.2, by omega, by omega, _, ?_, ?_, h.symm⟩
        · intro hd; rw [if_pos hd]
        · intro hd; rw [if_neg hd]
      · rintro ⟨_, _, _, _, d, hd1, hd2, rfl⟩
        by_cases hd : dot
        · rw [if_pos hd, hd1 hd]
        · rw [if_neg hd, hd2 hd]
    · have hes : es ≠ [] := by
        rintro rfl; cases h2; exact hls rfl
      rw [if_neg hls, intercalate_cons hes]
      have hl : (w ++ e ++ [0x2E]).length + ([0x2E].intercalate es).length + 1 =
        w.length + (e ++ [0x2E] ++ [(0x2E : UInt8)].intercalate es).length + 1 := by simp; omega
      by_cases c3 : w.length + e.length + 1 > 253
      · rw [if_pos c3]
        refine ⟨fun h => by (cases h), fun h => ?_⟩
        have := h.2.2.2.1
        simp only [List.length_append, List.length_singleton] at this
        omega
      rw [if_neg c3, ih hls, hl]
      simp only [List.forall_mem_cons, c1, not_false_eq_true, true_and, show e.length ≤ 63 by omega, List.append_assoc]

/-- No label makes the behaviour undefined, and only a long label in ASCII makes the program abort. -/
theorem outcome_error (id : Idna) (hyphen dot : Prop) {ls : List (List Nat)} {es : List (List UInt8)} (h : List.Forall₂ Punycode.ToAscii ls es)
    (w : List UInt8) {err : Err} (he : outcome id hyphen dot ls es w = .error err) :
    err = .abort ∧ ∃ l ∈ ls, (∀ c ∈ l, c < 128) ∧ 63 < l.length := by
  induction h generalizing w with
  | nil => simp [outcome] at he
  | @cons l e ls es h1 h2 ih =>
    rw [outcome] at he
    split at he
    · cases he
    split at he
    · rename_i h63
      split at he
      · cases he
      · rename_i hna
        simp only [Except.error.injEq] at he
        push Not at hna
        refine ⟨he.symm, l, by simp, hna, ?_⟩
        rcases h1 with ⟨_, rfl⟩ | ⟨⟨c, hc, hc'⟩, _⟩
        · simpa using h63
        · have := hna c hc; omega
    split at he
    · cases he
    split at he
    · cases he
    · obtain ⟨g1, l', g2, g3⟩ := ih _ he
      exact ⟨g1, l', by simp [g2], g3⟩

/-- When the program aborts. -/
theorem outcome_abort (id : Idna) (hyphen dot : Prop) {ls : List (List Nat)} {es : List (List UInt8)} (h : List.Forall₂ Punycode.ToAscii ls es)
    {w : List UInt8} (hw : w.length ≤ 253) : outcome id hyphen dot ls es w = .error .abort ↔
      ¬ hyphen ∧ ∃ before l after es1, ls = before ++ l :: after ∧ (∀ a ∈ before, Punycode.Acceptable id.mc a) ∧
        List.Forall₂ Punycode.ToAscii before es1 ∧ (∀ e ∈ es1, e.length ≤ 63) ∧ w.length + (es1.map fun e => e.length + 1).sum ≤ 253 ∧
        Punycode.Acceptable id.mc l ∧ (∀ c ∈ l, c < 128) ∧ 63 < l.length := by
  induction h generalizing w with
  | nil => simp [outcome]
  | @cons l e ls es h1 h2 ih =>
    have hlen : (∀ c ∈ l, c < 128) → e.length = l.length := by
      intro hl
      rcases h1 with ⟨_, rfl⟩ | ⟨⟨c, hc, hc'⟩, _⟩
      · simp
      · have := hl c hc; omega
    -- the first label is the long one, or it is in order
    have split : (¬ hyphen ∧ ∃ before l' after es1, l :: ls = before ++ l' :: after ∧ (∀ a ∈ before, Punycode.Acceptable id.mc a) ∧
        List.Forall₂ Punycode.ToAscii before es1 ∧ (∀ e ∈ es1, e.length ≤ 63) ∧ w.length + (es1.map fun e => e.length + 1).sum ≤ 253 ∧
        Punycode.Acceptable id.mc l' ∧ (∀ c ∈ l', c < 128) ∧ 63 < l'.length) ↔
        (¬ hyphen ∧ Punycode.Acceptable id.mc l) ∧ ((∀ c ∈ l, c < 128) ∧ 63 < l.length ∨ e.length ≤ 63 ∧ w.length + e.length + 1 ≤ 253 ∧
          ¬ hyphen ∧ ∃ before l' after es1, ls = before ++ l' :: after ∧ (∀ a ∈ before, Punycode.Acceptable id.mc a) ∧
        List.Forall₂ Punycode.ToAscii before es1 ∧ (∀ e ∈ es1, e.length ≤ 63) ∧ (w ++ e ++ [0x2E]).length + (es1.map fun e => e.length + 1).sum ≤ 253 ∧
        Punycode.Acceptable id.mc l' ∧ (∀ c ∈ l', c < 128) ∧ 63 < l'.length) := by
      have hwl : (w ++ e ++ [0x2E]).length = w.length + e.length + 1 := by simp; omega
      rw [hwl]
      constructor
      · rintro ⟨g1, before, l', after, es1, g2, g3, g4, g5, g6, g7, g8, g9⟩
        cases before with
        | nil =>
          simp only [List.nil_append, List.cons.injEq] at g2
          obtain ⟨rfl, rfl⟩ := g2
          exact ⟨⟨g1, g7⟩, .inl ⟨g8, g9⟩⟩
        | cons a before =>
          simp only [List.cons_append, List.cons.injEq] at g2
          obtain ⟨rfl, rfl⟩ := g2
          cases g4 with
          | @cons _ e' _ es1 k1 k2 =>
            rw [toAscii_unique k1 h1] at *
            simp only [List.map_cons, List.sum_cons] at g6
            refine ⟨⟨g1, g3 l (by simp)⟩, .inr ⟨g5 e (by simp), by omega, g1, before, l', after, es1, rfl, fun a ha => g3 a (by simp [ha]), k2,
              fun e he => g5 e (by simp [he]), by omega, g7, g8, g9⟩⟩
      · rintro ⟨⟨g1, g2⟩, ⟨g3, g4⟩ | ⟨g3, g4, _, before, l', after, es1, rfl, k3, k4, k5, k6, k7⟩⟩
        · exact ⟨g1, [], l, ls, [], rfl, by simp, .nil, by simp, by simp; omega, g2, g3, g4⟩
        · refine ⟨g1, l :: before, l', after, e :: es1, rfl, ?_, .cons h1 k4, ?_, ?_, k7⟩
          · intro a ha
            rcases List.mem_cons.1 ha with rfl | ha
            · exact g2
            · exact k3 a ha
          · intro a ha
            rcases List.mem_cons.1 ha with rfl | ha
            · exact g3
            · exact k5 a ha
          · simp only [List.map_cons, List.sum_cons]; omega
    rw [split, outcome]
    by_cases c1 : hyphen ∨ Refused id l
    · rw [if_pos c1]
      refine ⟨fun h => by (cases h), fun h => absurd c1 ?_⟩
      rintro (hc | hc)
      · exact h.1.1 hc
      · exact (refused_iff id l).1 hc h.1.2
    rw [if_neg c1]
    simp only [not_or, refused_iff, not_not] at c1
    simp only [c1, not_false_eq_true, true_and]
    by_cases c2 : e.length > 63
    · rw [if_pos c2]
      by_cases hna : ∃ c ∈ l, 128 ≤ c
      · rw [if_pos hna]
        refine ⟨fun h => by (cases h), ?_⟩
        rintro (⟨h, _⟩ | ⟨h, _⟩)
        · obtain ⟨c, hc, hc'⟩ := hna
          have := h c hc
          omega
        · omega
      · rw [if_neg hna]
        push Not at hna
        have := hlen hna
        exact ⟨fun _ => .inl ⟨hna, by omega⟩, fun _ => rfl⟩
    rw [if_neg c2]
    have hnl : ¬ ((∀ c ∈ l, c < 128) ∧ 63 < l.length) := by
      rintro ⟨h, h'⟩
      have := hlen h
      omega
    simp only [hnl, false_or, show e.length ≤ 63 by omega, true_and]
    by_cases c3 : w.length + e.length + 1 > 253
    · rw [if_pos c3]
      exact ⟨fun h => by (cases h), fun h => by omega⟩
    rw [if_neg c3]
    simp only [show w.length + e.length + 1 ≤ 253 by omega, true_and]
    by_cases hls : ls = []
    · subst hls
      rw [if_pos rfl]
      refine ⟨fun h => by (cases h), ?_⟩
      rintro ⟨before, l', after, es1, g, _⟩
      cases before <;> cases g
    · have hih := ih (w := w ++ e ++ [0x2E]) (by simp; omega)
      simp only [c1, not_false_eq_true, true_and] at hih
      rw [if_neg hls]
      exact hih

theorem splitOn_parts (x : List Nat) : x.splitOn 0x2E = parts x ++ if x.getLast? = some 0x2E then [[]] else [] := by
  induction hn : x.length using Nat.strong_induction_on generalizing x with
  | _ n ih =>
    subst hn
    have hx := lab_rest x
    rcases rest_cases x with h | ⟨y, h⟩
    · obtain ⟨h1, h2⟩ := parts_last h
      rw [h, List.append_nil] at hx
      rw [h1, if_neg h2, List.append_nil]
      conv_lhs => rw [hx]
      exact splitOn_nodot (lab_nodot x)
    · rw [h] at hx
      have hs : x.splitOn 0x2E = lab x :: y.splitOn 0x2E := by
        conv_lhs => rw [hx]
        exact splitOn_dot (lab_nodot x) y
      by_cases hy : y = []
      · subst hy
        obtain ⟨h1, h2⟩ := parts_dot h
        rw [hs, h1, if_pos h2, splitOn_nodot (by simp)]
        rfl
      · obtain ⟨h1, h2⟩ := parts_more h hy
        rw [hs, h1, h2, ih y.length (by conv_rhs => rw [hx]
                                        simp; omega) y rfl]
        rfl

theorem toAscii_nil : Punycode.ToAscii [] [] := .inl ⟨by simp, rfl⟩

/-- The encoding of a text of at most 254 bytes. -/
theorem encodeFiltered_spec (id : Idna) (fresh : Nat → List UInt8) (hf : (fresh 255).length = 255) (r : List UInt8) (x : List Nat)
    (hx : ∀ c ∈ x, IsScalar c) (hne : x ≠ []) (hlen : (encs x).length ≤ 254) :
    ∃ res, encodeFiltered id fresh (at' x r) = liftC res ∧ (∀ out, res = .ok (some out) ↔ ∃ o, Punycode.HostAscii id.mc x o ∧ out = o ++ [0]) ∧
      (res = .error .abort ↔ Punycode.LongAscii id.mc x) ∧ res ≠ .error .ub := by
  obtain ⟨es, h1, _, h3⟩ := filtered_spec id r x hx hne hlen
  have h4 := h3 [] (fresh 255) (by simpa using hf) (by simp) (by simp)
  refine ⟨outcome id (x.getLast? = some 0x2D) (x.getLast? = some 0x2E) (parts x) es [], ?_, fun out => ?_, ?_, fun he => ?_⟩
  · simp only [encodeFiltered, at']
    rw [if_neg (by omega)]
    exact h4
  · rw [outcome_some id _ _ h1 (parts_ne x)]
    have hes : es ≠ [] := by
      intro h; rw [h] at h1; exact parts_ne x (by cases hp : parts x with
        | nil => rfl
        | cons a b => rw [hp] at h1; cases h1)
    have hsp := splitOn_parts x
    constructor
    · rintro ⟨g1, g2, g3, g4, d, g5, g6, rfl⟩
      refine ⟨[0x2E].intercalate es ++ d, ⟨g1, ?_, es ++ (if x.getLast? = some 0x2E then [[]] else []), ?_, ?_, ?_, ?_⟩, by simp⟩
      · rw [hsp]
        intro l hl
        rw [List.mem_append] at hl
        rcases hl with hl | hl
        · exact g2 l hl
        · split at hl
          · rw [List.mem_singleton.1 hl]; simp [Punycode.Acceptable]
          · cases hl
      · rw [hsp]
        refine List.rel_append h1 ?_
        split
        · exact .cons toAscii_nil .nil
        · exact .nil
      · intro e he
        rw [List.mem_append] at he
        rcases he with he | he
        · exact g3 e he
        · split at he
          · rw [List.mem_singleton.1 he]; simp
          · cases he
      · split
        · rename_i hd; rw [intercalate_dot hes, g5 hd]
        · rename_i hd; rw [g6 hd]; simp
      · simp only [List.length_nil, Nat.zero_add] at g4
        split
        · rename_i hd; rw [g5 hd]; simp; omega
        · rename_i hd; rw [g6 hd]; simp; omega
    · rintro ⟨o, ⟨g1, g2, es', g3, g4, rfl, g5⟩, rfl⟩
      have huniq : es' = es ++ (if x.getLast? = some 0x2E then [[]] else []) := by
        refine toAscii_unique_all g3 ?_
        rw [hsp]
        refine List.rel_append h1 ?_
        split
        · exact .cons toAscii_nil .nil
        · exact .nil
      refine ⟨g1, fun l hl => g2 l (by rw [hsp]; simp [hl]), fun e he => g4 e (by rw [huniq]; simp [he]), ?_, ?_⟩
      · simp only [List.length_nil, Nat.zero_add]
        rw [huniq] at g5
        split at g5
        · rw [intercalate_dot hes] at g5; simp at g5; omega
        · rw [List.append_nil] at g5; omega
      · rw [huniq]
        by_cases hd : x.getLast? = some 0x2E
        · refine ⟨[0x2E], fun _ => rfl, fun h => absurd hd h, ?_⟩
          rw [if_pos hd, intercalate_dot hes]; simp
        · refine ⟨[], fun h => absurd h hd, fun _ => rfl, ?_⟩
          rw [if_neg hd]; simp
  · rw [outcome_abort id _ _ h1 (by simp), Punycode.LongAscii]
    refine and_congr_right fun _ => ?_
    have hsp := splitOn_parts x
    constructor
    · rintro ⟨before, l, after, es1, g1, g2⟩
      rw [g1, List.append_assoc, List.cons_append] at hsp
      exact ⟨before, l, _, es1, hsp, by simpa using g2⟩
    · rintro ⟨before, l, after, es1, g1, g2⟩
      -- the long label is not the empty one at the end
      obtain ⟨after', ha⟩ : ∃ after', parts x = before ++ l :: after' := by
        rw [hsp] at g1
        split at g1
        · rcases List.eq_nil_or_concat after with rfl | ⟨after', a, rfl⟩
          · have := (List.append_inj_right' g1 rfl)
            simp only [List.cons.injEq, and_true] at this
            subst this
            simp at g2
          · rw [List.concat_eq_append, ← List.cons_append, ← List.append_assoc] at g1
            exact ⟨after', List.append_inj_left' g1 rfl⟩
        · exact ⟨after, by simpa using g1⟩
      exact ⟨before, l, after', es1, ha, by simpa using g2⟩
  · have := outcome_error id _ _ h1 _ he
    exact absurd this.1 (by simp)

/-! ### The mapping -/

/-- The generated functions represent the mapping `f`. -/
structure Represents (id : Idna) (f : Nat → Option (List Nat)) : Prop where
  keep : ∀ c, IsScalar c → (id.valid c || id.deviation c) = true → f c = some [c]
  ignore : ∀ c, IsScalar c → (id.valid c || id.deviation c) = false → id.ignored c = true → f c = some []
  map : ∀ c, IsScalar c → (id.valid c || id.deviation c) = false → id.ignored c = false → id.mapped c = true →
    ∃ m, f c = some m ∧ (∀ d ∈ m, IsScalar d) ∧ id.mapping c = some (encs m)
  bad : ∀ c, IsScalar c → (id.valid c || id.deviation c) = false → id.ignored c = false → id.mapped c = false → f c = none

theorem mapText_scalar {id : Idna} {f : Nat → Option (List Nat)} (hf : Represents id f) {x y : List Nat} (hx : ∀ c ∈ x, IsScalar c)
    (h : Punycode.mapText f x = some y) : ∀ c ∈ y, IsScalar c := by
  induction x generalizing y with
  | nil => simp only [Punycode.mapText, Option.some.injEq] at h; subst h; simp
  | cons c x ih =>
    simp only [Punycode.mapText] at h
    cases hm : f c with
    | none => simp [hm] at h
    | some m =>
      cases hr : Punycode.mapText f x with
      | none => simp [hm, hr] at h
      | some r =>
        simp only [hm, hr, Option.some.injEq] at h
        subst h
        have hc := hx c (by simp)
        intro d hd
        rw [List.mem_append] at hd
        rcases hd with hd | hd
        · cases h1 : (id.valid c || id.deviation c) with
          | true => rw [hf.keep c hc h1, Option.some.injEq] at hm; subst hm; simp at hd; subst hd; exact hc
          | false =>
            cases h2 : id.ignored c with
            | true => rw [hf.ignore c hc h1 h2, Option.some.injEq] at hm; subst hm; simp at hd
            | false =>
              cases h3 : id.mapped c with
              | true =>
                obtain ⟨m', g1, g2, _⟩ := hf.map c hc h1 h2 h3
                rw [g1, Option.some.injEq] at hm; subst hm; exact g2 d hd
              | false => rw [hf.bad c hc h1 h2 h3] at hm; cases hm
        · exact ih (fun c hc => hx c (List.mem_cons_of_mem _ hc)) hr d hd

/-- Decoding at the start of a text with a given length. -/
theorem decode_lim {t : List UInt8} (ht : t ≠ []) (r : List UInt8) :
    (decode (t ++ r, some t.length) = .ok none ∧ ∀ pre cp r, Loose pre cp → t ≠ pre ++ r) ∨
      ∃ pre t' cp, decode (t ++ r, some t.length) = .ok (some (cp, (t' ++ r, some t'.length))) ∧ Loose pre cp ∧ t = pre ++ t' := by
  by_cases hex : ∃ pre cp t', Loose pre cp ∧ t = pre ++ t'
  · right
    obtain ⟨pre, cp, t', hl, rfl⟩ := hex
    refine ⟨pre, t', cp, ?_, hl, rfl⟩
    refine decode_some.2 ⟨pre, hl, by rw [List.append_assoc], ?_, ?_⟩
    · intro n hn
      simp only [Option.some.injEq] at hn
      subst hn; simp
    · simp [advN]
  · left
    push Not at hex
    refine ⟨?_, fun pre cp r' hl he => hex pre cp r' hl he⟩
    obtain ⟨x, hx⟩ := decode_safe (s := t ++ r) (lim := some t.length) (by simp [Readable])
    rw [hx]
    cases x with
    | none => rfl
    | some y =>
      obtain ⟨cp, s', lim'⟩ := y
      obtain ⟨pre, hl, he, hr, _⟩ := decode_some.1 hx
      exfalso
      have hle := hr _ rfl
      have : t = pre ++ t.drop pre.length := by
        conv_lhs => rw [← List.take_append_drop pre.length t]
        congr 1
        have := congrArg (List.take pre.length) he
        rwa [List.take_append_of_le_length hle, List.take_left] at this
      exact hex pre cp _ hl this

theorem nfcLoop_end (id : Idna) (s buf : List UInt8) (q : Nat) : nfcLoop id (s, some 0) buf q = .ok (some (q, buf)) := by
  rw [nfcLoop, if_pos rfl]

theorem nfcLoop_bad (id : Idna) {p : Pos} (h0 : p.2 ≠ some 0) (hd : decode p = .ok none) (buf : List UInt8) (q : Nat) :
    nfcLoop id p buf q = .ok none := by
  rw [nfcLoop, if_neg h0]
  split
  · rename_i h; rw [hd] at h; cases h
  · rfl
  · rename_i h; rw [hd] at h; cases h

theorem nfcLoop_char (id : Idna) {p p' : Pos} {c : Nat} (h0 : p.2 ≠ some 0) (hd : decode p = .ok (some (c, p'))) (buf : List UInt8) (q : Nat) :
    nfcLoop id p buf q =
      if id.valid c || id.deviation c then
        match encode c buf q (some 254) with
        | .error e => .error e
        | .ok (none, _) => .ok none
        | .ok (some q, buf) => nfcLoop id p' buf q
      else if id.ignored c then nfcLoop id p' buf q
      else if id.mapped c then
        match id.mapping c with
        | none => .error .ub
        | some src => match safecopy src buf q 254 with
          | .error e => .error e
          | .ok (none, _) => .ok none
          | .ok (some q, buf) => nfcLoop id p' buf q
      else .ok none := by
  conv_lhs => rw [nfcLoop, if_neg h0]
  split
  · rename_i h; rw [hd] at h; cases h
  · rename_i h; rw [hd] at h; cases h
  · rename_i h
    rw [hd] at h
    simp only [Except.ok.injEq, Option.some.injEq, Prod.mk.injEq] at h
    obtain ⟨rfl, rfl⟩ := h
    rfl

theorem nfcLoop_step {id : Idna} {f : Nat → Option (List Nat)} (hf : Represents id f) {p p' : Pos} {c : Nat} (h0 : p.2 ≠ some 0)
    (hd : decode p = .ok (some (c, p'))) (hc : IsScalar c) {buf : List UInt8} (hb : buf.length = 255) {q : Nat} (hq : q ≤ 254) :
    (∀ m, f c = some m → q + (encs m).length ≤ 254 → nfcLoop id p buf q = nfcLoop id p' (splice buf q (encs m)) (q + (encs m).length)) ∧
      ((∀ m, f c = some m → 254 < q + (encs m).length) → nfcLoop id p buf q = .ok none) := by
  rw [nfcLoop_char id h0 hd]
  cases h1 : (id.valid c || id.deviation c) with
  | true =>
    have hm := hf.keep c hc h1
    have he := encode_scalar hc hq (show 254 ≤ buf.length by omega)
    have hl : encs [c] = enc c := by simp [encs]
    rw [if_pos rfl, hm]
    constructor
    · intro m hm' hfit
      cases hm'
      rw [hl] at hfit ⊢
      rw [he.1 hfit]
    · intro h
      have := h _ rfl
      rw [hl] at this
      obtain ⟨b', h2, _⟩ := he.2 this
      rw [h2]
  | false =>
    rw [if_neg (by simp)]
    cases h2 : id.ignored c with
    | true =>
      have hm := hf.ignore c hc h1 h2
      rw [if_pos rfl, hm]
      constructor
      · intro m hm' _
        cases hm'
        simp
      · intro h
        have := h _ rfl
        simp at this; omega
    | false =>
      rw [if_neg (by simp)]
      cases h3 : id.mapped c with
      | true =>
        obtain ⟨m, g1, _, g3⟩ := hf.map c hc h1 h2 h3
        rw [if_pos rfl, g1, g3]
        simp only [safecopy]
        constructor
        · intro m' hm' hfit
          cases hm'
          rw [if_neg (by omega), if_pos (by omega)]
        · intro h
          have := h _ rfl
          rw [if_pos (by omega)]
      | false =>
        rw [if_neg (by simp), hf.bad c hc h1 h2 h3]
        exact ⟨fun _ h => (by cases h), fun _ => rfl⟩

theorem nfcLoop_spec {id : Idna} {f : Nat → Option (List Nat)} (hf : Represents id f) {t : List UInt8} {cps : List Nat} {b : Bool}
    (hs : Scan Loose t cps b) (r : List UInt8) : ∀ {buf : List UInt8} {q : Nat}, buf.length = 255 → q ≤ 254 →
    (∀ y, b = true → Punycode.mapText f cps = some y → q + (encs y).length ≤ 254 →
      nfcLoop id (t ++ r, some t.length) buf q = .ok (some (q + (encs y).length, splice buf q (encs y)))) ∧
    ((∀ y, b = true → Punycode.mapText f cps = some y → 254 < q + (encs y).length) → nfcLoop id (t ++ r, some t.length) buf q = .ok none) := by
  induction hs with
  | nil =>
    intro buf q hb hq
    simp only [Punycode.mapText, List.length_nil, nfcLoop_end]
    constructor
    · intro y _ hy _
      cases hy
      simp
    · intro h
      have := h _ trivial rfl
      simp at this; omega
  | @bad t ht hn =>
    intro buf q hb hq
    have h0 : (t ++ r, some t.length).2 ≠ some 0 := by
      simpa using ht
    refine ⟨fun y h => by (cases h), fun _ => ?_⟩
    rcases decode_lim ht r with ⟨h1, _⟩ | ⟨pre, t', cp, _, h2, h3⟩
    · exact nfcLoop_bad id h0 h1 buf q
    · exact absurd h3 (hn pre cp t' h2)
  | @cons p c t cps b hl hs ih =>
    intro buf q hb hq
    have hpl : 0 < p.length := (loose_len hl).1
    have h0 : (p ++ t ++ r, some (p ++ t).length).2 ≠ some 0 := by
      simp; intro h; rw [h] at hpl; simp at hpl
    have hd : decode (p ++ t ++ r, some (p ++ t).length) = .ok (some (c, (t ++ r, some t.length))) := by
      refine decode_some.2 ⟨p, hl, by rw [List.append_assoc], ?_, ?_⟩
      · intro n hn
        simp only [Option.some.injEq] at hn
        subst hn; simp
      · simp [advN]
    obtain ⟨s1, s2⟩ := nfcLoop_step hf h0 hd hl.1 hb hq
    simp only [Punycode.mapText]
    cases hm : f c with
    | none => exact ⟨fun y _ h => by (cases h), fun _ => s2 (by rw [hm]; intro m h; cases h)⟩
    | some m =>
      rw [hm] at s1 s2
      by_cases hfit : q + (encs m).length ≤ 254
      · rw [s1 m rfl hfit]
        obtain ⟨i1, i2⟩ := ih (buf := splice buf q (encs m)) (q := q + (encs m).length) (by rw [splice_length (by omega)]; exact hb) hfit
        cases hr : Punycode.mapText f cps with
        | none => exact ⟨fun y _ h => by (cases h), fun _ => i2 (by rw [hr]; intro m _ h; cases h)⟩
        | some z =>
          rw [hr] at i1 i2
          constructor
          · intro y hbt hy hle
            simp only [Option.some.injEq] at hy
            subst hy
            rw [encs_append, List.length_append] at hle ⊢
            rw [i1 z hbt rfl (by omega), splice_splice (by omega), Nat.add_assoc]
          · intro h
            refine i2 fun y hbt hy => ?_
            simp only [Option.some.injEq] at hy
            subst hy
            have := h _ hbt rfl
            rw [encs_append, List.length_append] at this
            omega
      · rw [s2 (by intro m' h; cases h; omega)]
        refine ⟨fun y _ hy hle => ?_, fun _ => rfl⟩
        cases hr : Punycode.mapText f cps with
        | none => rw [hr] at hy; cases hy
        | some z =>
          rw [hr] at hy
          simp only [Option.some.injEq] at hy
          subst hy
          rw [encs_append, List.length_append] at hle
          omega

/-! ### The normalized host name -/

/-- What the encoder makes of the normalized text `y`. -/
structure Encodes (id : Idna) (f : Nat → Option (List Nat)) (y : List Nat) (res : C (Option (List UInt8))) : Prop where
  some : ∀ out, res = .ok (some out) ↔
    ∃ z o, Punycode.mapText f y = .some z ∧ z ≠ [] ∧ (encs z).length ≤ 254 ∧ Punycode.HostAscii id.mc z o ∧ out = o ++ [0]
  ub : res = .error .ub ↔ Punycode.mapText f y = .some []
  abort : res = .error .abort ↔ ∃ z, Punycode.mapText f y = .some z ∧ (encs z).length ≤ 254 ∧ Punycode.LongAscii id.mc z

theorem encodeNfc_spec {id : Idna} {f : Nat → Option (List Nat)} (hf : Represents id f) {fresh : Nat → List UInt8} (hfr : ∀ n, (fresh n).length = n)
    {t : List UInt8} {cps : List Nat} {b : Bool} (hs : Scan Loose t cps b) (r : List UInt8) :
    ∃ res, encodeNfc id fresh (t ++ r, some t.length) = liftC res ∧ (b = true → Encodes id f cps res) ∧ (b = false → res = .ok none) := by
  obtain ⟨h1, h2⟩ := nfcLoop_spec hf hs r (hfr 255) (Nat.zero_le 254)
  rw [encodeNfc]
  by_cases hb : b = true ∧ ∃ z, Punycode.mapText f cps = some z ∧ (encs z).length ≤ 254
  · obtain ⟨rfl, z, hz, hl⟩ := hb
    rw [liftC_bind (h1 z rfl hz (by omega))]
    simp only [Nat.zero_add, splice_zero]
    by_cases hne : z = []
    · subst hne
      refine ⟨.error .ub, ?_, fun _ => ⟨fun out => ⟨fun h => by (cases h), ?_⟩, by simp [hz], fun h => by (cases h), ?_⟩, by simp⟩
      · have hp : ∀ s buf : List UInt8, punycodeEncode id (s, some 0) buf 0 (buf.length - 0) = .error .ub := fun _ _ => rfl
        simp only [encodeFiltered]
        rw [if_neg (by simp [encs]), filteredLoop, show (encs []).length = 0 by rfl, hp]
        rfl
      · rintro ⟨z, o, g1, g2, _⟩
        rw [hz] at g1
        exact absurd (Option.some.inj g1).symm g2
      · rintro ⟨z, g1, _, _, before, l, after, es1, g2, g3, g4, g5, g6, g7, g8, g9⟩
        rw [hz, Option.some.injEq] at g1
        subst g1
        rw [splitOn_nodot (by simp)] at g2
        cases before with
        | nil => simp only [List.nil_append, List.cons.injEq] at g2; rw [← g2.1] at g9; simp at g9
        | cons a b => simp at g2
    · obtain ⟨res, g1, g2, g3⟩ := encodeFiltered_spec id fresh (hfr 255) ((fresh 255).drop (encs z).length) z
        (mapText_scalar hf (scan_scalar hs) hz) hne hl
      refine ⟨res, g1, fun _ => ⟨fun out => ?_, ?_, ?_⟩, by simp⟩
      · rw [g2]
        constructor
        · rintro ⟨o, k1, k2⟩
          exact ⟨z, o, hz, hne, hl, k1, k2⟩
        · rintro ⟨z', o, k0, _, _, k1, k2⟩
          rw [hz] at k0
          cases k0
          exact ⟨o, k1, k2⟩
      · constructor
        · intro h
          exact absurd h g3.2
        · intro h
          rw [hz] at h
          exact absurd (Option.some.inj h) hne
      · rw [g3.1]
        constructor
        · intro h
          exact ⟨z, hz, hl, h⟩
        · rintro ⟨z', k0, _, k1⟩
          rw [hz] at k0
          cases k0
          exact k1
  · rw [liftC_bind (h2 fun y hbt hy => by
      by_contra hc
      exact hb ⟨hbt, y, hy, by omega⟩)]
    refine ⟨.ok none, rfl, fun hbt => ⟨fun out => ⟨fun h => by (cases h), ?_⟩, ⟨fun h => by (cases h), fun h => ?_⟩, ⟨fun h => by (cases h), ?_⟩⟩, fun _ => rfl⟩
    · rintro ⟨z, o, g1, _, g3, _⟩
      exact absurd ⟨hbt, z, g1, g3⟩ hb
    · exact absurd ⟨hbt, [], h, by simp [encs]⟩ hb
    · rintro ⟨z, g1, g2, _⟩
      exact absurd ⟨hbt, z, g1, g2⟩ hb

theorem compose_scalar {x y : List Nat} (h : Spec.Unicode.Compose unicode13.ccc Unicode.Primary [] x y) (hx : ∀ c ∈ x, IsScalar c) : ∀ c ∈ y, IsScalar c := by
  rw [compose_primary, compose_iff tables.toTable] at h
  rw [h, comp]
  exact hfold_scalar (grun_scalar tables.toTable hx (by simp [gflat]))

theorem encodeNfd_spec {id : Idna} {f : Nat → Option (List Nat)} (hf : Represents id f) {fresh : Nat → List UInt8} (hfr : ∀ n, (fresh n).length = n)
    {p : Pos} {t : List UInt8} {n : Nat} (hp : Input p t) (hn : p.2 = some n) {cps : List Nat} {b : Bool} (hs : Scan Loose t cps b) :
    ∃ y res, Spec.Unicode.Compose unicode13.ccc Unicode.Primary [] cps y ∧ encodeNfd unicode13 id fresh p = liftC res ∧
      (b = true ∧ ¬ Spec.Unicode.Excess unicode13.ccc Unicode.Primary 100 cps ∧ Encodes id f y res ∨
        (b = false ∨ Spec.Unicode.Excess unicode13.ccc Unicode.Primary 100 cps) ∧ res = .ok none) := by
  have hle : t.length ≤ n := by
    obtain ⟨r, _, _, h | ⟨_, h⟩⟩ := hp
    · rw [hn, Option.some.injEq] at h; omega
    · exact (h n hn).1
  obtain ⟨y, h1, h2, res, buf', h3, h4, h5, h6, h7, h8⟩ := unicode_recompose_correct hp hs (buf := fresh (n + 1)) (e := n + 1) (by rw [hfr])
  simp only [encodeNfd, hn]
  rw [returns_bind h3]
  cases res with
  | ptr q =>
    obtain ⟨g1, g2, g3⟩ := h7 q rfl
    obtain ⟨g4, rfl⟩ := h6 g1 g2 g3
    cases g4
    obtain ⟨res, k1, k2, _⟩ := encodeNfc_spec hf hfr (scan_encs (compose_scalar h1 (scan_scalar hs))) (0 :: (fresh (n + 1)).drop ((encs y).length + 1))
    exact ⟨y, res, h1, k1, .inl ⟨g1, g2, k2 rfl⟩⟩
  | null errno =>
    refine ⟨y, .ok none, h1, rfl, .inr ⟨?_, rfl⟩⟩
    rcases h8 errno rfl with ⟨_, h⟩ | ⟨_, h⟩ | ⟨_, h⟩
    · exact .inl h
    · exact .inr h
    · omega

/-! ### The host name -/

theorem isAllAscii_spec (t r : List UInt8) (h0 : (0 : UInt8) ∉ t) : isAllAscii (t ++ 0 :: r) = .ok (decide (∀ c ∈ t, c.toNat < 128)) := by
  induction t with
  | nil => simp [isAllAscii]
  | cons c t ih =>
    simp only [List.mem_cons, not_or] at h0
    rw [List.cons_append, isAllAscii, if_neg (Ne.symm h0.1), ih h0.2]
    have hc : c &&& 0x80 ≠ 0 ↔ ¬ c.toNat < 128 := by
      have : ∀ n : Fin 256, (UInt8.ofNat n.val) &&& 0x80 ≠ 0 ↔ ¬ (UInt8.ofNat n.val).toNat < 128 := by decide +kernel
      have h := this ⟨c.toNat, c.toNat_lt⟩
      simpa using h
    by_cases h : c.toNat < 128
    · rw [if_neg (fun hn => hc.1 hn h)]; simp [h]
    · rw [if_pos (hc.2 h)]; simp [h]

/-- A text that cannot be read to its end is longer than what was read. -/
theorem scan_length_bad {t : List UInt8} {cps : List Nat} {b : Bool} (h : Scan Loose t cps b) : b = false → (encs cps).length < t.length := by
  induction h with
  | nil => intro h; cases h
  | bad ht _ => intro _; simp only [encs, List.flatMap_nil, List.length_nil]; exact List.length_pos_iff.2 ht
  | cons hl _ ih =>
    intro hb
    have := loose_width hl
    have := ih hb
    rw [encs_cons, List.length_append, List.length_append]; omega

/-- Some prefix of a text is an input. -/
theorem input_nul (s r : List UInt8) : ∃ t, Input (s ++ 0 :: r, some s.length) t ∧ ((0 : UInt8) ∉ s → t = s) := by
  by_cases h : (0 : UInt8) ∈ s
  · have hs := List.takeWhile_append_dropWhile (p := (· ≠ (0 : UInt8))) (l := s)
    have hn : (0 : UInt8) ∉ s.takeWhile (· ≠ (0 : UInt8)) := by
      intro hm
      have := List.mem_takeWhile_imp hm
      simp at this
    obtain ⟨c, d, hd⟩ : ∃ c d, s.dropWhile (· ≠ (0 : UInt8)) = c :: d := by
      apply List.exists_cons_of_ne_nil
      intro h'
      rw [h', List.append_nil] at hs
      rw [hs] at hn
      exact hn h
    have hc : c = 0 := by
      have := List.head_dropWhile_not (p := (· ≠ (0 : UInt8))) (l := s) (by rw [hd]; simp)
      simp only [hd, List.head_cons] at this
      simpa using this
    subst hc
    rw [hd] at hs
    refine ⟨s.takeWhile (· ≠ (0 : UInt8)), ⟨0 :: d ++ 0 :: r, ?_, hn, .inr ⟨⟨d ++ 0 :: r, rfl⟩, ?_⟩⟩, fun h' => absurd h h'⟩
    · rw [← List.append_assoc, hs]
    · intro n hn
      simp only [Option.some.injEq] at hn
      subst hn
      refine ⟨?_, by simp⟩
      conv_rhs => rw [← hs]
      simp
  · exact ⟨s, ⟨0 :: r, rfl, h, .inl rfl⟩, fun _ => rfl⟩

theorem idna_spec {id : Idna} {f : Nat → Option (List Nat)} (hf : Represents id f) {fresh : Nat → List UInt8} (hfr : ∀ n, (fresh n).length = n)
    {t : List UInt8} (h0 : (0 : UInt8) ∉ t) (r : List UInt8) (hna : ∃ c ∈ t, 128 ≤ c.toNat) {cps : List Nat} {b : Bool} (hs : Scan Loose t cps b) :
    ∃ y res, idnaEncode unicode13 id fresh (t ++ 0 :: r) = liftC res ∧ (∀ c ∈ y, IsScalar c) ∧ (Encodes id f y res ∨ res = .ok none) ∧
      (b = false → res = .ok none) ∧
      (b = true → 0 ∉ cps → ∀ d, NFD13 cps d → (encs d).length < 3 * t.length →
        NFC13 cps y ∧ (¬ Spec.Unicode.Excess unicode13.ccc Unicode.Primary 100 d → Encodes id f y res)) := by
  have hin : Input (t ++ 0 :: r, some t.length) t := ⟨0 :: r, rfl, h0, .inl rfl⟩
  have hsc := scan_scalar hs
  have ha : isAllAscii (t ++ 0 :: r) = .ok false := by
    rw [isAllAscii_spec t r h0]
    obtain ⟨c, hc, h⟩ := hna
    congr 1
    rw [decide_eq_false_iff_not]
    intro h'
    have := h' c hc
    omega
  obtain ⟨r1, h1, h2⟩ := unicode_composed_check_partial hin
  obtain ⟨r2, h3, h4⟩ := unicode_decomposed_check_partial hin
  rw [idnaEncode, liftC_bind ha]
  simp only [Bool.false_eq_true, if_false]
  rw [liftC_bind (strlen_spec t r h0), liftC_bind h1]
  cases r1 with
  | true =>
    obtain ⟨cps', g1, g2⟩ := h2 rfl
    obtain ⟨rfl, rfl⟩ := scan_unique hs (scan_true.2 g1)
    obtain ⟨res, k1, k2, k3⟩ := encodeNfc_spec hf hfr hs (0 :: r)
    refine ⟨cps', res, ?_, hsc, .inl (k2 rfl), k3, fun _ _ _ _ _ => ⟨g2, fun _ => k2 rfl⟩⟩
    simpa using k1
  | false =>
    simp only [Bool.false_eq_true, if_false]
    rw [liftC_bind h3]
    cases r2 with
    | true =>
      obtain ⟨cps', g1, g2⟩ := h4.1 rfl
      obtain ⟨rfl, rfl⟩ := scan_unique hs (scan_true.2 g1)
      obtain ⟨y, res, k0, k1, k2⟩ := encodeNfd_spec hf hfr hin rfl hs
      refine ⟨y, res, by simpa using k1, compose_scalar k0 hsc, ?_, by simp, fun _ _ d hd _ => ⟨⟨cps', g2, k0⟩, fun he => ?_⟩⟩
      · rcases k2 with ⟨_, _, k⟩ | ⟨_, k⟩
        · exact .inl k
        · exact .inr k
      · rw [Spec.Unicode.nfd_unique hd g2] at he
        rcases k2 with ⟨_, _, k⟩ | ⟨k | k, _⟩
        · exact k
        · cases k
        · exact absurd k he
    | false =>
      simp only [Bool.false_eq_true, if_false]
      -- what is done with the decomposed text
      have tail : ∀ (d : List Nat) (s : List UInt8), (∀ c ∈ d, IsScalar c) →
          ∃ y res, encodeNfd unicode13 id fresh (encs d ++ 0 :: s, some (encs d).length) = liftC res ∧ (∀ c ∈ y, IsScalar c) ∧
            (Encodes id f y res ∨ res = .ok none) ∧ (0 ∉ d → Spec.Unicode.Compose unicode13.ccc Unicode.Primary [] d y ∧
              (¬ Spec.Unicode.Excess unicode13.ccc Unicode.Primary 100 d → Encodes id f y res)) := by
        intro d s hd
        obtain ⟨t', g1, g2⟩ := input_nul (encs d) s
        obtain ⟨c', b', g3⟩ := scan_exists t'
        obtain ⟨y, res, k0, k1, k2⟩ := encodeNfd_spec hf hfr g1 rfl g3
        refine ⟨y, res, k1, compose_scalar k0 (scan_scalar g3), ?_, fun hd0 => ?_⟩
        · rcases k2 with ⟨_, _, k⟩ | ⟨_, k⟩
          · exact .inl k
          · exact .inr k
        · have ht := g2 (fun h => hd0 ((encs_zero hd).1 h))
          subst ht
          obtain ⟨rfl, rfl⟩ := scan_unique g3 (scan_encs hd)
          refine ⟨k0, fun he => ?_⟩
          rcases k2 with ⟨_, _, k⟩ | ⟨k | k, _⟩
          · exact k
          · cases k
          · exact absurd k he
      cases b with
      | false =>
        obtain ⟨d, g1, g2, g3⟩ := fullAll_exists hsc
        have := scan_length_bad hs rfl
        have hbad := decompose_bad unicode13 hin hs g1 g2 (e := 3 * t.length) (by omega) (buf := fresh (3 * t.length + 1)) (by rw [hfr]; omega)
        rw [returns_bind hbad]
        exact ⟨[], .ok none, rfl, by simp, .inr rfl, fun _ => rfl, fun h => by (cases h)⟩
      | true =>
        obtain ⟨d, g1, g2, g3⟩ := unicode_decompose_13 hin (scan_true.1 hs)
        have hds := nfd_scalar g1 hsc
        by_cases hroom : (encs d).length < 3 * t.length
        · rw [returns_bind (g3 (fresh (3 * t.length + 1)) (3 * t.length) (by rw [hfr]; omega) hroom)]
          obtain ⟨y, res, k1, k2, k3, k4⟩ := tail d ((fresh (3 * t.length + 1)).drop ((encs d).length + 1)) hds
          refine ⟨y, res, by simpa using k1, k2, k3, by simp, fun _ hz d' hd' _ => ?_⟩
          rw [Spec.Unicode.nfd_unique hd' g1]
          obtain ⟨k5, k6⟩ := k4 (nfd_nonzero g1 hz)
          exact ⟨⟨d, g1, k5⟩, k6⟩
        · obtain ⟨q, buf', k1, k2, k3, k4⟩ := unicode_decompose_safe hin (buf := fresh (3 * t.length + 1)) (e := 3 * t.length) (by rw [hfr]; omega)
          rw [returns_bind k1]
          cases q with
          | null errno =>
            refine ⟨[], .ok none, rfl, by simp, .inr rfl, by simp, fun _ hz d' hd' hl => ?_⟩
            rw [Spec.Unicode.nfd_unique hd' g1] at hl
            exact absurd hl hroom
          | ptr q =>
            obtain ⟨k5, out, k6, k7⟩ := k4 q rfl
            have hq : q = (encs out).length := by
              have := congrArg List.length k7
              rw [List.length_take, k2, hfr, List.length_append, List.length_singleton] at this
              omega
            subst hq
            have hbuf : buf' = encs out ++ 0 :: buf'.drop ((encs out).length + 1) := by
              conv_lhs => rw [← List.take_append_drop ((encs out).length + 1) buf', k7]
              simp
            rw [hbuf]
            obtain ⟨y, res, j1, j2, j3, _⟩ := tail out (buf'.drop ((encs out).length + 1)) k6
            refine ⟨y, res, by simpa using j1, j2, j3, by simp, fun _ hz d' hd' hl => ?_⟩
            rw [Spec.Unicode.nfd_unique hd' g1] at hl
            exact absurd hl hroom

end Verif.Puny
