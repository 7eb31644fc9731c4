import Verif.Spec.Unicode
import Verif.Proofs.Utf8

/-! Reading code points from an input text. -/

namespace Verif.Utf8
open Verif.Spec.Utf8 Verif.Spec.Unicode

/-- The loop condition `s != end && *s` fails exactly at the end of the text. -/
theorem input_nil {p : Pos} (h : Input p []) : p.2 = some 0 ∨ p.2 ≠ some 0 ∧ ∃ r, p.1 = 0 :: r := by
  obtain ⟨r, h1, _, h3⟩ := h
  by_cases h0 : p.2 = some 0
  · exact Or.inl h0
  · right
    refine ⟨h0, ?_⟩
    rcases h3 with h3 | ⟨⟨r', hr⟩, _⟩
    · exact absurd h3 h0
    · exact ⟨r', by rw [h1, hr]; rfl⟩

/-- Inside the text the decoder finds an encoding at its start if there is one, and stays inside. -/
theorem input_cons {p : Pos} {t : List UInt8} (h : Input p t) (ht : t ≠ []) : p.2 ≠ some 0 ∧ (∃ c s, p.1 = c :: s ∧ c ≠ 0) ∧
    ((decode p = .ok none ∧ ∀ pre cp r, Loose pre cp → t ≠ pre ++ r) ∨
      ∃ pre t' cp q, decode p = .ok (some (cp, q)) ∧ Loose pre cp ∧ t = pre ++ t' ∧ Input q t') := by
  obtain ⟨s, lim⟩ := p
  obtain ⟨r, h1, h2, h3⟩ := h
  simp only at h1 h3 ⊢
  subst h1
  obtain ⟨c, t1, rfl⟩ := List.exists_cons_of_ne_nil ht
  refine ⟨?_, ⟨c, t1 ++ r, rfl, fun h => h2 (by simp [h])⟩, ?_⟩
  · rcases h3 with h3 | ⟨_, h3⟩
    · rw [h3]; simp
    · intro h0; have := (h3 0 h0).1; simp at this
  · -- the decoder does not depend on what follows the text
    by_cases hex : ∃ pre cp t', Loose pre cp ∧ c :: t1 = pre ++ t'
    · right
      obtain ⟨pre, cp, t', hl, he⟩ := hex
      refine ⟨pre, t', cp, (t' ++ r, advN lim pre.length), ?_, hl, he, r, rfl, fun h => h2 (by rw [he]; exact List.mem_append_right _ h), ?_⟩
      · refine decode_some.2 ⟨pre, hl, by rw [he, List.append_assoc], ?_, rfl⟩
        intro n hn
        have hle : pre.length ≤ (c :: t1).length := by rw [he]; simp
        rcases h3 with h3 | ⟨_, h3⟩
        · rw [h3] at hn; simp only [Option.some.injEq] at hn; omega
        · have := (h3 n hn).1; omega
      · have hlen : (c :: t1).length = pre.length + t'.length := by rw [he]; simp
        rcases h3 with h3 | ⟨h3, h4⟩
        · left; rw [h3]; simp only [advN, Option.map_some, Option.some.injEq]; omega
        · right
          refine ⟨h3, fun n hn => ?_⟩
          simp only [advN, Option.map_eq_some_iff] at hn
          obtain ⟨m, hm, rfl⟩ := hn
          have := h4 m hm
          simp only [List.length_append] at this ⊢
          omega
    · left
      push Not at hex
      refine ⟨?_, fun pre cp r' hl he => hex pre cp r' hl he⟩
      rcases h3 with h3 | ⟨⟨r', rfl⟩, h4⟩
      · obtain ⟨x, hx⟩ := decode_safe (s := c :: t1 ++ r) (lim := lim) (by rw [h3]; simp [Readable])
        rw [hx]
        cases x with
        | none => rfl
        | some y =>
          obtain ⟨cp, s', lim'⟩ := y
          obtain ⟨pre, hl, he, hr, _⟩ := decode_some.1 hx
          exfalso
          have hle := hr _ h3
          have : c :: t1 = pre ++ (c :: t1).drop pre.length := by
            conv_lhs => rw [← List.take_append_drop pre.length (c :: t1)]
            congr 1
            have := congrArg (List.take pre.length) he
            rwa [List.take_append_of_le_length hle, List.take_left] at this
          exact hex pre cp _ hl this
      · -- a NUL follows the text
        obtain ⟨x, hx⟩ : ∃ x, decode (c :: t1 ++ 0 :: r', lim) = .ok x := by
          cases lim with
          | none => exact decode_safe (by simp [Readable])
          | some n =>
            exact decode_safe (s := c :: t1 ++ 0 :: r') (lim := some n) (h4 n rfl).2
        rw [hx]
        cases x with
        | none => rfl
        | some y =>
          obtain ⟨cp, s', lim'⟩ := y
          obtain ⟨pre, hl, he, hr, _⟩ := decode_some.1 hx
          exfalso
          obtain ⟨r'', h5, _⟩ := loose_prefix hl h2 (by simp) he
          exact hex pre cp r'' hl h5

/-- Every text can be scanned. -/
theorem scan_exists (t : List UInt8) : ∃ cps b, Scan Loose t cps b := by
  induction hn : t.length using Nat.strong_induction_on generalizing t with
  | _ n ih =>
    subst hn
    by_cases ht : t = []
    · subst ht; exact ⟨_, _, .nil⟩
    by_cases hex : ∃ p cp r, Loose p cp ∧ t = p ++ r
    · obtain ⟨p, cp, r, hl, rfl⟩ := hex
      have := (loose_len hl).1
      obtain ⟨cps, b, h⟩ := ih r.length (by simp; omega) r rfl
      exact ⟨_, _, .cons hl h⟩
    · push Not at hex
      exact ⟨_, _, .bad ht hex⟩

theorem scan_unique {t : List UInt8} {cps : List Nat} {b : Bool} (h : Scan Loose t cps b) :
    ∀ {cps' b'}, Scan Loose t cps' b' → cps' = cps ∧ b' = b := by
  induction h with
  | nil =>
    intro cps' b' h
    generalize ht : ([] : List UInt8) = t at h
    cases h with
    | nil => exact ⟨rfl, rfl⟩
    | bad h1 _ => exact absurd ht.symm h1
    | cons hl _ => exact absurd (List.append_eq_nil_iff.1 ht.symm).1 (loose_ne_nil hl)
  | bad h1 h2 =>
    intro cps' b' h
    cases h with
    | nil => exact absurd rfl h1
    | bad _ _ => exact ⟨rfl, rfl⟩
    | cons hl _ => exact absurd rfl (h2 _ _ _ hl)
  | @cons p cp r cps b hl hs ih =>
    intro cps' b' h
    generalize ht : p ++ r = t at h
    cases h with
    | nil => exact absurd (List.append_eq_nil_iff.1 ht).1 (loose_ne_nil hl)
    | bad _ h2 => exact absurd ht.symm (h2 _ _ _ hl)
    | cons hl' hs' =>
      obtain ⟨_, rfl, rfl⟩ := loose_unique hl hl' ht
      obtain ⟨rfl, rfl⟩ := ih hs'
      exact ⟨rfl, rfl⟩

theorem scan_true {t : List UInt8} {cps : List Nat} : Scan Loose t cps true ↔ Seq Loose t cps := by
  constructor
  · intro h
    generalize hb : true = b at h
    induction h with
    | nil => exact .nil
    | bad => simp at hb
    | cons hl _ ih => exact .cons hl (ih hb)
  · intro h
    induction h with
    | nil => exact .nil
    | cons hl _ ih => exact .cons hl ih

/-- The code points read are scalar values other than 0, if the text has no NUL. -/
theorem scan_scalar {t : List UInt8} {cps : List Nat} {b : Bool} (h : Scan Loose t cps b) : ∀ cp ∈ cps, IsScalar cp := by
  induction h with
  | nil => simp
  | bad => simp
  | cons hl _ ih =>
    intro c hc
    rcases List.mem_cons.1 hc with rfl | hc
    · exact hl.1
    · exact ih c hc

end Verif.Utf8
