import Verif.Model.Utf8Null
import Verif.Props.Utf8

/-! Property C109: UTF-8 calls in a row, with the result checked in the end only. -/

set_option autoImplicit false

namespace Verif.Utf8
open Verif.Spec.Utf8

theorem encodeRun_none (e : Option Nat) (cps : List Int) (buf : List UInt8) : encodeRun e cps buf none = .ok (none, buf) := by
  induction cps with
  | nil => rfl
  | cons cp cps ih => simpa [encodeRun, encodeOpt] using ih

theorem decodeRun_none (n : Nat) : decodeRun n none = .ok ([], none) := by
  induction n with
  | zero => rfl
  | succ n ih => simpa [decodeRun, decodeOpt] using ih

/-- C109, encoding. Encode any scalar values one after the other into the part of a buffer that ends at `end`: no undefined behaviour; the last
pointer is not NULL exactly if the UTF-8 text of all of them fits, and then it points after the text, which is in the buffer where the first one was
to go, all else being as before; otherwise nothing outside the given part has changed. -/
theorem utf8_encode_run (cps : List Nat) (hc : ∀ cp ∈ cps, IsScalar cp) (buf : List UInt8) (i e : Nat) (hi : i ≤ e) (he : e ≤ buf.length) :
    (i + (cps.flatMap enc).length ≤ e → encodeRun (some e) (cps.map Int.ofNat) buf (some i) =
      .ok (some (i + (cps.flatMap enc).length), buf.take i ++ cps.flatMap enc ++ buf.drop (i + (cps.flatMap enc).length))) ∧
    (e < i + (cps.flatMap enc).length → ∃ buf', encodeRun (some e) (cps.map Int.ofNat) buf (some i) = .ok (none, buf') ∧
      buf'.length = buf.length ∧ buf'.take i = buf.take i ∧ buf'.drop e = buf.drop e) := by
  induction cps generalizing buf i with
  | nil => exact ⟨fun _ => by simp [encodeRun], fun h => by simp at h; omega⟩
  | cons cp cps ih =>
    have hb := utf8_encode_bounded cp (hc cp (by simp)) buf i e hi he
    rw [List.flatMap_cons]
    simp only [List.map_cons, encodeRun, encodeOpt]
    by_cases hfit : i + (enc cp).length ≤ e
    · have h1 := hb.1 hfit
      rw [show (Int.ofNat cp) = ((cp : Nat) : Int) from rfl, h1]
      have hs : buf.take i ++ enc cp ++ buf.drop (i + (enc cp).length) = splice buf i (enc cp) := rfl
      rw [hs]
      have hl : (splice buf i (enc cp)).length = buf.length := splice_length (by omega)
      obtain ⟨ih1, ih2⟩ := ih (fun c h => hc c (by simp [h])) (splice buf i (enc cp)) (i + (enc cp).length) hfit (by omega)
      constructor
      · intro h
        rw [List.length_append] at h
        dsimp only
        rw [ih1 (by omega), List.length_append, ← Nat.add_assoc]
        have := splice_splice (out := buf) (q := i) (a := enc cp) (b := cps.flatMap enc) (by omega)
        simp only [splice] at this ⊢
        rw [this, List.length_append, ← Nat.add_assoc]
      · intro h
        rw [List.length_append] at h
        obtain ⟨buf', r1, r2, r3, r4⟩ := ih2 (by omega)
        refine ⟨buf', r1, r2.trans hl, ?_, ?_⟩
        · have h3 := congrArg (List.take i) r3
          rw [List.take_take, List.take_take, Nat.min_eq_left (by omega)] at h3
          rw [h3]
          simp only [splice]
          rw [List.append_assoc, List.take_left' (by simp; omega)]
        · rw [r4]
          simp only [splice]
          have : e = (buf.take i ++ enc cp).length + (e - (i + (enc cp).length)) := by simp; omega
          rw [this, ← List.drop_drop, List.drop_left' rfl, List.drop_drop]
          congr 1
          simp; omega
    · obtain ⟨buf', r1, r2, r3, r4⟩ := hb.2 (by omega)
      rw [show (Int.ofNat cp) = ((cp : Nat) : Int) from rfl, r1]
      rw [List.length_append]
      exact ⟨fun h => by omega, fun _ => ⟨buf', encodeRun_none _ _ _, r2, r3, r4⟩⟩

example : encodeRun (some 6) [0x20AC, 0x61] [9, 9, 9, 9, 9, 9, 9] (some 1) = .ok (some 5, [9, 0xE2, 0x82, 0xAC, 0x61, 9, 9]) := by decide +kernel
example : encodeRun (some 4) [0x61, 0x20AC, 0x61] [9, 9, 9, 9, 9] (some 1) = .ok (none, [9, 0x61, 0xE2, 0x82, 9]) := by decide +kernel

/-- C109, decoding. After `n` calls the pointer is not NULL exactly if the text begins with `n` encodings that end before `end`; then their code
points have been stored and the pointer is after them. -/
theorem utf8_decode_run (n : Nat) (s s' : List UInt8) (lim lim' : Option Nat) (cps : List Nat) :
    decodeRun n (some (s, lim)) = .ok (cps, some (s', lim')) ↔
      cps.length = n ∧ ∃ p, Seq Loose p cps ∧ s = p ++ s' ∧ (∀ k, lim = some k → p.length ≤ k) ∧ lim' = lim.map (· - p.length) := by
  induction n generalizing s lim cps with
  | zero =>
    simp only [decodeRun, Except.ok.injEq, Prod.mk.injEq, Option.some.injEq, List.length_eq_zero_iff]
    constructor
    · rintro ⟨rfl, rfl, rfl⟩
      exact ⟨rfl, [], .nil, rfl, by simp, by simp⟩
    · rintro ⟨rfl, p, h, rfl, -, rfl⟩
      cases h
      simp
  | succ n ih =>
    simp only [decodeRun, decodeOpt]
    constructor
    · intro h
      split at h
      · simp at h
      · rw [decodeRun_none] at h; simp at h
      · rename_i cp q hd
        split at h
        · simp at h
        · rename_i cps1 r hr
          simp only [Except.ok.injEq, Prod.mk.injEq] at h
          obtain ⟨rfl, rfl⟩ := h
          obtain ⟨s1, l1⟩ := q
          obtain ⟨h1, p1, h2, rfl, h4, rfl⟩ := (ih s1 l1 cps1).1 hr
          obtain ⟨p, hp, rfl, h5, rfl⟩ := decode_some.1 hd
          refine ⟨by simp [h1], p ++ p1, .cons hp h2, by simp, ?_, ?_⟩
          · intro k hk
            have h6 := h5 k hk
            have h7 := h4 (k - p.length) (by rw [hk]; rfl)
            rw [List.length_append]; omega
          · cases lim with
            | none => rfl
            | some k => simp [advN, Nat.sub_sub]
    · rintro ⟨h1, p, h2, rfl, h4, rfl⟩
      cases h2 with
      | nil => simp at h1
      | @cons p1 cp r cps1 hp h3 =>
        have hd : decode (p1 ++ (r ++ s'), lim) = .ok (some (cp, (r ++ s', lim.map (· - p1.length)))) :=
          decode_some.2 ⟨p1, hp, rfl, fun k hk => by have := h4 k hk; rw [List.length_append] at this; omega, rfl⟩
        rw [List.append_assoc, hd]
        have hr := (ih (r ++ s') (lim.map (· - p1.length)) cps1).2 ⟨by simpa using h1, r, h3, rfl, ?_, ?_⟩
        · dsimp only
          rw [hr]
        · intro k hk
          cases lim with
          | none => simp at hk
          | some j =>
            have := h4 j rfl
            rw [List.length_append] at this
            simp at hk; omega
        · cases lim with
          | none => rfl
          | some j => simp [Nat.sub_sub]

/-- C109, decoding within bounds never reads at or after `end`, however many calls are made and whatever the bytes are. -/
theorem utf8_decode_run_safe (n : Nat) (s : List UInt8) (k : Nat) (h : k ≤ s.length) : ∃ r, decodeRun n (some (s, some k)) = .ok r := by
  induction n generalizing s k with
  | zero => exact ⟨_, rfl⟩
  | succ n ih =>
    obtain ⟨r, hr⟩ := decode_safe (s := s) (lim := some k) h
    simp only [decodeRun, decodeOpt, hr]
    cases r with
    | none => exact ⟨_, decodeRun_none n⟩
    | some r =>
      obtain ⟨cp, s1, l1⟩ := r
      obtain ⟨p, hp, rfl, h5, rfl⟩ := decode_some.1 hr
      have h6 := h5 k rfl
      obtain ⟨r', h7⟩ := ih s1 (k - p.length) (by rw [List.length_append] at h; omega)
      have h8 : decodeRun n (some (s1, advN (some k) p.length)) = .ok r' := h7
      dsimp only
      rw [h8]
      exact ⟨_, rfl⟩

/-- C109, there and back: what one run has encoded, a run of as many calls decodes. -/
theorem utf8_runs_round_trip (cps : List Nat) (hc : ∀ cp ∈ cps, IsScalar cp) (buf buf' : List UInt8) (i e j : Nat) (hi : i ≤ e) (he : e ≤ buf.length)
    (h : encodeRun (some e) (cps.map Int.ofNat) buf (some i) = .ok (some j, buf')) :
    decodeRun cps.length (some (buf'.drop i, some (j - i))) = .ok (cps, some (buf'.drop j, some 0)) := by
  obtain ⟨h1, h2⟩ := utf8_encode_run cps hc buf i e hi he
  by_cases hfit : i + (cps.flatMap enc).length ≤ e
  · rw [h1 hfit] at h
    simp only [Except.ok.injEq, Prod.mk.injEq, Option.some.injEq] at h
    obtain ⟨rfl, rfl⟩ := h
    have hseq : ∀ l : List Nat, (∀ cp ∈ l, IsScalar cp) → Seq Loose (l.flatMap enc) l := by
      intro l hl
      induction l with
      | nil => exact .nil
      | cons c l ih => exact .cons (legal_loose ⟨hl c (by simp), rfl⟩) (ih fun x hx => hl x (by simp [hx]))
    refine (utf8_decode_run _ _ _ _ _ _).2 ⟨rfl, _, hseq cps hc, ?_, ?_, ?_⟩
    · rw [List.append_assoc, List.drop_left' (by simp; omega), ← List.append_assoc]
      rw [List.drop_left' (by simp; omega)]
    · intro k hk
      simp only [Option.some.injEq] at hk
      omega
    · simp
  · obtain ⟨b, h3, -⟩ := h2 (by omega)
    rw [h3] at h; simp at h

/-- The round trip's hypothesis is met. -/
example : encodeRun (some 4) ([0xE5, 0x1F600].map Int.ofNat) [9, 9, 9, 9] (some 0) ≠ .ok (some 6, []) ∧
    encodeRun (some 6) ([0xE5, 0x1F600].map Int.ofNat) [9, 9, 9, 9, 9, 9] (some 0) = .ok (some 6, [0xC3, 0xA5, 0xF0, 0x9F, 0x98, 0x80]) := by
  constructor <;> decide +kernel

/-- C109, a NULL string is not valid UTF-8 and yields no code point. -/
theorem utf8_null : validOpt none = .ok false ∧ validBoundedOpt none = .ok false ∧ decodeOpt none = .ok none ∧
    ∀ cp buf e, encodeOpt cp buf none e = .ok (none, buf) := ⟨rfl, rfl, rfl, fun _ _ _ => rfl⟩

end Verif.Utf8
