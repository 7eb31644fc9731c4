import Verif.Proofs.UnidataFacts

/-! Texts and their code points: lengths, NUL, and the tables of Unicode 13. -/

namespace Verif.Unicode
open Verif.Utf8 Verif.Spec.Unicode Verif.Spec.Utf8

theorem loose_width {p : List UInt8} {cp : Nat} (h : Loose p cp) : (enc cp).length ≤ p.length := by
  obtain ⟨_, k, h1, h4, hc, rfl⟩ := h
  rw [form_length h1 h4, enc_length]
  obtain rfl | rfl | rfl | rfl : k = 1 ∨ k = 2 ∨ k = 3 ∨ k = 4 := by omega
  all_goals simp only [cap] at hc; simp only [width]; split_ifs <;> omega

theorem scan_length {t : List UInt8} {cps : List Nat} {b : Bool} (h : Scan Loose t cps b) : (encs cps).length ≤ t.length := by
  induction h with
  | nil => simp
  | bad => simp
  | cons hl _ ih =>
    have := loose_width hl
    simp; omega

theorem scan_encs {d : List Nat} (h : ∀ c ∈ d, IsScalar c) : Scan Loose (encs d) d true := by
  induction d with
  | nil => exact .nil
  | cons c d ih =>
    exact .cons (legal_loose ⟨h c (by simp), rfl⟩) (ih fun x hx => h x (List.mem_cons_of_mem _ hx))

theorem legal_encs {t : List UInt8} {cps : List Nat} (h : Seq Legal t cps) : t = encs cps ∧ ∀ c ∈ cps, IsScalar c := by
  induction h with
  | nil => exact ⟨rfl, by simp⟩
  | cons hl _ ih =>
    obtain ⟨hv, rfl⟩ := hl
    obtain ⟨rfl, h2⟩ := ih
    refine ⟨rfl, fun c hc => ?_⟩
    rcases List.mem_cons.1 hc with rfl | hc
    · exact hv
    · exact h2 c hc

theorem seq_encs {d : List Nat} (h : ∀ c ∈ d, IsScalar c) : Seq Legal (encs d) d := by
  induction d with
  | nil => exact .nil
  | cons c d ih => exact .cons ⟨h c (by simp), rfl⟩ (ih fun x hx => h x (List.mem_cons_of_mem _ hx))

theorem seq_loose {t : List UInt8} {cps : List Nat} (h : Seq Legal t cps) : Seq Loose t cps := by
  induction h with
  | nil => exact .nil
  | cons hl _ ih => exact .cons (legal_loose hl) ih

theorem zero_ofNat (n : Nat) : (0 : UInt8) = UInt8.ofNat n ↔ n % 256 = 0 := by
  rw [← UInt8.toNat_inj]
  simp [eq_comm]

theorem enc_zero {c : Nat} (hv : IsScalar c) : (0 : UInt8) ∈ enc c ↔ c = 0 := by
  constructor
  · intro h
    have hlt : c < 0x110000 := by simp only [IsScalar] at hv; omega
    simp only [enc, width] at h
    split_ifs at h
    all_goals
      simp only [form, List.mem_cons, List.not_mem_nil, or_false, zero_ofNat] at h
      omega
  · rintro rfl; decide

theorem encs_zero {d : List Nat} (h : ∀ c ∈ d, IsScalar c) : (0 : UInt8) ∈ encs d ↔ 0 ∈ d := by
  induction d with
  | nil => simp
  | cons c d ih =>
    rw [encs_cons, List.mem_append, List.mem_cons, ih fun x hx => h x (List.mem_cons_of_mem _ hx), enc_zero (h c (by simp)), eq_comm (a := c)]

/-- The text of a NUL-terminated result. -/
theorem input_encs {d : List Nat} (h : ∀ c ∈ d, IsScalar c) (h0 : 0 ∉ d) (r : List UInt8) : Input (encs d ++ 0 :: r, none) (encs d) :=
  ⟨0 :: r, rfl, fun hm => h0 ((encs_zero h).1 hm), Or.inr ⟨⟨r, rfl⟩, by simp⟩⟩

end Verif.Unicode
