import Verif.Props.Url
import Verif.Props.Charstr

/-! Property C131: forms made of URL-encoded fields. -/

set_option autoImplicit false

namespace Verif.Url
open Verif.Charstr Verif.Spec.Url Verif.Spec.Charstr
open Verif.BA (Junk)

/-- A character that can separate encoded fields: not alphanumeric, and none of `%+-./<>\^_{|}~"` and the backquote. -/
def Separator (d : UInt8) : Prop := d ≠ 0 ∧ alnum d = false ∧ d ∉ ([37, 43, 45, 46, 47, 60, 62, 92, 94, 95, 96, 123, 124, 126, 34, 125] : List UInt8)

/-- The ampersand, the equals sign, the semicolon, the comma, the colon and the space are separators. -/
example : Separator 38 ∧ Separator 61 ∧ Separator 59 ∧ Separator 44 ∧ Separator 58 ∧ Separator 32 := by simp only [Separator]; decide

theorem actual_clean (d : UInt8) (h : Separator d) : ∀ c : UInt8, d ∉ actual c := by
  have key : ∀ c : UInt8, ∀ x ∈ actual c, alnum x = true ∨ x ∈ ([37, 43, 45, 46, 47, 60, 62, 92, 94, 95, 96, 123, 124, 126, 34, 125] : List UInt8) := by
    apply u8_all; decide +kernel
  intro c hx
  rcases key c d hx with h1 | h1
  · rw [h.2.1] at h1; cases h1
  · exact h.2.2 h1

theorem denote_actual (s : List UInt8) : denote true (s.flatMap actual) = some s := by
  induction s with
  | nil => simp [denote]
  | cons c s ih => rw [List.flatMap_cons, actual_denotes, ih]; rfl

theorem intercalate_clean {d x : UInt8} (hx : x ≠ d) : ∀ ps : List (List UInt8), (∀ p ∈ ps, x ∉ p) → x ∉ List.intercalate [d] ps
  | [], _ => by simp
  | [p], h => by simpa using h p (by simp)
  | p :: q :: ps, h => by
    rw [show List.intercalate [d] (p :: q :: ps) = p ++ [d] ++ List.intercalate [d] (q :: ps) by simp [List.intercalate, List.intersperse]]
    simp only [List.mem_append, List.mem_singleton, not_or]
    exact ⟨⟨h p (by simp), hx⟩, intercalate_clean hx (q :: ps) fun r hr => h r (by simp [hr])⟩

/-- Splitting what was joined. -/
theorem split_join {d : UInt8} (hd : d ≠ 0) {max : Nat} {ps : List (List UInt8)} (hne : ps ≠ []) (h : ∀ p ∈ ps, d ∉ p ∧ 0 ∉ p) (hm : ps.length ≤ max + 1)
    (t : List UInt8) : split d max (List.intercalate [d] ps ++ 0 :: t) = .ok (ps.map (· ++ [0])) := by
  have h0 : 0 ∉ List.intercalate [d] ps := intercalate_clean (Ne.symm hd) ps fun p hp => (h p hp).2
  obtain ⟨qs, h1, h2⟩ := split_correct d hd max _ t h0
  rw [h1]
  have h3 : Split d max (List.intercalate [d] ps) ps := by
    refine ⟨rfl, fun p hp => (h p (List.dropLast_subset ps hp)).1, ?_⟩
    rw [count_join d ps (fun p hp => (h p (List.dropLast_subset ps hp)).1) hne, List.count_eq_zero_of_not_mem (h _ (List.getLast_mem hne)).1]
    have := List.length_pos_iff.2 hne
    omega
  rw [split_unique d max _ _ _ h2 h3]

/-- C131. The encoder `enc` works byte by byte and uses no separator. Names and values of any bytes but NUL, encoded and joined by two different
separators, are recovered by splitting at the first, splitting each piece once at the second, and decoding. -/
theorem form_round_trip (junk junk' : Junk) : ∃ enc : List UInt8 → List UInt8,
    (∀ s t, 0 ∉ s → ∃ rest, urlEncode junk (s ++ 0 :: t) = .ok (enc s ++ 0 :: rest)) ∧ (∀ s, 0 ∉ enc s) ∧ (∀ s t, enc (s ++ t) = enc s ++ enc t) ∧
    (∀ d, Separator d → ∀ s, d ∉ enc s) ∧
    ∀ d1 d2, Separator d1 → Separator d2 → d1 ≠ d2 → ∀ (fields : List (List UInt8 × List UInt8)) (max : Nat), fields ≠ [] → fields.length ≤ max + 1 →
      (∀ f ∈ fields, 0 ∉ f.1 ∧ 0 ∉ f.2) → ∀ t,
      split d1 max (List.intercalate [d1] (fields.map fun f => enc f.1 ++ d2 :: enc f.2) ++ 0 :: t) =
        .ok (fields.map fun f => enc f.1 ++ d2 :: enc f.2 ++ [0]) ∧
      ∀ f ∈ fields, split d2 1 (enc f.1 ++ d2 :: enc f.2 ++ [0]) = .ok [enc f.1 ++ [0], enc f.2 ++ [0]] ∧
        urlDecode junk' (enc f.1 ++ [0]) true = .ok (some (f.1 ++ [0], f.1.length)) ∧
        urlDecode junk' (enc f.2 ++ [0]) true = .ok (some (f.2 ++ [0], f.2.length)) := by
  have h0 : ∀ s : List UInt8, 0 ∉ s.flatMap actual := by
    intro s
    rw [List.mem_flatMap]; rintro ⟨c, -, hx⟩; exact actual_good.clean c hx
  have hsep : ∀ d, Separator d → ∀ s : List UInt8, d ∉ s.flatMap actual := by
    intro d hd s
    rw [List.mem_flatMap]; rintro ⟨c, -, hx⟩; exact actual_clean d hd c hx
  refine ⟨fun s => s.flatMap actual, fun s t h => customEncode_spec actual_good junk s t h, h0, fun s t => List.flatMap_append, hsep, ?_⟩
  intro d1 d2 h1 h2 h12 fields max hne hm hf t
  refine ⟨?_, fun f hf' => ⟨?_, ?_, ?_⟩⟩
  · have := split_join h1.1 (ps := fields.map fun f => f.1.flatMap actual ++ d2 :: f.2.flatMap actual) (max := max) (by simpa using hne) (by
      intro p hp
      rw [List.mem_map] at hp
      obtain ⟨f, -, rfl⟩ := hp
      simp only [List.mem_append, List.mem_cons, not_or]
      exact ⟨⟨hsep d1 h1 _, h12, hsep d1 h1 _⟩, h0 _, Ne.symm h2.1, h0 _⟩) (by simpa using hm) t
    rw [this, List.map_map]
    rfl
  · have := split_join h2.1 (ps := [f.1.flatMap actual, f.2.flatMap actual]) (max := 1) (by simp) (by
      intro p hp
      simp only [List.mem_cons, List.not_mem_nil, or_false] at hp
      rcases hp with rfl | rfl <;> exact ⟨hsep d2 h2 _, h0 _⟩) (by simp) []
    simpa [List.intercalate, List.intersperse] using this
  · rw [url_decode_correct _ _ (h0 _), denote_actual]; rfl
  · rw [url_decode_correct _ _ (h0 _), denote_actual]; rfl

/-- Not vacuous: the names `a&` and `=` with the values `b c` and the empty string, sent as `a%26=b+c&%3D=`. -/
example : ([([97, 38], [98, 32, 99]), ([61], [])] : List (List UInt8 × List UInt8)) ≠ [] ∧
    List.intercalate [38] [actual 97 ++ actual 38 ++ 61 :: ([98, 32, 99] : List UInt8).flatMap actual, actual 61 ++ [61]] =
      ("a%26=b+c&%3D=".toList.map fun c => UInt8.ofNat c.toNat) := by decide +kernel

end Verif.Url
