import Verif.Proofs.Idna13
import Verif.Props.Category13
import Verif.Props.Puny

/-! Facts for `charstr_idna_encode` with the data of Unicode 13. -/

set_option autoImplicit false

namespace Verif.Unicode
open Verif.Spec.Unicode

mutual
theorem full_avoids {dm : Nat → Option (List Nat)} {k : Nat} (hk : 0x11C3 ≤ k) (hm : ∀ cp l, dm cp = some l → k ∉ l) {cp : Nat} {d : List Nat} :
    Full dm cp d → cp ≠ k → k ∉ d
  | .mapped h1 h2, _ => fullAll_avoids hk hm h2 (hm _ _ h1)
  | .hangul _ _ _ _, _ => by
    simp only [jamo]
    split <;> simp only [List.mem_cons, List.not_mem_nil, or_false, not_or] <;> omega
  | .self _ _, h => by simpa using h.symm
theorem fullAll_avoids {dm : Nat → Option (List Nat)} {k : Nat} (hk : 0x11C3 ≤ k) (hm : ∀ cp l, dm cp = some l → k ∉ l) {cps d : List Nat} :
    FullAll dm cps d → k ∉ cps → k ∉ d
  | .nil, _ => by simp
  | .cons h1 h2, h => by
    simp only [List.mem_cons, not_or] at h
    simp only [List.mem_append, not_or]
    exact ⟨full_avoids hk hm h1 (Ne.symm h.1), fullAll_avoids hk hm h2 h.2⟩
end

/-- What composition adds are composites. -/
theorem compose_mem {ccc : Nat → Nat} {pc : Nat → Nat → Nat → Prop} {x l y : List Nat} (h : Compose ccc pc x l y) :
    ∀ p ∈ y, p ∈ x ∨ p ∈ l ∨ ∃ s c, Composite pc s c p := by
  induction h with
  | nil => intro p hp; exact .inl hp
  | @cons x c x' l y h1 _ ih =>
    intro p hp
    rcases ih p hp with h | h | h
    · cases h1 with
      | @compose a s b _ q _ _ _ hc =>
        simp only [List.mem_append, List.mem_cons] at h ⊢
        rcases h with h | rfl | h
        · exact .inl (.inl h)
        · exact .inr (.inr ⟨_, _, hc⟩)
        · exact .inl (.inr (.inr h))
      | keep _ =>
        simp only [List.mem_append, List.mem_singleton] at h
        rcases h with h | rfl
        · exact .inl h
        · exact .inr (.inl (by simp))
    · exact .inr (.inl (List.mem_cons_of_mem _ h))
    · exact .inr (.inr h)

end Verif.Unicode

namespace Verif.Puny
open Verif.Unidata Verif.Unicode Verif.UniGen Verif.Spec.Unicode Verif.IdnaGen Verif.Categorize Verif.Spec.Uts46 Verif.Spec.Punycode
open Verif.Spec.Utf8 (IsScalar)

theorem rows_avoid : (unicodeData.every fun _ _ v => v.2.all fun c => c != 0x3134A) = true := by decide +kernel

theorem decomp_avoids (cp : Nat) (l : List Nat) (h : unicode13.decomp cp = some l) : 0x3134A ∉ l := by
  rw [unicode13_eq] at h
  obtain ⟨ccc, hl, _⟩ := decomp_row h
  obtain ⟨hi, hm⟩ := row_mem hl
  have := every_mem rows_avoid _ _ _ hm
  intro h0
  rw [List.all_eq_true] at this
  simpa using this _ h0

theorem decomp_lost : unicode13.decomp 0x3134A = none ∧ unicode13.decomp 0x2FA1D = some [0x2A600] := by
  rw [unicode13_eq]; decide +kernel

theorem composite_lost {s c p : Nat} (h : Composite (pairs unicode13) s c p) : p ≠ 0x3134A ∧ p ≠ 0x2FA1D := by
  cases h with
  | table h =>
    have h := ((composite_iff13 s c p).1 h).1
    rw [← decomp_iff] at h
    constructor <;> rintro rfl
    · rw [decomp_lost.1] at h; cases h
    · rw [decomp_lost.2] at h; simp at h
  | lv h1 h2 => simp only [syllable]; omega
  | lvt h1 h2 h3 h4 => simp only [syllable]; omega

/-- Normalization form C does not contain U+2FA1D, and U+3134A if the text does. -/
theorem nfc_lost {x y : List Nat} (h : NFC13 x y) : 0x2FA1D ∉ y ∧ (0x3134A ∉ x → 0x3134A ∉ y) := by
  obtain ⟨d, h1, h2⟩ := nfc_primary.1 h
  obtain ⟨f, h3, rfl⟩ := nfd_iff.1 h1
  have hm := compose_mem h2
  constructor
  · intro hy
    rcases hm _ hy with h | h | ⟨s, c, h⟩
    · simp at h
    · have := (fullAll_atoms tables h3 _ ((ord_perm f).mem_iff.1 h)).1
      rw [decomp_lost.2] at this
      cases this
    · exact (composite_lost h).2 rfl
  · intro hx hy
    rcases hm _ hy with h | h | ⟨s, c, h⟩
    · simp at h
    · exact fullAll_avoids (by omega) decomp_avoids h3 hx ((ord_perm f).mem_iff.1 h)
    · exact (composite_lost h).1 rfl

/-! ### Mapping -/

theorem mapText_iff {f : Nat → Option (List Nat)} {x z : List Nat} : mapText f x = some z ↔ ∃ ms, List.Forall₂ (fun c m => f c = some m) x ms ∧ z = ms.flatten := by
  induction x generalizing z with
  | nil => simp [mapText, eq_comm]
  | cons c x ih =>
    simp only [mapText]
    constructor
    · intro h
      cases hc : f c with
      | none => simp [hc] at h
      | some m =>
        cases hr : mapText f x with
        | none => simp [hc, hr] at h
        | some r =>
          simp only [hc, hr, Option.some.injEq] at h
          subst h
          obtain ⟨ms, h1, rfl⟩ := ih.1 hr
          exact ⟨m :: ms, .cons hc h1, rfl⟩
    · rintro ⟨_, h, rfl⟩
      cases h with
      | cons h1 h2 => rw [h1, ih.2 ⟨_, h2, rfl⟩]; rfl

theorem processed_iff {x z : List Nat} (hx : ∀ c ∈ x, IsScalar c) (h1 : 0x2FA1D ∉ x) (h2 : 0x3134A ∉ x) : mapText map13 x = some z ↔ Processed x z := by
  rw [mapText_iff, Processed]
  refine exists_congr fun ms => and_congr ?_ Iff.rfl
  have : ∀ c ∈ x, ∀ m, map13 c = some m ↔ Step c (some m) := by
    intro c hc m
    have hlt : c < 0x110000 := by have := hx c hc; simp only [IsScalar] at this; omega
    rw [map13, if_neg (by rintro (rfl | rfl); exacts [h1 hc, h2 hc])]
    constructor
    · intro h; rw [← h]; exact uts46_step hlt
    · intro h; exact step_unique (uts46_step hlt) h
  clear hx h1 h2
  induction x generalizing ms with
  | nil => cases ms <;> simp
  | cons c x ih =>
    cases ms with
    | nil => simp
    | cons m ms =>
      rw [List.forall₂_cons, List.forall₂_cons]
      exact and_congr (this c (by simp) m) (ih ms fun a ha => this a (List.mem_cons_of_mem _ ha))

/-! ### Marks -/

/-- The gaps before a lone spacing mark. -/
def markGaps : List (Nat × Nat) := (wrongs13.filter fun g => g.2.2 == .Mc).map fun g => (g.1, g.2.1)

def inGap (c : Nat) : Bool := markGaps.any fun g => Nat.ble g.1 c && Nat.ble c g.2

theorem idnaTable_marks : (idnaTable.every fun lo hi v => (v.1 != .valid && v.1 != .deviation || markGaps.all fun g => Nat.blt hi g.1 || Nat.blt g.2 lo)) = true := by
  decide +kernel

/-- Characters that replace others are kept. -/
theorem idnaTable_closed : (idnaTable.every fun _ _ v => v.1 != .mapped || v.2.all fun c => match idnaTable.lookup c with
    | some (.valid, _) => true
    | _ => false) = true := by decide +kernel

/-- ASCII capitals are not kept. -/
theorem idnaTable_capitals : (idnaTable.every fun lo hi v => v.1 != .valid && v.1 != .deviation || Nat.blt hi 65 || Nat.blt 90 lo) = true := by decide +kernel

/-- What the mapping leaves is valid or deviation. -/
def Kept (c : Nat) : Prop := ∃ m, Row c .valid m ∨ Row c .deviation m

theorem step_kept {c : Nat} {m : List Nat} (h : Step c (some m)) : ∀ d ∈ m, Kept d := by
  cases h with
  | valid m h => simpa using ⟨m, .inl h⟩
  | deviation m h => simpa using ⟨m, .inr h⟩
  | ignored => simp
  | mapped _ h =>
    intro d hd
    obtain ⟨lo, hi, hm, _, _⟩ := h
    have h6 := every_mem idnaTable_closed _ _ _ hm
    simp only [bne_self_eq_false, Bool.false_or, List.all_eq_true] at h6
    have h7 := h6 d hd
    split at h7
    · rename_i m' h8
      exact ⟨m', .inl (row_iff.2 h8)⟩
    · cases h7

theorem processed_kept {x z : List Nat} (h : Processed x z) : ∀ d ∈ z, Kept d := by
  obtain ⟨ms, h1, rfl⟩ := h
  intro d hd
  induction h1 with
  | nil => cases hd
  | cons h _ ih =>
    rcases List.mem_append.1 (List.flatten_cons ▸ hd) with hd | hd
    · exact step_kept h d hd
    · exact ih hd

theorem kept_facts {c : Nat} (h : Kept c) : inGap c = false ∧ ¬ (65 ≤ c ∧ c ≤ 90) := by
  obtain ⟨m, h⟩ := h
  have : ∃ s, (s = .valid ∨ s = .deviation) ∧ Row c s m := by
    rcases h with h | h
    exacts [⟨_, .inl rfl, h⟩, ⟨_, .inr rfl, h⟩]
  obtain ⟨s, hs, lo, hi, hm, h1, h2⟩ := this
  have a := every_mem idnaTable_marks _ _ _ hm
  have b := every_mem idnaTable_capitals _ _ _ hm
  have e : (s != .valid && s != .deviation) = false := by rcases hs with rfl | rfl <;> rfl
  simp only [e, Bool.false_or, List.all_eq_true, Bool.or_eq_true, Nat.blt_eq] at a b
  constructor
  · rw [inGap, List.any_eq_false]
    intro g hg
    simp only [Bool.and_eq_true, Nat.ble_eq]
    have := a g hg
    omega
  · omega

theorem category_mark {code : Code Cat} (h : code13 = .ok code) (c : Nat) (hc : inGap c = false) :
    category .Cn code c = .Mc ↔ Assigned lines13 c .Mc := by
  constructor
  · intro hm
    by_cases ha : ∃ x, Assigned lines13 c x
    · obtain ⟨x, hx⟩ := ha
      have := category13_exact_partial h c x hx
      rw [hm] at this
      rwa [this]
    · push Not at ha
      obtain ⟨g, hg, h1, h2, h3⟩ := (category13_wrong_iff h c .Mc (by decide)).1 ⟨ha, hm⟩
      rw [inGap, List.any_eq_false] at hc
      have := hc (g.1, g.2.1) (List.mem_map.2 ⟨g, List.mem_filter.2 ⟨hg, by simp [h3]⟩, rfl⟩)
      simp only [Bool.and_eq_true, Nat.ble_eq] at this
      omega
  · exact category13_exact_partial h c .Mc

theorem mem_splitOn {x l : List Nat} (hl : l ∈ x.splitOn 0x2E) {c : Nat} (hcl : c ∈ l) : c ∈ x := by
  rw [← List.intercalate_splitOn (xs := x) 0x2E]
  generalize x.splitOn 0x2E = ls at hl
  induction ls with
  | nil => cases hl
  | cons a ls ih =>
    have e : ∀ b ls', ls = b :: ls' → [0x2E].intercalate (a :: ls) = a ++ 0x2E :: [0x2E].intercalate ls := by
      rintro b ls' rfl
      simp [List.intercalate, List.intersperse]
    rcases List.mem_cons.1 hl with rfl | hl
    · cases ls with
      | nil => simpa [List.intercalate, List.intersperse] using hcl
      | cons b ls' => rw [e b ls' rfl]; simp [hcl]
    · cases ls with
      | nil => cases hl
      | cons b ls' => rw [e b ls' rfl]; simp [ih hl]

theorem host_congr {mark mark' : Nat → Bool} {x : List Nat} (h : ∀ c ∈ x, mark c = mark' c) (o : List UInt8) : HostAscii mark x o ↔ HostAscii mark' x o := by
  have : ∀ l ∈ x.splitOn 0x2E, Acceptable mark l ↔ Acceptable mark' l := by
    intro l hl
    refine and_congr Iff.rfl (and_congr Iff.rfl (forall_congr' fun c => forall_congr' fun hc => ?_))
    rw [h c (mem_splitOn hl (List.mem_of_head? hc))]
  exact and_congr Iff.rfl (and_congr (forall_congr' fun l => forall_congr' fun hl => this l hl) Iff.rfl)

theorem long_congr {mark mark' : Nat → Bool} {x : List Nat} (h : ∀ c ∈ x, mark c = mark' c) : LongAscii mark x ↔ LongAscii mark' x := by
  have : ∀ l ∈ x.splitOn 0x2E, Acceptable mark l ↔ Acceptable mark' l := by
    intro l hl
    refine and_congr Iff.rfl (and_congr Iff.rfl (forall_congr' fun c => forall_congr' fun hc => ?_))
    rw [h c (mem_splitOn hl (List.mem_of_head? hc))]
  unfold LongAscii
  refine and_congr Iff.rfl ?_
  constructor
  · rintro ⟨b, l, a, es, h1, h2, h3, h4, h5, h6, h7⟩
    exact ⟨b, l, a, es, h1, fun k hk => (this k (by rw [h1]; simp [hk])).1 (h2 k hk), h3, h4, h5, (this l (by rw [h1]; simp)).1 h6, h7⟩
  · rintro ⟨b, l, a, es, h1, h2, h3, h4, h5, h6, h7⟩
    exact ⟨b, l, a, es, h1, fun k hk => (this k (by rw [h1]; simp [hk])).2 (h2 k hk), h3, h4, h5, (this l (by rw [h1]; simp)).2 h6, h7⟩

/-- Without capitals the ASCII form decodes to the label. -/
theorem toAscii_exact {l : List Nat} {e : List UInt8} (h : ToAscii l e) (hl : ∀ c ∈ l, ¬ (65 ≤ c ∧ c ≤ 90)) :
    (∀ c ∈ l, c < 128) ∧ e.map UInt8.toNat = l ∨ ∃ p, e = [0x78, 0x6E, 0x2D, 0x2D] ++ p ∧ decode p = some l := by
  have : l.map lower = l := by
    conv_rhs => rw [← List.map_id l]
    exact List.map_congr_left fun c hc => if_neg (hl c hc)
  rcases h with ⟨h1, h2⟩ | ⟨_, p, h1, h2, _⟩
  · refine .inl ⟨h1, ?_⟩
    rw [h2, List.map_map]
    conv_rhs => rw [← List.map_id l]
    refine List.map_congr_left fun c hc => ?_
    have := h1 c hc
    simp only [Function.comp, lower, if_neg (hl c hc), UInt8.toNat_ofNat', id]
    omega
  · rw [this] at h2
    exact .inr ⟨p, h1, h2⟩

end Verif.Puny
