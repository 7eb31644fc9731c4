import Verif.Proofs.PunyDigits
import Verif.Proofs.NormalText

/-! The first pass of the Punycode encoder. -/

namespace Verif.Puny
open Verif.Spec Verif.Utf8 Verif.Charstr
open Verif.Spec.Utf8 (IsScalar enc width form)
open Verif.Spec.Unicode (encs)
open Verif.Unicode (encs_cons)

/-- The position at the start of the text of `x`, of which `r` is what follows. -/
def at' (x : List Nat) (r : List UInt8) : Pos := (encs x ++ r, some (encs x).length)

theorem decode_at {c : Nat} (hc : IsScalar c) (x : List Nat) (r : List UInt8) : decode (at' (c :: x) r) = .ok (some (c, at' x r)) := by
  have hl := legal_loose (p := enc c) (cp := c) ⟨hc, rfl⟩
  simp only [at', encs_cons]
  refine decode_some.2 ⟨enc c, hl, by simp, ?_, ?_⟩
  · intro n hn
    simp only [Option.some.injEq] at hn
    subst hn; simp
  · simp [advN]

theorem enc_head {c : Nat} (hc : IsScalar c) : ∃ b t, enc c = b :: t ∧ (∀ k : UInt8, k.toNat < 128 → (b = k ↔ c = k.toNat)) := by
  have hlt : c < 0x110000 := by simp only [IsScalar] at hc; omega
  simp only [enc, width]
  split_ifs
  all_goals
    simp only [form]
    refine ⟨_, _, rfl, fun k hk => ?_⟩
    rw [← UInt8.toNat_inj, UInt8.toNat_ofNat']
    omega

theorem at_cons {c : Nat} (hc : IsScalar c) (x : List Nat) (r : List UInt8) : (at' (c :: x) r).2 ≠ some 0 ∧
    ∃ b t, (at' (c :: x) r).1 = b :: t ∧ (∀ k : UInt8, k.toNat < 128 → (b = k ↔ c = k.toNat)) := by
  obtain ⟨b, t, h1, h2⟩ := enc_head hc
  simp only [at', encs_cons, h1]
  exact ⟨by simp, b, _, rfl, h2⟩

theorem at_nil (r : List UInt8) : (at' [] r).2 = some 0 := rfl

/-- The label at the start of the text. -/
def lab (x : List Nat) : List Nat := x.takeWhile (· ≠ 0x2E)

/-- What follows it. -/
def rest (x : List Nat) : List Nat := x.dropWhile (· ≠ 0x2E)

theorem lab_dot (x : List Nat) : lab (0x2E :: x) = [] := by simp [lab]
theorem rest_dot (x : List Nat) : rest (0x2E :: x) = 0x2E :: x := by simp [rest]
theorem lab_cons {c : Nat} (h : c ≠ 0x2E) (x : List Nat) : lab (c :: x) = c :: lab x := by simp [lab, h]
theorem rest_cons {c : Nat} (h : c ≠ 0x2E) (x : List Nat) : rest (c :: x) = rest x := by simp [rest, h]

/-! ### The sorted array -/

theorem place_spec (c : Nat) (l : List Nat) (hs : l.Pairwise (· < ·)) : ∀ i, (c ∈ l ∧ place c l i = none) ∨
    (c ∉ l ∧ ∃ u v, l = u ++ v ∧ (∀ y ∈ u, y < c) ∧ (∀ y ∈ v, c < y) ∧ place c l i = some (i + u.length)) := by
  induction l with
  | nil => intro i; right; exact ⟨by simp, [], [], rfl, by simp, by simp, rfl⟩
  | cons a as ih =>
    intro i
    rw [List.pairwise_cons] at hs
    rw [place]
    by_cases h : a ≤ c
    · rw [if_pos h]
      by_cases h' : a = c
      · rw [if_pos h']; left; exact ⟨by simp [h'], rfl⟩
      · rw [if_neg h']
        rcases ih hs.2 (i + 1) with ⟨h1, h2⟩ | ⟨h1, u, v, rfl, h3, h4, h5⟩
        · left; exact ⟨List.mem_cons_of_mem _ h1, h2⟩
        · right
          refine ⟨?_, a :: u, v, rfl, ?_, h4, ?_⟩
          · simp only [List.mem_cons, not_or]; exact ⟨fun h => h' h.symm, h1⟩
          · intro y hy
            rcases List.mem_cons.1 hy with rfl | hy
            · omega
            · exact h3 y hy
          · rw [h5]; simp; omega
    · rw [if_neg h]
      right
      refine ⟨?_, [], a :: as, rfl, by simp, ?_, by simp⟩
      · intro hc
        rcases List.mem_cons.1 hc with rfl | hc
        · omega
        · have := hs.1 _ hc; omega
      · intro y hy
        rcases List.mem_cons.1 hy with rfl | hy
        · omega
        · have := hs.1 _ hy; omega

theorem record_spec {c cap : Nat} {l : List Nat} (hs : l.Pairwise (· < ·)) (hl : l.length < cap) :
    ∃ l', recordNonascii c l cap = .ok l' ∧ l'.Pairwise (· < ·) ∧ (∀ y, y ∈ l' ↔ y ∈ l ∨ y = c) ∧ l'.length ≤ l.length + 1 := by
  rw [recordNonascii]
  rcases place_spec c l hs 0 with ⟨h1, h2⟩ | ⟨h1, u, v, rfl, h3, h4, h5⟩
  · rw [h2]
    exact ⟨l, rfl, hs, fun y => ⟨Or.inl, fun h => h.elim id fun h => h ▸ h1⟩, by omega⟩
  · rw [h5]
    simp only [hl, if_true, Nat.zero_add, List.take_left, List.drop_left]
    refine ⟨_, rfl, ?_, ?_, ?_⟩
    · rw [List.pairwise_append] at hs ⊢
      refine ⟨hs.1, List.pairwise_cons.2 ⟨h4, hs.2.1⟩, fun a ha b hb => ?_⟩
      rcases List.mem_cons.1 hb with rfl | hb
      · exact h3 a ha
      · exact hs.2.2 a ha b hb
    · intro y; simp only [List.mem_append, List.mem_cons]; tauto
    · simp; omega

/-! ### The loop -/

/-- A letter or a digit. -/
def Alnum (c : Nat) : Prop := 48 ≤ c ∧ c ≤ 57 ∨ 65 ≤ c ∧ c ≤ 90 ∨ 97 ≤ c ∧ c ≤ 122

instance (c : Nat) : Decidable (Alnum c) := by unfold Alnum; infer_instance

theorem hasClass_alnum {c : Nat} (h : c < 128) : hasClass (UInt8.ofNat c) ALNUM = decide (Alnum c) := by
  have : ∀ c : Fin 128, hasClass (UInt8.ofNat c.val) ALNUM = decide (Alnum c.val) := by decide +kernel
  exact this ⟨c, h⟩

theorem lcase_lower {c : Nat} (h : c < 128) : lcaseChar (UInt8.ofNat c) = UInt8.ofNat (Punycode.lower c) := by
  have : ∀ c : Fin 128, lcaseChar (UInt8.ofNat c.val) = UInt8.ofNat (Punycode.lower c.val) := by decide +kernel
  exact this ⟨c, h⟩

/-- What the loop accepts. -/
def Good (id : Idna) (first : Bool) (l : List Nat) : Prop :=
  (∀ c ∈ l, c < 128 → c = 0x2D ∨ Alnum c) ∧ (first = true → ∀ c l', l = c :: l' → 128 ≤ c → id.mc c = false)

/-- The ASCII characters of a label, in lower case. -/
def basics (l : List Nat) : List UInt8 := (l.filter (· < 128)).map fun c => UInt8.ofNat (Punycode.lower c)

theorem pass1Loop_stop (id : Idna) (cap : Nat) (x : List Nat) (r : List UInt8) (first : Bool) (a : List UInt8) (na : List Nat)
    (h : x = [] ∨ ∃ y, x = 0x2E :: y) : pass1Loop id cap (at' x r) first a na = .ok (some (at' x r, a, na)) := by
  rw [pass1Loop]
  rcases h with rfl | ⟨y, rfl⟩
  · rw [if_pos (at_nil r)]
  · obtain ⟨h0, b, t, h1, h2⟩ := at_cons (c := 0x2E) (by simp [IsScalar]) y r
    rw [if_neg h0]
    have hb : b = 0x2E := (h2 0x2E (by decide)).2 (by decide)
    simp only [h1, hb, if_true]

theorem pass1Loop_cons (id : Idna) (cap : Nat) {c : Nat} (hc : IsScalar c) (h : c ≠ 0x2E) (x : List Nat) (r : List UInt8) (first : Bool)
    (a : List UInt8) (na : List Nat) : pass1Loop id cap (at' (c :: x) r) first a na =
      if c < 128 then
        if c ≠ 0x2D ∧ ¬ Alnum c then .ok none
        else if a.length < cap then pass1Loop id cap (at' x r) false (a ++ [UInt8.ofNat (Punycode.lower c)]) na else .error .ub
      else if first && id.mc c then .ok none
      else match recordNonascii c na cap with
        | .error e => .error e
        | .ok na => pass1Loop id cap (at' x r) false a na := by
  rw [pass1Loop]
  obtain ⟨h0, b, t, h1, h2⟩ := at_cons hc x r
  rw [if_neg h0]
  have hb : b ≠ 0x2E := fun hb => h ((h2 0x2E (by decide)).1 hb)
  have hd := decode_at hc x r
  simp only [h1, if_neg hb]
  split
  · rename_i e he; rw [hd] at he; cases he
  · rename_i he; rw [hd] at he; cases he
  · rename_i cp q he
    rw [hd] at he
    cases he
    by_cases h128 : c < 128
    · rw [if_pos h128, if_pos h128, hasClass_alnum h128, lcase_lower h128]
      simp only [decide_eq_false_iff_not]
    · rw [if_neg h128, if_neg h128]
      rfl

open Classical in
theorem pass1Loop_spec (id : Idna) (cap : Nat) (r : List UInt8) (x : List Nat) : ∀ (first : Bool) (a : List UInt8) (na : List Nat),
    (∀ c ∈ x, IsScalar c) → na.Pairwise (· < ·) → a.length + x.length ≤ cap → na.length + x.length ≤ cap →
    ∃ na' : List Nat, na'.Pairwise (· < ·) ∧ (∀ c, c ∈ na' ↔ c ∈ na ∨ c ∈ lab x ∧ 128 ≤ c) ∧
      pass1Loop id cap (at' x r) first a na = .ok (if Good id first (lab x) then some (at' (rest x) r, a ++ basics (lab x), na') else none) := by
  induction x with
  | nil =>
    intro first a na _ hs _ _
    refine ⟨na, hs, by simp [lab], ?_⟩
    rw [pass1Loop_stop _ _ _ _ _ _ _ (.inl rfl), if_pos (by simp [Good, lab])]
    simp [basics, lab, rest]
  | cons c x ih =>
    intro first a na hx hs ha hna
    simp only [List.length_cons] at ha hna
    by_cases hdot : c = 0x2E
    · subst hdot
      refine ⟨na, hs, by simp [lab_dot], ?_⟩
      rw [pass1Loop_stop _ _ _ _ _ _ _ (.inr ⟨x, rfl⟩), lab_dot, rest_dot, if_pos (by simp [Good])]
      simp [basics]
    · have hc := hx c (by simp)
      have hx' : ∀ c ∈ x, IsScalar c := fun c h => hx c (List.mem_cons_of_mem _ h)
      rw [pass1Loop_cons id cap hc hdot, lab_cons hdot, rest_cons hdot]
      by_cases h128 : c < 128
      · rw [if_pos h128]
        obtain ⟨na', h1, h2, h3⟩ := ih false (a ++ [UInt8.ofNat (Punycode.lower c)]) na hx' hs (by simp; omega) (by omega)
        refine ⟨na', h1, fun y => ?_, ?_⟩
        · rw [h2, List.mem_cons]
          constructor
          · rintro (h | ⟨h, h'⟩)
            · exact .inl h
            · exact .inr ⟨.inr h, h'⟩
          · rintro (h | ⟨rfl | h, h'⟩)
            · exact .inl h
            · omega
            · exact .inr ⟨h, h'⟩
        · by_cases hbad : c ≠ 0x2D ∧ ¬ Alnum c
          · rw [if_pos hbad, if_neg]
            rintro ⟨hg, _⟩
            rcases hg c (by simp) h128 with h | h
            · exact hbad.1 h
            · exact hbad.2 h
          · rw [if_neg hbad, if_pos (by omega), h3]
            have hiff : Good id false (lab x) ↔ Good id first (c :: lab x) := by
              constructor
              · rintro ⟨g1, _⟩
                refine ⟨fun y hy hlt => ?_, fun _ y l' he h => ?_⟩
                · rcases List.mem_cons.1 hy with rfl | hy
                  · by_contra hcon
                    exact hbad (by tauto)
                  · exact g1 y hy hlt
                · simp only [List.cons.injEq] at he; omega
              · rintro ⟨g1, _⟩
                exact ⟨fun y hy => g1 y (List.mem_cons_of_mem _ hy), by simp⟩
            simp only [hiff, basics, List.filter_cons, h128, decide_true, if_true, List.map_cons, List.append_assoc, List.cons_append, List.nil_append]
      · rw [if_neg h128]
        obtain ⟨l', hr, hp, hmem, hlen⟩ := record_spec (c := c) (cap := cap) hs (by omega)
        obtain ⟨na', h1, h2, h3⟩ := ih false a l' hx' hp (by omega) (by omega)
        refine ⟨na', h1, fun y => ?_, ?_⟩
        · rw [h2, hmem, List.mem_cons]
          constructor
          · rintro ((h | rfl) | ⟨h, h'⟩)
            · exact .inl h
            · exact .inr ⟨.inl rfl, by omega⟩
            · exact .inr ⟨.inr h, h'⟩
          · rintro (h | ⟨rfl | h, h'⟩)
            · exact .inl (.inl h)
            · exact .inl (.inr rfl)
            · exact .inr ⟨h, h'⟩
        · by_cases hbad : (first && id.mc c) = true
          · rw [if_pos hbad, if_neg]
            rintro ⟨_, hg⟩
            simp only [Bool.and_eq_true] at hbad
            have := hg hbad.1 c _ rfl (by omega)
            simp [hbad.2] at this
          · rw [if_neg hbad, hr]
            simp only
            rw [h3]
            have hiff : Good id false (lab x) ↔ Good id first (c :: lab x) := by
              constructor
              · rintro ⟨g1, _⟩
                refine ⟨fun y hy hlt => ?_, fun hf y l' he h => ?_⟩
                · rcases List.mem_cons.1 hy with rfl | hy
                  · omega
                  · exact g1 y hy hlt
                · simp only [List.cons.injEq] at he
                  obtain ⟨rfl, _⟩ := he
                  simpa [hf] using hbad
              · rintro ⟨g1, _⟩
                exact ⟨fun y hy => g1 y (List.mem_cons_of_mem _ hy), by simp⟩
            simp only [hiff, basics, List.filter_cons, h128, decide_false, Bool.false_eq_true, if_false]

end Verif.Puny
