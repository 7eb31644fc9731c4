import Verif.Model.Category13
import Verif.Props.Categorize
import Verif.Proofs.Unidata

/-! The categories of Unicode 13. -/

set_option autoImplicit false

namespace Verif.Categorize
open Verif.Unidata Verif.UniGen

abbrev Entry := Nat × Nat × (Kind × Cat)

/-- The ranges of code points with one category: entries, and first and last lines put together. -/
def fuse : List Entry → List (Nat × Nat × Cat)
  | [] => []
  | [e] => [(e.1, e.2.1, e.2.2.2)]
  | e :: e' :: es => if e.2.2.1 = .first then (e.1, e'.2.1, e.2.2.2) :: fuse es else (e.1, e.2.1, e.2.2.2) :: fuse (e' :: es)

/-- First and last lines are alone and come in pairs of one category. -/
def wellPaired : List Entry → Bool
  | [] => true
  | [e] => e.2.2.1 == .plain
  | e :: e' :: es =>
    if e.2.2.1 == .plain then wellPaired (e' :: es)
    else e.2.2.1 == .first && e'.2.2.1 == .last && e.1 == e.2.1 && e'.1 == e'.2.1 && e.2.2.2 == e'.2.2.2 && wellPaired es

/-- The ranges are in order, from `b` on. -/
def chain : Nat → List (Nat × Nat × Cat) → Bool
  | _, [] => true
  | b, r :: rs => Nat.ble b r.1 && Nat.ble r.1 r.2.1 && chain (r.2.1 + 1) rs

def chainE : Nat → List Entry → Bool
  | _, [] => true
  | b, r :: rs => Nat.ble b r.1 && Nat.ble r.1 r.2.1 && Nat.blt r.2.1 0x110000 && chainE (r.2.1 + 1) rs

theorem expand_mem {e : Entry} {r : Rec Cat} : r ∈ expand e ↔ e.1 ≤ r.cp ∧ r.cp ≤ e.2.1 ∧ r.kind = e.2.2.1 ∧ r.cat = e.2.2.2 := by
  obtain ⟨cp, k, c⟩ := r
  simp only [expand, List.mem_map, List.mem_range'_1, Rec.mk.injEq]
  constructor
  · rintro ⟨a, h, rfl, rfl, rfl⟩; exact ⟨h.1, by omega, rfl, rfl⟩
  · rintro ⟨h1, h2, rfl, rfl⟩; exact ⟨cp, by omega, rfl, rfl, rfl⟩

theorem expand_single {e : Entry} (h : e.1 = e.2.1) : expand e = [⟨e.1, e.2.2.1, e.2.2.2⟩] := by
  obtain ⟨lo, hi, k, c⟩ := e
  simp only at h
  subst h
  simp [expand]

theorem lines_bounds {b : Nat} {es : List Entry} (h : chainE b es = true) : ∀ r ∈ es.flatMap expand, b ≤ r.cp ∧ r.cp < 0x110000 := by
  induction es generalizing b with
  | nil => simp
  | cons e es ih =>
    simp only [chainE, Bool.and_eq_true, Nat.ble_eq, Nat.blt_eq] at h
    intro r hr
    rw [List.flatMap_cons, List.mem_append] at hr
    rcases hr with hr | hr
    · rw [expand_mem] at hr; omega
    · have := ih h.2 r hr; omega

theorem lines_ordered {b : Nat} {es : List Entry} (h : chainE b es = true) : Ordered (es.flatMap expand) := by
  induction es generalizing b with
  | nil => exact List.Pairwise.nil
  | cons e es ih =>
    simp only [chainE, Bool.and_eq_true, Nat.ble_eq, Nat.blt_eq] at h
    rw [List.flatMap_cons, Ordered, List.pairwise_append]
    refine ⟨?_, ih h.2, fun r hr q hq => ?_⟩
    · rw [expand, List.pairwise_map]
      exact List.pairwise_lt_range'
    · rw [expand_mem] at hr
      have := lines_bounds h.2 q hq
      omega

theorem paired_plain {l rest : List (Rec Cat)} (hl : ∀ r ∈ l, r.kind = .plain) (h : Paired rest) : Paired (l ++ rest) := by
  induction l with
  | nil => exact h
  | cons r l ih =>
    have ih := ih fun q hq => hl q (List.mem_cons_of_mem _ hq)
    have hr := hl r (by simp)
    rw [List.cons_append]
    cases hx : l ++ rest with
    | nil => exact hr
    | cons q qs => rw [hx] at ih; exact .inl ⟨hr, ih⟩

theorem lines_paired : ∀ (n : Nat) (es : List Entry) (b : Nat), es.length ≤ n → wellPaired es = true → chainE b es = true → Paired (es.flatMap expand) := by
  intro n
  induction n with
  | zero =>
    intro es b h _ _
    have : es = [] := by simpa using h
    subst this
    trivial
  | succ n ih =>
    intro es b hn h hc
    match es with
    | [] => trivial
    | [e] =>
      simp only [wellPaired, beq_iff_eq] at h
      rw [List.flatMap_cons]
      refine paired_plain (fun r hr => ?_) trivial
      rw [expand_mem] at hr; rw [hr.2.2.1, h]
    | e :: e' :: es =>
      simp only [wellPaired] at h
      simp only [chainE, Bool.and_eq_true, Nat.ble_eq, Nat.blt_eq] at hc
      split at h
      · rename_i hk
        rw [List.flatMap_cons]
        refine paired_plain (fun r hr => ?_) (ih (e' :: es) (e.2.1 + 1) (by simpa using hn) h (by simp [chainE, hc]))
        rw [expand_mem] at hr; rw [hr.2.2.1]; simpa using hk
      · simp only [Bool.and_eq_true, beq_iff_eq] at h
        obtain ⟨⟨⟨⟨⟨h1, h2⟩, h3⟩, h4⟩, h5⟩, h6⟩ := h
        rw [List.flatMap_cons, List.flatMap_cons, expand_single h3, expand_single h4]
        refine .inr ⟨h1, h2, h5.symm, ih es _ (by simp at hn; omega) h6 hc.2.2⟩

theorem infix_cons_iff {α : Type} (f l r : α) (rs : List α) : [f, l] <:+: r :: rs ↔ (f = r ∧ rs.head? = some l) ∨ [f, l] <:+: rs := by
  rw [List.infix_cons_iff]
  constructor
  · rintro (h | h)
    · left
      rw [List.cons_prefix_cons] at h
      refine ⟨h.1, ?_⟩
      obtain ⟨t, ht⟩ := h.2
      rw [← ht]; rfl
    · exact .inr h
  · rintro (⟨rfl, h⟩ | h)
    · left
      cases rs with
      | nil => cases h
      | cons q qs =>
        simp only [List.head?_cons, Option.some.injEq] at h
        subst h
        simp
    · exact .inr h

/-- A range cannot be opened by a plain line. -/
theorem infix_plain {l rest : List (Rec Cat)} (hl : ∀ r ∈ l, r.kind ≠ .first) (f q : Rec Cat) (hf : f.kind = .first) :
    [f, q] <:+: l ++ rest ↔ [f, q] <:+: rest := by
  induction l with
  | nil => rfl
  | cons r l ih =>
    rw [List.cons_append, infix_cons_iff, ih fun q hq => hl q (List.mem_cons_of_mem _ hq)]
    constructor
    · rintro (⟨rfl, _⟩ | h)
      · exact absurd hf (hl _ (by simp))
      · exact h
    · exact .inr

theorem assigned_cons {l rest : List (Rec Cat)} (hl : ∀ r ∈ l, r.kind ≠ .first) (cp : Int) (c : Cat) :
    Assigned (l ++ rest) cp c ↔ (∃ r ∈ l, (r.cp : Int) = cp ∧ r.cat = c) ∨ Assigned rest cp c := by
  simp only [Assigned, List.mem_append, or_and_right, exists_or, or_assoc]
  refine or_congr Iff.rfl (or_congr Iff.rfl ?_)
  constructor
  · rintro ⟨f, q, h, hf, h'⟩; exact ⟨f, q, (infix_plain hl f q hf).1 h, hf, h'⟩
  · rintro ⟨f, q, h, hf, h'⟩; exact ⟨f, q, (infix_plain hl f q hf).2 h, hf, h'⟩

/-- A code point has a category just if it lies in one of the ranges. -/
theorem assigned_fuse : ∀ (n : Nat) (es : List Entry) (b : Nat), es.length ≤ n → wellPaired es = true → chainE b es = true → ∀ (cp : Int) (c : Cat),
    Assigned (es.flatMap expand) cp c ↔ ∃ r ∈ fuse es, (r.1 : Int) ≤ cp ∧ cp ≤ r.2.1 ∧ r.2.2 = c := by
  intro n
  induction n with
  | zero =>
    intro es b h _ _ cp c
    have : es = [] := by simpa using h
    subst this
    simp only [List.flatMap_nil, fuse, Assigned, List.not_mem_nil, false_and, exists_false, false_or, iff_false, not_exists]
    rintro f l ⟨h, _⟩
    simp [List.infix_nil] at h
  | succ n ih =>
    intro es b hn h hc cp c
    have hone : ∀ e : Entry, (∃ r ∈ expand e, (r.cp : Int) = cp ∧ r.cat = c) ↔ (e.1 : Int) ≤ cp ∧ cp ≤ e.2.1 ∧ e.2.2.2 = c := by
      intro e
      constructor
      · rintro ⟨r, hr, rfl, rfl⟩
        rw [expand_mem] at hr
        exact ⟨by omega, by omega, hr.2.2.2.symm⟩
      · rintro ⟨h1, h2, rfl⟩
        exact ⟨⟨cp.toNat, e.2.2.1, e.2.2.2⟩, expand_mem.2 ⟨by simp only; omega, by simp only; omega, rfl, rfl⟩, by simp only; omega, rfl⟩
    match es with
    | [] =>
      simp only [List.flatMap_nil, fuse, Assigned, List.not_mem_nil, false_and, exists_false, false_or, iff_false, not_exists]
      rintro f l ⟨h, _⟩
      simp [List.infix_nil] at h
    | [e] =>
      simp only [wellPaired, beq_iff_eq] at h
      rw [List.flatMap_cons, assigned_cons (fun r hr => by rw [(expand_mem.1 hr).2.2.1, h]; decide), hone, ih [] 0 (by simp) rfl rfl]
      simp [fuse]
    | e :: e' :: es =>
      simp only [wellPaired] at h
      simp only [chainE, Bool.and_eq_true, Nat.ble_eq, Nat.blt_eq] at hc
      split at h
      · rename_i hk
        simp only [beq_iff_eq] at hk
        rw [List.flatMap_cons, assigned_cons (fun r hr => by rw [(expand_mem.1 hr).2.2.1, hk]; decide), hone,
          ih (e' :: es) (e.2.1 + 1) (by simpa using hn) h (by simp [chainE, hc]), fuse, if_neg (by rw [hk]; decide)]
        simp
      · simp only [Bool.and_eq_true, beq_iff_eq] at h
        obtain ⟨⟨⟨⟨⟨h1, h2⟩, h3⟩, h4⟩, h5⟩, h6⟩ := h
        have hl : ∀ r ∈ [(⟨e'.1, e'.2.2.1, e'.2.2.2⟩ : Rec Cat)], r.kind ≠ .first := by simp [h2]
        rw [fuse, if_pos h1, List.flatMap_cons, List.flatMap_cons, expand_single h3, expand_single h4]
        have ih := ih es _ (by simp at hn; omega) h6 hc.2.2 cp c
        have hstep : Assigned ([⟨e.1, e.2.2.1, e.2.2.2⟩] ++ ([⟨e'.1, e'.2.2.1, e'.2.2.2⟩] ++ es.flatMap expand)) cp c ↔
            ((e.1 : Int) ≤ cp ∧ cp ≤ e'.2.1 ∧ e.2.2.2 = c) ∨ Assigned (es.flatMap expand) cp c := by
          constructor
          · intro h
            · rcases h with ⟨r, hr, rfl, rfl⟩ | ⟨f, q, hfq, hf, hq, g1, g2, rfl⟩
              · rw [List.mem_append, List.mem_singleton] at hr
                rcases hr with rfl | hr
                · exact .inl ⟨le_refl _, by simp only; omega, rfl⟩
                · rcases (assigned_cons hl r.cp r.cat).1 (.inl ⟨r, hr, rfl, rfl⟩) with ⟨q, hq, hq1, hq2⟩ | h
                  · rw [List.mem_singleton] at hq
                    subst hq
                    simp only at hq1 hq2
                    left; exact ⟨by omega, by omega, by rw [h5, hq2]⟩
                  · exact .inr h
              · rw [List.singleton_append, infix_cons_iff] at hfq
                rcases hfq with ⟨rfl, hh⟩ | hfq
                · simp only [List.singleton_append, List.head?_cons, Option.some.injEq] at hh
                  subst hh
                  simp only at g1 g2
                  left; exact ⟨by omega, by omega, h5⟩
                · rw [infix_plain hl f q hf] at hfq
                  exact .inr (.inr ⟨f, q, hfq, hf, hq, g1, g2, rfl⟩)
          · rintro (⟨g1, g2, rfl⟩ | h)
            · by_cases ha : cp = e.1
              · exact .inl ⟨⟨e.1, e.2.2.1, e.2.2.2⟩, by simp, ha.symm, rfl⟩
              · by_cases hb : cp = e'.1
                · exact .inl ⟨⟨e'.1, e'.2.2.1, e'.2.2.2⟩, by simp, hb.symm, h5.symm⟩
                · exact .inr ⟨_, _, ⟨[], es.flatMap expand, rfl⟩, h1, h2, by simp only; omega, by simp only; omega, h5.symm⟩
            · have h' := (assigned_cons hl cp c).2 (.inr h)
              rcases h' with ⟨r, hr, h'⟩ | ⟨f, q, hfq, h'⟩
              · exact .inl ⟨r, List.mem_append_right _ hr, h'⟩
              · exact .inr ⟨f, q, hfq.trans (List.suffix_append _ _).isInfix, h'⟩
        rw [hstep, ih]
        simp

/-! ### What the emitted function returns -/

/-- The first range is that of the category `c` beginning at `n`. -/
def starts (rs : List (Nat × Nat × Cat)) (n : Nat) (c : Cat) : Bool :=
  match rs with
  | [] => false
  | r :: _ => r.1 == n && r.2.2 == c

/-- The result: the category of a code point in a range, `Cn` for others, unless the next assigned code point stands alone. -/
def result : List (Nat × Nat × Cat) → Nat → Cat
  | [], _ => .Cn
  | r :: rs, n => if n < r.1 then (if r.1 = r.2.1 ∧ starts rs (r.1 + 1) r.2.2 = false then r.2.2 else .Cn) else if n ≤ r.2.1 then r.2.2 else result rs n

theorem chain_mem {b : Nat} {rs : List (Nat × Nat × Cat)} (h : chain b rs = true) : ∀ r ∈ rs, b ≤ r.1 ∧ r.1 ≤ r.2.1 := by
  induction rs generalizing b with
  | nil => simp
  | cons r rs ih =>
    simp only [chain, Bool.and_eq_true, Nat.ble_eq] at h
    intro q hq
    rcases List.mem_cons.1 hq with rfl | hq
    · omega
    · have := ih h.2 q hq; omega

/-- The category of each code point in the ranges. -/
def In (rs : List (Nat × Nat × Cat)) (n : Int) (c : Cat) : Prop := ∃ r ∈ rs, (r.1 : Int) ≤ n ∧ n ≤ r.2.1 ∧ r.2.2 = c

theorem in_unique {b : Nat} {rs : List (Nat × Nat × Cat)} (h : chain b rs = true) {n : Int} {c d : Cat} (hc : In rs n c) (hd : In rs n d) : c = d := by
  induction rs generalizing b with
  | nil => obtain ⟨r, hr, _⟩ := hc; simp at hr
  | cons r rs ih =>
    simp only [chain, Bool.and_eq_true, Nat.ble_eq] at h
    obtain ⟨p, hp, p1, p2, rfl⟩ := hc
    obtain ⟨q, hq, q1, q2, rfl⟩ := hd
    have hm := chain_mem h.2
    rcases List.mem_cons.1 hp with hp' | hp' <;> rcases List.mem_cons.1 hq with hq' | hq'
    · rw [hp', hq']
    · have := hm q hq'; rw [hp'] at p1 p2; omega
    · have := hm p hp'; rw [hq'] at q1 q2; omega
    · exact ih h.2 ⟨p, hp', p1, p2, rfl⟩ ⟨q, hq', q1, q2, rfl⟩

/-- The result for a code point that is in no range depends on the ranges behind it. -/
theorem result_gap {rs : List (Nat × Nat × Cat)} {b : Nat} (h : chain b rs = true) {n : Nat} (hn : ∀ c, ¬ In rs n c) :
    (result rs n = .Cn ∧ ∀ r ∈ rs, (r.2.1 : Int) < n) ∨
    ∃ pre r post, rs = pre ++ r :: post ∧ (∀ q ∈ pre, q.2.1 < n) ∧ n < r.1 ∧
      result rs n = if r.1 = r.2.1 ∧ starts post (r.1 + 1) r.2.2 = false then r.2.2 else .Cn := by
  induction rs generalizing b with
  | nil => exact .inl ⟨rfl, by simp⟩
  | cons r rs ih =>
    simp only [chain, Bool.and_eq_true, Nat.ble_eq] at h
    by_cases h1 : n < r.1
    · exact .inr ⟨[], r, rs, rfl, by simp, h1, by rw [result, if_pos h1]⟩
    · have h2 : r.2.1 < n := by
        by_contra h2
        exact hn r.2.2 ⟨r, by simp, by omega, by omega, rfl⟩
      rw [result, if_neg h1, if_neg (by omega)]
      rcases ih h.2 (fun c ⟨q, hq, h⟩ => hn c ⟨q, List.mem_cons_of_mem _ hq, h⟩) with ⟨g1, g2⟩ | ⟨pre, q, post, rfl, g2, g3, g4⟩
      · exact .inl ⟨g1, by simpa using ⟨by omega, by simpa using g2⟩⟩
      · exact .inr ⟨r :: pre, q, post, rfl, by simpa using ⟨h2, by simpa using g2⟩, g3, g4⟩

theorem chain_append {pre post : List (Nat × Nat × Cat)} {r : Nat × Nat × Cat} {b : Nat} (h : chain b (pre ++ r :: post) = true) :
    r.1 ≤ r.2.1 ∧ chain (r.2.1 + 1) post = true := by
  induction pre generalizing b with
  | nil => simp only [List.nil_append, chain, Bool.and_eq_true, Nat.ble_eq] at h; exact ⟨h.1.2, h.2⟩
  | cons p pre ih => simp only [List.cons_append, chain, Bool.and_eq_true] at h; exact ih h.2

theorem result_in {rs : List (Nat × Nat × Cat)} {b : Nat} (h : chain b rs = true) {n : Nat} {c : Cat} (hc : In rs n c) : result rs n = c := by
  induction rs generalizing b with
  | nil => obtain ⟨r, hr, _⟩ := hc; simp at hr
  | cons r rs ih =>
    simp only [chain, Bool.and_eq_true, Nat.ble_eq] at h
    obtain ⟨p, hp, p1, p2, rfl⟩ := hc
    rcases List.mem_cons.1 hp with rfl | hp
    · rw [result, if_neg (by omega), if_pos (by omega)]
    · have := chain_mem h.2 p hp
      rw [result, if_neg (by omega), if_neg (by omega)]
      exact ih h.2 ⟨p, hp, p1, p2, rfl⟩

/-- The emitted function for ordered lines that assign what the ranges do. -/
theorem category_result {lines : List (Rec Cat)} {code : Code Cat} {N : Nat} (ho : Ordered lines) (hm : main N lines = .ok code)
    {rs : List (Nat × Nat × Cat)} {b : Nat} (hc : chain b rs = true) (ha : ∀ (n : Int) c, Assigned lines n c ↔ In rs n c) (n : Nat) :
    category .Cn code n = result rs n := by
  by_cases hn : ∃ c, In rs n c
  · obtain ⟨c, h⟩ := hn
    rw [result_in hc h, category_exact_assigned ho hm .Cn n c ((ha n c).2 h)]
  · push Not at hn
    have hu : ∀ c, ¬ Assigned lines n c := fun c h => hn c ((ha n c).1 h)
    rcases result_gap hc hn with ⟨h1, h2⟩ | ⟨pre, r, post, rfl, h2, h3, h4⟩
    · rw [h1]
      rcases category_unassigned ho hm .Cn n hu with ⟨h, _⟩ | ⟨q, c, _, hq, hqa, _⟩
      · exact h
      · obtain ⟨r, hr, r1, r2, _⟩ := (ha q c).1 hqa
        have := h2 r hr
        omega
    · obtain ⟨k1, k2⟩ := chain_append hc
      have hr : In (pre ++ r :: post) (r.1 : Nat) r.2.2 := ⟨r, by simp, by omega, by omega, rfl⟩
      have hfirst : ∀ (x : Int) d, (n : Int) < x → x < r.1 → ¬ Assigned lines x d := by
        intro x d hx1 hx2 hx
        obtain ⟨q, hq, q1, q2, _⟩ := (ha x d).1 hx
        rw [List.mem_append, List.mem_cons] at hq
        rcases hq with hq | rfl | hq
        · have := h2 q hq; omega
        · omega
        · have := chain_mem k2 q hq; omega
      have hnext : In (pre ++ r :: post) ((r.1 : Nat) + 1 : Int) r.2.2 ↔ ¬ (r.1 = r.2.1 ∧ starts post (r.1 + 1) r.2.2 = false) := by
        constructor
        · rintro ⟨q, hq, q1, q2, q3⟩ ⟨e1, e2⟩
          rw [List.mem_append, List.mem_cons] at hq
          rcases hq with hq | rfl | hq
          · have := h2 q hq; omega
          · omega
          · cases post with
            | nil => simp at hq
            | cons p post =>
              simp only [chain, Bool.and_eq_true, Nat.ble_eq] at k2
              rcases List.mem_cons.1 hq with rfl | hq
              · simp only [starts, Bool.and_eq_false_iff, beq_eq_false_iff_ne] at e2
                rcases e2 with e2 | e2
                · omega
                · exact e2 q3
              · have := chain_mem k2.2 q hq; omega
        · intro hne
          by_cases e1 : r.1 = r.2.1
          · cases post with
            | nil => exact absurd ⟨e1, rfl⟩ hne
            | cons p post =>
              have hs : starts (p :: post) (r.1 + 1) r.2.2 = true := by
                by_contra hs
                exact hne ⟨e1, by simpa using hs⟩
              simp only [starts, Bool.and_eq_true, beq_iff_eq] at hs
              simp only [chain, Bool.and_eq_true, Nat.ble_eq] at k2
              exact ⟨p, by simp, by omega, by omega, hs.2⟩
          · exact ⟨r, by simp, by omega, by omega, rfl⟩
      rw [h4]
      rcases category_unassigned ho hm .Cn n hu with ⟨g1, g2⟩ | ⟨q, c, g1, g2, g3, g4, g5⟩
      · have := g2 r.1 r.2.2 ((ha _ _).2 hr) (by omega) hfirst
        rw [ha, hnext] at this
        rw [if_neg this, g1]
      · have hq : q = r.1 := by
          have a1 : ¬ q < r.1 := fun h => hfirst q c g2 h g3
          have a2 : ¬ (r.1 : Int) < q := fun h => g4 r.1 r.2.2 (by omega) h ((ha _ _).2 hr)
          omega
        subst hq
        have hcc := in_unique hc ((ha _ _).1 g3) hr
        subst hcc
        rw [ha, hnext, not_not] at g5
        rw [if_pos g5, g1]

/-! ### The data -/

def ranges13 : List (Nat × Nat × Cat) := fuse categoryTable.toList

theorem entries_paired : wellPaired categoryTable.toList = true := by decide +kernel
theorem entries_chain : chainE 0 categoryTable.toList = true := by decide +kernel
theorem ranges13_chain : chain 0 ranges13 = true := by decide +kernel

theorem assigned13 (cp : Int) (c : Cat) : Assigned lines13 cp c ↔ In ranges13 cp c :=
  assigned_fuse _ _ 0 (le_refl _) entries_paired entries_chain cp c

theorem lines13_ordered : Ordered lines13 := lines_ordered entries_chain
theorem lines13_paired : Paired lines13 := lines_paired _ _ 0 (le_refl _) entries_paired entries_chain

theorem lines13_ne : lines13 ≠ [] := by
  intro h
  have : Assigned lines13 0 .Cc := (assigned13 0 .Cc).2 (show ∃ r ∈ ranges13, _ from by
    refine ⟨(0, 31, .Cc), ?_, by decide, by decide, rfl⟩
    decide +kernel)
  rw [h] at this
  rcases this with ⟨r, hr, _⟩ | ⟨f, l, h, _⟩
  · simp at hr
  · simp [List.infix_nil] at h

theorem code13_spec : ∃ code, code13 = .ok code ∧ ∀ n : Nat, category .Cn code n = result ranges13 n := by
  obtain ⟨code, h⟩ := categorize_succeeds 0x110000 lines13 lines13_ne lines13_ordered lines13_paired fun r hr => (lines_bounds entries_chain r hr).2
  exact ⟨code, h, fun n => category_result lines13_ordered h ranges13_chain assigned13 n⟩

end Verif.Categorize
