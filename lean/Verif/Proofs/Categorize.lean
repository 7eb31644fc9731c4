import Verif.Model.Categorize
import Verif.Base.Tac
import Mathlib.Data.List.Basic
import Mathlib.Data.List.Infix

/-! Proofs about `Verif.Model.Categorize`. -/

namespace Verif.Categorize

variable {κ : Type} [DecidableEq κ]

/-- The first range that ends after the code point decides. -/
def firstFit (Cn : κ) : List (Range κ) → Int → Option κ
  | [], _ => none
  | r :: rs, cp => if cp < r.stop then some (ret Cn (low r) r.cat cp) else firstFit Cn rs cp

theorem exec_emitAll (Cn : κ) (rs : List (Range κ)) (cp : Int) : (emitAll rs).exec Cn cp = firstFit Cn rs cp := by
  induction rs with
  | nil => rfl
  | cons r rs ih => simp only [emitAll, Code.exec, firstFit, ih]

theorem firstFit_skip (Cn : κ) (xs ys : List (Range κ)) (cp : Int) (h : ∀ x ∈ xs, (x.stop : Int) ≤ cp) :
    firstFit Cn (xs ++ ys) cp = firstFit Cn ys cp := by
  induction xs with
  | nil => rfl
  | cons x xs ih =>
    have := h x (by simp)
    rw [List.cons_append, firstFit, if_neg (by omega), ih (fun y hy => h y (by simp [hy]))]

theorem firstFit_append (Cn : κ) (xs ys : List (Range κ)) (cp : Int) :
    firstFit Cn (xs ++ ys) cp = match firstFit Cn xs cp with
      | some c => some c
      | none => firstFit Cn ys cp := by
  induction xs with
  | nil => rfl
  | cons x xs ih =>
    rw [List.cons_append, firstFit, firstFit]
    split
    · rfl
    · rw [ih]

theorem emitBinary_exec (Cn : κ) (n : Nat) (rs : List (Range κ)) (hn : rs.length = n) (hs : rs.Pairwise fun a b => a.stop ≤ b.stop)
    {code : Code κ} (h : emitBinary rs = .ok code) (cp : Int) : code.exec Cn cp = firstFit Cn rs cp := by
  induction n using Nat.strongRecOn generalizing rs code with
  | ind n ih =>
    rw [emitBinary] at h
    split at h
    · cases h
    split at h
    · injection h with h
      rw [← h, exec_emitAll]
    · split at h
      · cases h
      · rename_i hlen r hr
        have hlt := (List.getElem?_eq_some_iff.1 hr).1
        split at h
        · cases h
        rename_i body hbody
        split at h
        · cases h
        rename_i rest hrest
        injection h with h
        subst h
        have hsplit : rs = rs.take (rs.length / 5) ++ r :: rs.drop (rs.length / 5 + 1) := by
          conv_lhs => rw [← List.take_append_drop (rs.length / 5) rs]
          rw [List.drop_eq_getElem_cons hlt, (List.getElem?_eq_some_iff.1 hr).2]
        have hb := ih _ (by simp; omega) _ rfl (hs.sublist (List.take_sublist _ _)) hbody
        have hr' := ih _ (by simp; omega) _ rfl (hs.sublist (List.drop_sublist _ _)) hrest
        simp only [Code.exec]
        rw [hb, hr']
        have hs' := hs
        rw [hsplit] at hs'
        conv_rhs => rw [hsplit]
        by_cases hc : cp < r.stop
        · rw [if_pos hc, firstFit_append]
          split
          · rename_i h; rw [h]
          · rename_i h; rw [h]; simp only [firstFit, if_pos hc]
        · rw [if_neg hc, firstFit_skip]
          · rw [firstFit, if_neg hc]
          · intro x hx
            have := (List.pairwise_append.1 hs').2.2 x hx r (by simp)
            omega

theorem emitBinary_total (n : Nat) (rs : List (Range κ)) (hn : rs.length = n) (h : rs ≠ []) : ∃ code, emitBinary rs = .ok code := by
  induction n using Nat.strongRecOn generalizing rs with
  | ind n ih =>
    have hpos : 0 < rs.length := List.length_pos_iff.2 h
    rw [emitBinary, if_neg h]
    split
    · exact ⟨_, rfl⟩
    · rename_i h5
      have hlt : rs.length / 5 < rs.length := by omega
      obtain ⟨b, hb⟩ := ih _ (by rw [List.length_take]; omega) (rs.take (rs.length / 5)) rfl
        (by rw [← List.length_pos_iff, List.length_take]; omega)
      obtain ⟨c, hc⟩ := ih _ (by rw [List.length_drop]; omega) (rs.drop (rs.length / 5 + 1)) rfl
        (by rw [← List.length_pos_iff, List.length_drop]; omega)
      split
      · rename_i hr; rw [List.getElem?_eq_none_iff] at hr; omega
      · rw [hb]; simp only []; rw [hc]; exact ⟨_, rfl⟩

/-! The ranges. -/

theorem runLength_le (c : κ) (t : List (Option κ)) : runLength c t ≤ t.length := by
  induction t with
  | nil => simp [runLength]
  | cons e t ih => simp only [runLength]; split <;> simp <;> omega

theorem runLength_in (c : κ) (t : List (Option κ)) (k : Nat) (h : k < runLength c t) : t[k]? = some (some c) := by
  induction t generalizing k with
  | nil => simp [runLength] at h
  | cons e t ih =>
    simp only [runLength] at h
    split at h
    · rename_i he
      cases k with
      | zero => simp [he]
      | succ k => simpa using ih k (by omega)
    · omega

theorem runLength_out (c : κ) (t : List (Option κ)) : t[runLength c t]? ≠ some (some c) := by
  induction t with
  | nil => simp [runLength]
  | cons e t ih =>
    simp only [runLength]
    split
    · simpa using ih
    · rename_i he; simpa using he

theorem ranges_lower (n : Nat) (t : List (Option κ)) : ∀ r ∈ ranges n t, n ≤ r.start ∧ r.start < r.stop := by
  fun_induction ranges n t with
  | case1 => simp
  | case2 n t ih => intro r hr; have := ih r hr; omega
  | case3 n c t ih =>
    intro r hr
    rw [List.mem_cons] at hr
    obtain rfl | hr := hr
    · simp; omega
    · have := ih r hr; omega

theorem ranges_sorted (n : Nat) (t : List (Option κ)) : (ranges n t).Pairwise fun a b => a.stop ≤ b.start := by
  fun_induction ranges n t with
  | case1 => simp
  | case2 n t ih => exact ih
  | case3 n c t ih =>
    refine List.pairwise_cons.2 ⟨?_, ih⟩
    intro r hr
    have := ranges_lower _ _ r hr
    simpa using this.1

/-- The ranges are exactly the entries of the table. -/
theorem ranges_mem (n : Nat) (t : List (Option κ)) (i : Nat) (c : κ) :
    (∃ r ∈ ranges n t, r.start ≤ n + i ∧ n + i < r.stop ∧ r.cat = c) ↔ t[i]? = some (some c) := by
  fun_induction ranges n t generalizing i with
  | case1 => simp
  | case2 n t ih =>
    cases i with
    | zero =>
      simp only [List.getElem?_cons_zero, Nat.add_zero]
      constructor
      · rintro ⟨r, hr, h1, h2, _⟩
        have := ranges_lower _ _ r hr
        omega
      · intro h; simp at h
    | succ i =>
      rw [List.getElem?_cons_succ, ← ih]
      simp only [show n + 1 + i = n + (i + 1) by omega]
  | case3 n d t ih =>
    by_cases hi : i < 1 + runLength d t
    · have hin : (some d :: t)[i]? = some (some d) := by
        cases i with
        | zero => simp
        | succ i => simpa using runLength_in d t i (by omega)
      rw [hin]
      constructor
      · rintro ⟨r, hr, h1, h2, h3⟩
        rw [List.mem_cons] at hr
        obtain rfl | hr := hr
        · simpa using h3
        · have := ranges_lower _ _ r hr; omega
      · intro h
        simp only [Option.some.injEq] at h
        exact ⟨_, List.mem_cons_self, by simp, by simp; omega, h⟩
    · obtain ⟨j, rfl⟩ : ∃ j, i = 1 + runLength d t + j := ⟨i - (1 + runLength d t), by omega⟩
      have := ih j
      rw [List.getElem?_drop] at this
      rw [show 1 + runLength d t + j = (runLength d t + j) + 1 by omega, List.getElem?_cons_succ, ← this]
      constructor
      · rintro ⟨r, hr, h1, h2, h3⟩
        rw [List.mem_cons] at hr
        obtain rfl | hr := hr
        · simp at h2; omega
        · exact ⟨r, hr, by omega, by omega, h3⟩
      · rintro ⟨r, hr, h1, h2, h3⟩
        exact ⟨r, List.mem_cons_of_mem _ hr, by omega, by omega, h3⟩

/-- A range stops where its category stops. -/
theorem ranges_stop (n : Nat) (t : List (Option κ)) (r : Range κ) (hr : r ∈ ranges n t) : t[r.stop - n]? ≠ some (some r.cat) := by
  fun_induction ranges n t with
  | case1 => simp at hr
  | case2 n t ih =>
    have h1 := ranges_lower _ _ r hr
    have := ih hr
    rwa [show r.stop - n = (r.stop - (n + 1)) + 1 by omega, List.getElem?_cons_succ]
  | case3 n c t ih =>
    rw [List.mem_cons] at hr
    obtain rfl | hr := hr
    · simp only
      rw [show n + 1 + runLength c t - n = runLength c t + 1 by omega, List.getElem?_cons_succ]
      exact runLength_out c t
    · have h1 := ranges_lower _ _ r hr
      have := ih hr
      rw [List.getElem?_drop] at this
      rwa [show r.stop - n = (runLength c t + (r.stop - (n + 1 + runLength c t))) + 1 by omega, List.getElem?_cons_succ]

/-! The value of the emitted function. -/

theorem firstFit_in (Cn : κ) (rs : List (Range κ)) (hs : rs.Pairwise fun a b => a.stop ≤ b.start)
    (hw : ∀ r ∈ rs, r.start < r.stop) (r : Range κ) (hr : r ∈ rs) (cp : Nat) (h1 : r.start ≤ cp) (h2 : cp < r.stop) :
    firstFit Cn rs cp = some r.cat := by
  induction rs with
  | nil => simp at hr
  | cons x xs ih =>
    rw [List.mem_cons] at hr
    rw [firstFit]
    obtain rfl | hr := hr
    · rw [if_pos (by omega)]
      simp only [ret, low]
      split <;> rename_i h
      · rfl
      · split at h
        · cases h
        · injection h with h; rw [if_pos (by omega)]
    · have := (List.pairwise_cons.1 hs).1 r hr
      rw [if_neg (by omega)]
      exact ih (List.pairwise_cons.1 hs).2 (fun y hy => hw y (by simp [hy])) hr

theorem firstFit_gap (Cn : κ) (rs : List (Range κ)) (cp : Int) (hout : ∀ r ∈ rs, ¬ ((r.start : Int) ≤ cp ∧ cp < r.stop))
    (hs : rs.Pairwise fun a b => a.stop ≤ b.start) (hw : ∀ r ∈ rs, r.start < r.stop) :
    (firstFit Cn rs cp = none ∧ ∀ r ∈ rs, (r.stop : Int) ≤ cp) ∨
    ∃ r ∈ rs, cp < r.start ∧ (∀ q ∈ rs, (q.stop : Int) ≤ cp ∨ r.start ≤ q.start) ∧
      firstFit Cn rs cp = some (if r.stop = r.start + 1 then r.cat else Cn) := by
  induction rs with
  | nil => left; simp [firstFit]
  | cons x xs ih =>
    have hx := hout x (by simp)
    have hwx := hw x (by simp)
    rw [firstFit]
    by_cases hc : cp < x.stop
    · rw [if_pos hc]
      right
      refine ⟨x, by simp, by omega, ?_, ?_⟩
      · intro q hq
        rw [List.mem_cons] at hq
        obtain rfl | hq := hq
        · right; omega
        · right; have := (List.pairwise_cons.1 hs).1 q hq; omega
      · simp only [ret, low]
        by_cases he : x.stop = x.start + 1
        · simp [he]
        · simp only [if_neg he]; rw [if_neg (by omega)]
    · rw [if_neg hc]
      obtain ⟨h1, h2⟩ | ⟨r, hr, h1, h2, h3⟩ := ih (fun r hr => hout r (by simp [hr])) (List.pairwise_cons.1 hs).2
        (fun r hr => hw r (by simp [hr]))
      · left
        refine ⟨h1, fun r hr => ?_⟩
        rw [List.mem_cons] at hr
        obtain rfl | hr := hr
        · omega
        · exact h2 r hr
      · right
        refine ⟨r, by simp [hr], h1, fun q hq => ?_, h3⟩
        rw [List.mem_cons] at hq
        obtain rfl | hq := hq
        · left; omega
        · exact h2 q hq

/-! Reading the lines. -/

theorem fill_spec (cat : κ) (k : Nat) : ∀ (n : Nat) (table table' : List (Option κ)), fill table cat n k = .ok table' →
    table'.length = table.length ∧ ∀ i, table'[i]? = if n ≤ i ∧ i < n + k then some (some cat) else table[i]? := by
  induction k with
  | zero => intro n table table' h; simp only [fill, Except.ok.injEq] at h; subst h; exact ⟨rfl, fun i => by rw [if_neg (by omega)]⟩
  | succ k ih =>
    intro n table table' h
    rw [fill] at h
    split at h
    · rename_i hn
      have hlt := (List.getElem?_eq_some_iff.1 hn).1
      obtain ⟨h1, h2⟩ := ih _ _ _ h
      refine ⟨by simpa using h1, fun i => ?_⟩
      rw [h2, List.getElem?_set]
      by_cases hin : n = i
      · subst hin; simp [hlt]
      · simp only [if_neg hin]
        congr 1
        simp only [eq_iff_iff]
        omega
    · cases h

theorem fill_total (cat : κ) (k : Nat) : ∀ (n : Nat) (table : List (Option κ)), (∀ i, n ≤ i → i < n + k → table[i]? = some none) →
    ∃ table', fill table cat n k = .ok table' := by
  induction k with
  | zero => intro n table _; exact ⟨_, rfl⟩
  | succ k ih =>
    intro n table h
    rw [fill, h n (by omega) (by omega)]
    apply ih
    intro i h1 h2
    rw [List.getElem?_set, if_neg (by omega)]
    exact h i (by omega) (by omega)

theorem store_spec {table table' : List (Option κ)} {r : Rec κ} (h : store table r = .ok table') :
    r.cp < table.length ∧ table'.length = table.length ∧
      ∀ i, table'[i]? = if i = r.cp then some (some r.cat) else table[i]? := by
  simp only [store] at h
  split at h
  · rename_i hlt
    injection h with h
    subst h
    refine ⟨hlt, by simp, fun i => ?_⟩
    rw [List.getElem?_set]
    by_cases hi : r.cp = i
    · subst hi; simp [hlt]
    · rw [if_neg hi, if_neg (Ne.symm hi)]
  · cases h

/-- What the lines record about code point `i`; `pending` tells that the line before was the first of a range that begins at `start`. -/
def Records (lines : List (Rec κ)) (pending : Bool) (start i : Nat) (c : κ) : Prop :=
  (∃ r ∈ lines, r.cp = i ∧ r.cat = c) ∨
  (∃ f l, [f, l] <:+: lines ∧ f.kind = .first ∧ l.kind = .last ∧ f.cp < i ∧ i < l.cp ∧ l.cat = c) ∨
  (pending = true ∧ ∃ l rest, lines = l :: rest ∧ l.kind = .last ∧ start ≤ i ∧ i < l.cp ∧ l.cat = c)

theorem infix_cons_pair {f l r : Rec κ} {rs : List (Rec κ)} :
    [f, l] <:+: r :: rs ↔ (f = r ∧ ∃ rest, rs = l :: rest) ∨ [f, l] <:+: rs := by
  rw [List.infix_cons_iff]
  constructor
  · rintro (⟨t, h⟩ | h)
    · simp only [List.cons_append, List.nil_append, List.cons.injEq] at h
      exact Or.inl ⟨h.1, t, h.2.symm⟩
    · exact Or.inr h
  · rintro (⟨rfl, rest, rfl⟩ | h)
    · exact Or.inl ⟨rest, by simp⟩
    · exact Or.inr h

theorem readLines_spec (lines : List (Rec κ)) : ∀ (table table' : List (Option κ)) (start : Nat) (rangeStart : Option κ),
    readLines lines table start rangeStart = .ok table' → lines.Pairwise (fun a b => a.cp < b.cp) →
    (∀ r ∈ lines, start ≤ r.cp) → (∀ i, start ≤ i → i < table.length → table[i]? = some none) →
    table'.length = table.length ∧
    ∀ i c, table'[i]? = some (some c) ↔ table[i]? = some (some c) ∨ Records lines rangeStart.isSome start i c := by
  induction lines with
  | nil =>
    intro table table' start rangeStart h _ _ _
    rw [readLines] at h
    split at h
    · injection h with h
      subst h
      refine ⟨rfl, fun i c => ?_⟩
      simp [Records]
    · cases h
  | cons r rs ih =>
    intro table table' start rangeStart h hs hlow hnone
    have hsr := (List.pairwise_cons.1 hs).1
    have hstart : start ≤ r.cp := hlow r (by simp)
    have hlow' : ∀ q ∈ rs, r.cp + 1 ≤ q.cp := fun q hq => hsr q hq
    have hcut : ∀ (t : List (Option κ)), t.length = table.length → (∀ i, r.cp < i → t[i]? = table[i]?) →
        ∀ i, r.cp + 1 ≤ i → i < t.length → t[i]? = some none := fun t hl ht i h1 h2 => by
      rw [ht i (by omega)]; exact hnone i (by omega) (by omega)
    have htail : ∀ (i : Nat) (c : κ), Records rs false (r.cp + 1) i c → r.cp < i := by
      rintro i c (⟨q, hq, rfl, _⟩ | ⟨f, l, hfl, _, _, hfi, _⟩ | ⟨h, _⟩)
      · exact hsr q hq
      · have hf : f ∈ rs := hfl.subset (by simp)
        have := hsr f hf; omega
      · simp at h
    rw [readLines] at h
    cases hk : r.kind with
    | last =>
      rw [hk] at h; simp only [] at h
      split at h
      · rename_i hrs
        split at h
        · cases h
        rename_i t1 ht1
        split at h
        · cases h
        rename_i t2 ht2
        obtain ⟨f1, f2⟩ := fill_spec _ _ _ _ _ ht1
        obtain ⟨s0, s1, s2⟩ := store_spec ht2
        have hval : ∀ i, t2[i]? = if start ≤ i ∧ i ≤ r.cp then some (some r.cat) else table[i]? := by
          intro i
          rw [s2, f2]
          by_cases h1 : i = r.cp
          · rw [if_pos h1, if_pos (by omega)]
          · rw [if_neg h1]
            by_cases h2 : start ≤ i ∧ i ≤ r.cp
            · rw [if_pos h2, if_pos (by omega)]
            · rw [if_neg h2, if_neg (by omega)]
        obtain ⟨g1, g2⟩ := ih t2 table' _ _ h (List.pairwise_cons.1 hs).2 hlow'
          (hcut t2 (by omega) (fun i hi => by rw [hval, if_neg (by omega)]))
        refine ⟨by omega, fun i c => ?_⟩
        rw [g2, hval]
        constructor
        · rintro (h1 | h1)
          · split at h1
            · rename_i hi
              simp only [Option.some.injEq] at h1
              by_cases he : i = r.cp
              · exact Or.inr (Or.inl ⟨r, by simp, he.symm, h1⟩)
              · exact Or.inr (Or.inr (Or.inr ⟨by simp [hrs], r, rs, rfl, hk, hi.1, by omega, h1⟩))
            · exact Or.inl h1
          · right
            obtain ⟨q, hq, h2⟩ | ⟨f, l, hfl, h2⟩ | ⟨h2, _⟩ := h1
            · exact Or.inl ⟨q, by simp [hq], h2⟩
            · exact Or.inr (Or.inl ⟨f, l, infix_cons_pair.2 (Or.inr hfl), h2⟩)
            · simp at h2
        · rintro (h1 | ⟨q, hq, h2, h3⟩ | ⟨f, l, hfl, h2, h3, h4⟩ | ⟨_, l, rest, h1, h2, h3, h4, h5⟩)
          · by_cases hi : start ≤ i ∧ i ≤ r.cp
            · have := hnone i hi.1 (by
                have := (List.getElem?_eq_some_iff.1 h1).1; omega)
              rw [this] at h1; simp at h1
            · left; rwa [if_neg hi]
          · rw [List.mem_cons] at hq
            obtain rfl | hq := hq
            · left; rw [if_pos (by omega)]; simp [h3]
            · exact Or.inr (Or.inl ⟨q, hq, h2, h3⟩)
          · obtain ⟨rfl, rest, rfl⟩ | hfl := infix_cons_pair.1 hfl
            · rw [hk] at h2; cases h2
            · exact Or.inr (Or.inr (Or.inl ⟨f, l, hfl, h2, h3, h4⟩))
          · simp only [List.cons.injEq] at h1
            obtain ⟨rfl, rfl⟩ := h1
            left; rw [if_pos (by omega)]; simp [h5]
      · cases h
    | first =>
      rw [hk] at h; simp only [] at h
      split at h
      · rename_i hrs
        split at h
        · cases h
        rename_i t2 ht2
        obtain ⟨s0, s1, s2⟩ := store_spec ht2
        obtain ⟨g1, g2⟩ := ih t2 table' _ _ h (List.pairwise_cons.1 hs).2 hlow'
          (hcut t2 (by omega) (fun i hi => by rw [s2, if_neg (by omega)]))
        refine ⟨by omega, fun i c => ?_⟩
        rw [g2, s2]
        constructor
        · rintro (h1 | h1)
          · split at h1
            · rename_i hi
              simp only [Option.some.injEq] at h1
              exact Or.inr (Or.inl ⟨r, by simp, hi.symm, h1⟩)
            · exact Or.inl h1
          · right
            obtain ⟨q, hq, h2⟩ | ⟨f, l, hfl, h2⟩ | ⟨_, l, rest, h2, h3, h4, h5, h6⟩ := h1
            · exact Or.inl ⟨q, by simp [hq], h2⟩
            · exact Or.inr (Or.inl ⟨f, l, infix_cons_pair.2 (Or.inr hfl), h2⟩)
            · exact Or.inr (Or.inl ⟨r, l, infix_cons_pair.2 (Or.inl ⟨rfl, rest, h2⟩), hk, h3, by omega, h5, h6⟩)
        · rintro (h1 | ⟨q, hq, h2, h3⟩ | ⟨f, l, hfl, h2, h3, h4, h5, h6⟩ | ⟨hp, _⟩)
          · by_cases hi : i = r.cp
            · have := hnone i (by omega) (by have := (List.getElem?_eq_some_iff.1 h1).1; omega)
              rw [this] at h1; simp at h1
            · left; rwa [if_neg hi]
          · rw [List.mem_cons] at hq
            obtain rfl | hq := hq
            · left; rw [if_pos (by omega)]; simp [h3]
            · exact Or.inr (Or.inl ⟨q, hq, h2, h3⟩)
          · obtain ⟨rfl, rest, rfl⟩ | hfl := infix_cons_pair.1 hfl
            · exact Or.inr (Or.inr (Or.inr ⟨rfl, l, rest, rfl, h3, by omega, h5, h6⟩))
            · exact Or.inr (Or.inr (Or.inl ⟨f, l, hfl, h2, h3, h4, h5, h6⟩))
          · simp [hrs] at hp
      · cases h
    | plain =>
      rw [hk] at h; simp only [] at h
      split at h
      · rename_i hrs
        split at h
        · cases h
        rename_i t2 ht2
        obtain ⟨s0, s1, s2⟩ := store_spec ht2
        obtain ⟨g1, g2⟩ := ih t2 table' _ _ h (List.pairwise_cons.1 hs).2 hlow'
          (hcut t2 (by omega) (fun i hi => by rw [s2, if_neg (by omega)]))
        refine ⟨by omega, fun i c => ?_⟩
        rw [g2, s2]
        constructor
        · rintro (h1 | h1)
          · split at h1
            · rename_i hi
              simp only [Option.some.injEq] at h1
              exact Or.inr (Or.inl ⟨r, by simp, hi.symm, h1⟩)
            · exact Or.inl h1
          · right
            obtain ⟨q, hq, h2⟩ | ⟨f, l, hfl, h2⟩ | ⟨h2, _⟩ := h1
            · exact Or.inl ⟨q, by simp [hq], h2⟩
            · exact Or.inr (Or.inl ⟨f, l, infix_cons_pair.2 (Or.inr hfl), h2⟩)
            · simp at h2
        · rintro (h1 | ⟨q, hq, h2, h3⟩ | ⟨f, l, hfl, h2, h3, h4⟩ | ⟨hp, _⟩)
          · by_cases hi : i = r.cp
            · have := hnone i (by omega) (by have := (List.getElem?_eq_some_iff.1 h1).1; omega)
              rw [this] at h1; simp at h1
            · left; rwa [if_neg hi]
          · rw [List.mem_cons] at hq
            obtain rfl | hq := hq
            · left; rw [if_pos (by omega)]; simp [h3]
            · exact Or.inr (Or.inl ⟨q, hq, h2, h3⟩)
          · obtain ⟨rfl, rest, rfl⟩ | hfl := infix_cons_pair.1 hfl
            · rw [hk] at h2; cases h2
            · exact Or.inr (Or.inr (Or.inl ⟨f, l, hfl, h2, h3, h4⟩))
          · simp [hrs] at hp
      · cases h

end Verif.Categorize
