import Verif.Proofs.Categorize

/-!
`charstr_unicode_category` as generated by `categorize.py` (C68).

The specification speaks about the lines of the data only: a code point is assigned a category by its own line, or by lying between the two
lines of a range.
-/

namespace Verif.Categorize

variable {κ : Type} [DecidableEq κ]

/-- The data give code point `cp` the category `c`. -/
def Assigned (lines : List (Rec κ)) (cp : Int) (c : κ) : Prop :=
  (∃ r ∈ lines, (r.cp : Int) = cp ∧ r.cat = c) ∨
  ∃ f l, [f, l] <:+: lines ∧ f.kind = .first ∧ l.kind = .last ∧ (f.cp : Int) < cp ∧ cp < l.cp ∧ l.cat = c

/-- The lines are in the order of their code points. -/
def Ordered (lines : List (Rec κ)) : Prop := lines.Pairwise fun a b => a.cp < b.cp

/-- Every line that opens a range is followed by the line that closes it, of the same category; no other line closes one. -/
def Paired : List (Rec κ) → Prop
  | [] => True
  | [r] => r.kind = .plain
  | r :: l :: rest =>
    (r.kind = .plain ∧ Paired (l :: rest)) ∨ (r.kind = .first ∧ l.kind = .last ∧ l.cat = r.cat ∧ Paired rest)

theorem readLines_total (n : Nat) (lines : List (Rec κ)) : ∀ (table : List (Option κ)) (start : Nat), Paired lines → Ordered lines →
    (∀ r ∈ lines, start ≤ r.cp ∧ r.cp < table.length) → (∀ i, start ≤ i → i < table.length → table[i]? = some none) →
    lines.length ≤ n → ∃ table', readLines lines table start none = .ok table' := by
  induction n generalizing lines with
  | zero =>
    intro table start _ _ _ _ h
    have : lines = [] := by simpa using h
    subst this
    exact ⟨table, by simp [readLines]⟩
  | succ n ih =>
    intro table start hp ho hr hn hlen
    match lines with
    | [] => exact ⟨table, by simp [readLines]⟩
    | [r] =>
      have hk : r.kind = .plain := hp
      obtain ⟨h1, h2⟩ := hr r (by simp)
      refine ⟨table.set r.cp (some r.cat), ?_⟩
      rw [readLines, hk]
      simp [store, h2, readLines]
    | r :: l :: rest =>
      obtain ⟨h1, h2⟩ := hr r (by simp)
      obtain ⟨hk, hp⟩ | ⟨hk, hkl, hc, hp⟩ := hp
      · have ho' := List.pairwise_cons.1 ho
        obtain ⟨t, ht⟩ := ih (l :: rest) (table.set r.cp (some r.cat)) (r.cp + 1) hp ho'.2
          (fun q hq => ⟨ho'.1 q hq, by simpa using (hr q (List.mem_cons_of_mem _ hq)).2⟩)
          (fun i hi1 hi2 => by
            rw [List.getElem?_set, if_neg (by omega)]
            exact hn i (by omega) (by simpa using hi2))
          (by simpa using hlen)
        refine ⟨t, ?_⟩
        rw [readLines, hk]
        simp [store, h2, ht]
      · have ho' := List.pairwise_cons.1 ho
        have ho'' := List.pairwise_cons.1 ho'.2
        obtain ⟨h3, h4⟩ := hr l (by simp)
        have hlt := ho'.1 l (by simp)
        obtain ⟨t1, ht1⟩ := fill_total l.cat (l.cp - (r.cp + 1)) (r.cp + 1) (table.set r.cp (some r.cat)) (fun i hi1 hi2 => by
          rw [List.getElem?_set, if_neg (by omega)]
          exact hn i (by omega) (by omega))
        obtain ⟨f1, f2⟩ := fill_spec _ _ _ _ _ ht1
        have hl1 : t1.length = table.length := by simpa using f1
        obtain ⟨t, ht⟩ := ih rest (t1.set l.cp (some l.cat)) (l.cp + 1) hp ho''.2
          (fun q hq => ⟨ho''.1 q hq, by rw [List.length_set, hl1]; exact (hr q (by simp [hq])).2⟩)
          (fun i hi1 hi2 => by
            rw [List.length_set, hl1] at hi2
            rw [List.getElem?_set, if_neg (by omega), f2, if_neg (by omega), List.getElem?_set, if_neg (by omega)]
            exact hn i (by omega) hi2)
          (by simp at hlen; omega)
        refine ⟨t, ?_⟩
        rw [readLines, hk]
        simp only [store, if_pos h2]
        rw [if_pos trivial, readLines, hkl]
        simp only [hc, ↓reduceIte]
        rw [hc] at ht1 ht
        rw [ht1]
        simp only [store, hl1, if_pos h4, hc, ht]

/-- The generator succeeds on every non-empty, ordered and paired file within the table. -/
theorem categorize_succeeds (n : Nat) (lines : List (Rec κ)) (hne : lines ≠ []) (ho : Ordered lines) (hp : Paired lines)
    (hr : ∀ r ∈ lines, r.cp < n) : ∃ code, main n lines = .ok code := by
  obtain ⟨t, ht⟩ := readLines_total lines.length lines (List.replicate n none) 0 hp ho (fun r h => ⟨by omega, by simpa using hr r h⟩)
    (fun i _ h => by simp at h; simp [h]) (le_refl _)
  have := readLines_spec lines _ _ _ _ ht ho (by simp) (fun i _ h => by simp at h; simp [h])
  rw [main, ht]
  apply emitBinary_total _ _ rfl
  obtain ⟨r, rs, rfl⟩ := List.exists_cons_of_ne_nil hne
  have h1 : t[r.cp]? = some (some r.cat) := (this.2 _ _).2 (Or.inr (Or.inl ⟨r, by simp, rfl, rfl⟩))
  rw [← ranges_mem 0] at h1
  obtain ⟨q, hq, _⟩ := h1
  exact List.ne_nil_of_mem hq

theorem main_table {n : Nat} {lines : List (Rec κ)} {code : Code κ} (ho : Ordered lines) (h : main n lines = .ok code) :
    ∃ t : List (Option κ), (∀ (i : Nat) c, t[i]? = some (some c) ↔ Assigned lines i c) ∧ ∀ Cn cp, code.exec Cn cp = firstFit Cn (ranges 0 t) cp := by
  rw [main] at h
  split at h
  · cases h
  rename_i t ht
  obtain ⟨h1, h2⟩ := readLines_spec lines _ _ _ _ ht ho (by simp) (fun i _ h => by simp at h; simp [h])
  refine ⟨t, fun i c => ?_, fun Cn cp => emitBinary_exec Cn _ _ rfl ?_ h cp⟩
  · rw [h2, Assigned, Records]
    have : (List.replicate n (none : Option κ))[i]? ≠ some (some c) := by
      rw [List.getElem?_replicate]; split <;> simp
    simp [this]
  · have hs := ranges_sorted 0 t
    refine List.Pairwise.imp_of_mem ?_ hs
    intro a b ha hb hab
    have := (ranges_lower 0 t b hb).2
    omega

/-- C68, for the code points in the data: the generated function returns the recorded category. -/
theorem category_exact_assigned {n : Nat} {lines : List (Rec κ)} {code : Code κ} (ho : Ordered lines) (h : main n lines = .ok code)
    (Cn : κ) (cp : Int) (c : κ) (ha : Assigned lines cp c) : category Cn code cp = c := by
  obtain ⟨t, h1, h2⟩ := main_table ho h
  have hpos : 0 ≤ cp := by
    obtain ⟨r, _, h, _⟩ | ⟨f, l, _, _, _, h, _⟩ := ha <;> omega
  obtain ⟨i, rfl⟩ := Int.eq_ofNat_of_zero_le hpos
  have h3 : t[i]? = some (some c) := (h1 i c).2 ha
  rw [← ranges_mem 0] at h3
  obtain ⟨r, hr, h4, h5, rfl⟩ := h3
  rw [Nat.zero_add] at h4 h5
  rw [category, h2, firstFit_in Cn _ (ranges_sorted 0 t) (fun r hr => (ranges_lower 0 t r hr).2) r hr i h4 h5]

/-- C68, for the others: the result is `Cn` unless the next assigned code point stands alone, that is, the code point after it does not have
the same category. In that case the result is the category of that code point. -/
theorem category_unassigned {n : Nat} {lines : List (Rec κ)} {code : Code κ} (ho : Ordered lines) (h : main n lines = .ok code)
    (Cn : κ) (cp : Int) (hu : ∀ c, ¬ Assigned lines cp c) :
    (category Cn code cp = Cn ∧ ∀ q c, Assigned lines q c → cp < q → (∀ x d, cp < x → x < q → ¬ Assigned lines x d) → Assigned lines (q + 1) c) ∨
    ∃ q c, category Cn code cp = c ∧ cp < q ∧ Assigned lines q c ∧ (∀ x d, cp < x → x < q → ¬ Assigned lines x d) ∧
      ¬ Assigned lines (q + 1) c := by
  obtain ⟨t, h1, h2⟩ := main_table ho h
  have hs := ranges_sorted 0 t
  have hw := fun r hr => (ranges_lower 0 t r hr).2
  have hmem : ∀ (x : Int) d, Assigned lines x d → ∃ r ∈ ranges 0 t, (r.start : Int) ≤ x ∧ x < r.stop ∧ r.cat = d := by
    intro x d hx
    have hpos : 0 ≤ x := by
      obtain ⟨r, _, h, _⟩ | ⟨f, l, _, _, _, h, _⟩ := hx <;> omega
    obtain ⟨i, rfl⟩ := Int.eq_ofNat_of_zero_le hpos
    have h3 : t[i]? = some (some d) := (h1 i d).2 hx
    rw [← ranges_mem 0] at h3
    obtain ⟨r, hr, h4, h5, h6⟩ := h3
    exact ⟨r, hr, by omega, by omega, h6⟩
  have hin : ∀ r ∈ ranges 0 t, ∀ x : Nat, r.start ≤ x → x < r.stop → Assigned lines x r.cat := by
    intro r hr x hx1 hx2
    rw [← h1, ← ranges_mem 0]
    exact ⟨r, hr, by omega, by omega, rfl⟩
  have hout : ∀ r ∈ ranges 0 t, ¬ ((r.start : Int) ≤ cp ∧ cp < r.stop) := by
    rintro r hr ⟨h3, h4⟩
    have hx := hin r hr cp.toNat (by omega) (by omega)
    rw [Int.toNat_of_nonneg (by omega)] at hx
    exact hu _ hx
  rw [category, h2]
  obtain ⟨h3, h4⟩ | ⟨r, hr, h3, h4, h5⟩ := firstFit_gap Cn (ranges 0 t) cp hout hs hw
  · left
    rw [h3]
    refine ⟨rfl, fun q c hq hlt _ => ?_⟩
    obtain ⟨r, hr, _, h6, _⟩ := hmem q c hq
    have := h4 r hr
    omega
  · rw [h5]
    have hbetween : ∀ x d, cp < x → x < (r.start : Int) → ¬ Assigned lines x d := by
      intro x d hx1 hx2 hx
      obtain ⟨q, hq, h6, h7, _⟩ := hmem x d hx
      obtain h8 | h8 := h4 q hq <;> omega
    by_cases hone : r.stop = r.start + 1
    · right
      refine ⟨r.start, r.cat, by simp [hone], h3, hin r hr r.start (by omega) (by omega), hbetween, ?_⟩
      intro hx
      have hstop := ranges_stop 0 t r hr
      rw [Nat.sub_zero, hone] at hstop
      apply hstop
      rw [h1]
      exact_mod_cast hx
    · left
      refine ⟨by simp [hone], fun q c hq hlt hgap => ?_⟩
      obtain ⟨p, hp, h6, h7, rfl⟩ := hmem q c hq
      have hpr : (p.start : Int) = r.start ∨ (r.start : Int) < p.start := by
        obtain h8 | h8 := h4 p hp <;> omega
      have hqr : q = r.start := by
        by_contra hne
        have hw' := hw r hr
        by_cases hlt' : q < r.start
        · omega
        · exact hgap r.start _ h3 (by omega) (hin r hr r.start (by omega) (by omega))
      subst hqr
      have hpe : p = r := by
        have hwr := hw r hr
        by_contra hne
        obtain ⟨i, hi, rfl⟩ := List.getElem_of_mem hp
        obtain ⟨j, hj, rfl⟩ := List.getElem_of_mem hr
        have hwp := hw _ hp
        rw [List.pairwise_iff_getElem] at hs
        obtain h | h | h := Nat.lt_trichotomy i j
        · have := hs i j hi hj h; omega
        · subst h; exact hne rfl
        · have := hs j i hj hi h; omega
      subst hpe
      have := hin p hp (p.start + 1) (by omega) (by have := hw p hp; omega)
      exact_mod_cast this

/-- C68 as far as it holds: exact on every assigned code point, and on every unassigned one whose next assigned code point does not stand
alone. Missing: the unassigned code points before a code point that stands alone (see `category_exact_violated`). -/
theorem category_exact_partial {n : Nat} {lines : List (Rec κ)} {code : Code κ} (ho : Ordered lines) (h : main n lines = .ok code)
    (Cn : κ) (cp : Int) :
    (∀ c, Assigned lines cp c → category Cn code cp = c) ∧
    ((∀ c, ¬ Assigned lines cp c) →
      (∀ q c, Assigned lines q c → cp < q → (∀ x d, cp < x → x < q → ¬ Assigned lines x d) → Assigned lines (q + 1) c) →
      category Cn code cp = Cn) := by
  refine ⟨fun c hc => category_exact_assigned ho h Cn cp c hc, fun hu hq => ?_⟩
  obtain ⟨h1, _⟩ | ⟨q, c, _, h2, h3, h4, h5⟩ := category_unassigned ho h Cn cp hu
  · exact h1
  · exact absurd (hq q c h3 h2 h4) h5

/-- Lines of `UnicodeData.txt` (version 13.0.0) around U+038B, which is unassigned; those of other code points are left out. -/
def greek : List (Rec String) :=
  [⟨0x388, .plain, "Lu"⟩, ⟨0x389, .plain, "Lu"⟩, ⟨0x38A, .plain, "Lu"⟩, ⟨0x38C, .plain, "Lu"⟩, ⟨0x38E, .plain, "Lu"⟩, ⟨0x38F, .plain, "Lu"⟩,
   ⟨0x390, .plain, "Ll"⟩, ⟨0x4E00, .first, "Lo"⟩, ⟨0x9FFC, .last, "Lo"⟩]

theorem greek_ordered : Ordered greek := by simp [Ordered, greek]
theorem greek_paired : Paired greek := by simp [Paired, greek]

/-- C68 fails: U+038B is not in the data, but the generated function calls it an upper-case letter. -/
theorem category_exact_violated : ∃ code, main 0x110000 greek = .ok code ∧ (∀ c, ¬ Assigned greek 0x38B c) ∧ category "Cn" code 0x38B = "Lu" := by
  obtain ⟨code, h⟩ := categorize_succeeds 0x110000 greek (by simp [greek]) greek_ordered greek_paired (by simp [greek])
  have hpair : ∀ f l, [f, l] <:+: greek → f.kind = .first → f.cp = 0x4E00 := by
    intro f l hfl hf
    have hm : f ∈ greek := hfl.subset (by simp)
    simp only [greek, List.mem_cons, List.not_mem_nil, or_false] at hm
    rcases hm with rfl | rfl | rfl | rfl | rfl | rfl | rfl | rfl | rfl <;> simp_all
  have hu : ∀ x : Int, x < 0x4E00 → ∀ c, Assigned greek x c → x ∈ [(0x388 : Int), 0x389, 0x38A, 0x38C, 0x38E, 0x38F, 0x390] ∧
      (x = 0x38C → c = "Lu") := by
    rintro x hx c (⟨r, hr, rfl, rfl⟩ | ⟨f, l, hfl, hf, _, h1, _⟩)
    · simp only [greek, List.mem_cons, List.not_mem_nil, or_false] at hr
      rcases hr with rfl | rfl | rfl | rfl | rfl | rfl | rfl | rfl | rfl <;> simp_all
    · have := hpair f l hfl hf; omega
  have hna : ∀ c, ¬ Assigned greek 0x38B c := fun c hc => by simpa using (hu _ (by omega) c hc).1
  refine ⟨code, h, hna, ?_⟩
  obtain ⟨_, h2⟩ | ⟨q, c, h1, h2, h3, h4, _⟩ := category_unassigned greek_ordered h "Cn" 0x38B hna
  · have := h2 0x38C "Lu" (Or.inl ⟨⟨0x38C, .plain, "Lu"⟩, by simp [greek], rfl, rfl⟩) (by omega) (by intros; omega)
    exact absurd (hu _ (by omega) _ this).1 (by simp)
  · have hq : q = 0x38C := by
      by_contra hne
      exact h4 0x38C "Lu" (by omega) (by omega) (Or.inl ⟨⟨0x38C, .plain, "Lu"⟩, by simp [greek], rfl, rfl⟩)
    subst hq
    rw [h1]
    exact (hu _ (by omega) _ h3).2 rfl

/-- The hypotheses hold for these lines: the generator runs, U+4E01 lies inside a range and gets its category, and U+0391 is unassigned
with a range to follow, hence `Cn`. -/
example : ∃ code, main 0x110000 greek = .ok code ∧ category "Cn" code 0x4E01 = "Lo" ∧ category "Cn" code 0x390 = "Ll" := by
  obtain ⟨code, h⟩ := categorize_succeeds 0x110000 greek (by simp [greek]) greek_ordered greek_paired (by simp [greek])
  refine ⟨code, h, category_exact_assigned greek_ordered h _ _ _ (Or.inr ⟨⟨0x4E00, .first, "Lo"⟩, ⟨0x9FFC, .last, "Lo"⟩, ?_, rfl, rfl, ?_, ?_, rfl⟩),
    category_exact_assigned greek_ordered h _ _ _ (Or.inl ⟨⟨0x390, .plain, "Ll"⟩, by simp [greek], rfl, rfl⟩)⟩
  · exact ⟨greek.take 7, [], rfl⟩
  · simp
  · simp

end Verif.Categorize
