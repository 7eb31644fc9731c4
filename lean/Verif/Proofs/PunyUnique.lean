import Verif.Proofs.PunyPass2

/-! Punycode is unique: two lower-case texts that decode to the same code points are equal. -/

namespace Verif.Puny
open Verif.Spec

/-- The digits of `q` in the variable-length representation, starting with threshold number `k`. -/
inductive Digs (bias : Nat) : Nat → Nat → List UInt8 → Prop
  | last {k q c} : Punycode.value c = some q → q < Punycode.threshold bias k → Digs bias k q [c]
  | more {k q d c ds} : Punycode.value c = some d → Punycode.threshold bias k ≤ d → Digs bias (k + 36) q ds →
      Digs bias k (d + (36 - Punycode.threshold bias k) * q) (c :: ds)

theorem value_lt {c : UInt8} {d : Nat} (h : Punycode.value c = some d) : d < 36 := by
  simp only [Punycode.value] at h
  split_ifs at h <;> simp only [Option.some.injEq] at h <;> omega

/-- Not an ASCII capital. -/
def NotUpper (c : UInt8) : Prop := ¬ (65 ≤ c.toNat ∧ c.toNat ≤ 90)

theorem value_inj {a b : UInt8} {d : Nat} (ha : NotUpper a) (hb : NotUpper b) (h1 : Punycode.value a = some d) (h2 : Punycode.value b = some d) : a = b := by
  simp only [NotUpper, Punycode.value] at *
  apply UInt8.toNat_inj.1
  split_ifs at h1 h2 <;> simp only [Option.some.injEq] at h1 h2 <;> omega

theorem digs_unique {bias k q : Nat} {ds : List UInt8} (h : Digs bias k q ds) : ∀ {ds'}, Digs bias k q ds' → (∀ c ∈ ds, NotUpper c) →
    (∀ c ∈ ds', NotUpper c) → ds' = ds := by
  induction h with
  | @last k q c hv hq =>
    intro ds' h' hu hu'
    cases h' with
    | last hv' _ => rw [value_inj (hu' _ (by simp)) (hu _ (by simp)) hv' hv]
    | more hv' hd _ => exfalso; omega
  | @more k q d c ds hv hd hrec ih =>
    intro ds' h' hu hu'
    have ht := threshold_range bias k
    have h36 := value_lt hv
    generalize hQ : d + (36 - Punycode.threshold bias k) * q = Q at h'
    cases h' with
    | last hv' hq => exfalso; omega
    | @more _ q' d' c' ds' hv' hd' hrec' =>
      have h36' := value_lt hv'
      generalize Punycode.threshold bias k = t at *
      have hmod : d = d' ∧ q = q' := by
        have e1 : (d - t) + (36 - t) * q = (d' - t) + (36 - t) * q' := by omega
        have e2 : d - t = d' - t := by
          have := congrArg (· % (36 - t)) e1
          simp only [Nat.add_mul_mod_self_left] at this
          rwa [Nat.mod_eq_of_lt (by omega), Nat.mod_eq_of_lt (by omega)] at this
        refine ⟨by omega, ?_⟩
        rw [e2] at e1
        exact Nat.eq_of_mul_eq_mul_left (show 0 < 36 - t by omega) (Nat.add_left_cancel e1)
      obtain ⟨rfl, rfl⟩ := hmod
      rw [ih hrec' (fun c hc => hu c (List.mem_cons_of_mem _ hc)) (fun c hc => hu' c (List.mem_cons_of_mem _ hc)),
        value_inj (hu' _ (by simp)) (hu _ (by simp)) hv' hv]

/-- The decoder reads one integer first. -/
theorem first_integer (ds : List UInt8) : ∀ (s d' : Punycode.State), Punycode.steps s ds = some d' → d'.k = 36 → 0 < s.k → (ds = [] → s.k ≠ 36) →
    ∃ ds1 ds2 q, ds = ds1 ++ ds2 ∧ Digs s.bias s.k q ds1 ∧ Punycode.steps (taken s (s.i + q * s.w)) ds2 = some d' := by
  induction ds with
  | nil =>
    intro s d' h1 h2 _ h3
    simp only [Punycode.steps, Option.some.injEq] at h1
    exact absurd (by rw [h1]; exact h2) (h3 rfl)
  | cons c ds ih =>
    intro s d' h1 h2 hk _
    simp only [Punycode.steps, Punycode.step] at h1
    cases hv : Punycode.value c with
    | none => simp [hv] at h1
    | some d =>
      simp only [hv] at h1
      by_cases ht : d < Punycode.threshold s.bias s.k
      · rw [if_pos ht] at h1
        exact ⟨[c], ds, d, rfl, .last hv ht, h1⟩
      · rw [if_neg ht] at h1
        simp only at h1
        obtain ⟨ds1, ds2, q, e1, e2, e3⟩ := ih _ d' h1 h2 (by simp) (by simp; omega)
        simp only at e2 e3
        refine ⟨c :: ds1, ds2, _, by rw [e1]; rfl, .more hv (by omega) e2, ?_⟩
        rw [← e3]
        simp only [taken]
        have key : s.i + (d + (36 - Punycode.threshold s.bias s.k) * q) * s.w =
          s.i + d * s.w + q * (s.w * (36 - Punycode.threshold s.bias s.k)) := by ring
        rw [key]

/-- What is known about the output between two integers: nothing exceeds `n`, and only what is left of `i` can be `n`. -/
structure Sane (d : Punycode.State) : Prop where
  w : d.w = 1
  k : d.k = 36
  oldi : d.oldi = d.i
  le : ∀ c ∈ d.output, c ≤ d.n
  lt : ∀ c ∈ d.output.drop d.i, c < d.n
  len : d.i ≤ d.output.length

/-- One insertion. -/
structure Insert (d d1 : Punycode.State) (n place : Nat) : Prop where
  n1 : d1.n = n
  i1 : d1.i = place + 1
  out : d1.output = d.output.take place ++ n :: d.output.drop place
  len : place ≤ d.output.length
  ge : d.n ≤ n
  after : d.n = n → d.i ≤ place

theorem taken_insert {d : Punycode.State} (hd : Sane d) (q : Nat) :
    Insert d (taken d (d.i + q * d.w)) (d.n + (d.i + q) / (d.output.length + 1)) ((d.i + q) % (d.output.length + 1)) := by
  have hl := hd.len
  rw [hd.w, Nat.mul_one]
  refine ⟨rfl, rfl, rfl, by have := Nat.mod_lt (d.i + q) (show 0 < d.output.length + 1 by omega); omega, Nat.le_add_right _ _, fun h => ?_⟩
  have h0 : (d.i + q) / (d.output.length + 1) = 0 := by omega
  have := Nat.div_add_mod (d.i + q) (d.output.length + 1)
  rw [h0] at this
  omega

theorem insert_sane {d d1 : Punycode.State} {n place : Nat} (hd : Sane d) (h : Insert d d1 n place) (hw : d1.w = 1) (hk : d1.k = 36)
    (ho : d1.oldi = d1.i) : Sane d1 := by
  have hdrop : d1.output.drop d1.i = d.output.drop place := by
    have hl : (d.output.take place).length = place := by rw [List.length_take]; have := h.len; omega
    rw [h.out, h.i1, List.drop_append, hl, show place + 1 - place = 1 by omega, List.drop_of_length_le (by omega)]
    rfl
  refine ⟨hw, hk, ho, ?_, ?_, ?_⟩
  · intro c hc
    rw [h.n1]
    rw [h.out, List.mem_append, List.mem_cons] at hc
    have := h.ge
    rcases hc with hc | rfl | hc
    · have := hd.le c (List.mem_of_mem_take hc); omega
    · exact le_refl _
    · have := hd.le c (List.mem_of_mem_drop hc); omega
  · rw [hdrop, h.n1]
    intro c hc
    rcases Nat.lt_or_ge d.n n with hlt | hge
    · have := hd.le c (List.mem_of_mem_drop hc); omega
    · have hge' := h.ge
      have := hd.lt c (by
        have hle := h.after (by omega)
        rw [show place = d.i + (place - d.i) by omega, ← List.drop_drop] at hc
        exact List.mem_of_mem_drop hc)
      omega
  · rw [h.i1, h.out]
    simp only [List.length_append, List.length_take, List.length_cons, List.length_drop]
    have := h.len
    omega

/-- What the rest of the digits leaves alone: `L` is the text decoded in the end. -/
structure Final (d : Punycode.State) (L : List Nat) : Prop where
  lo : L.filter (· < d.n) = d.output.filter (· < d.n)
  front : (L.filter (· ≤ d.n)).take d.i = d.output.take d.i
  size : d.output.length ≤ (L.filter (· ≤ d.n)).length

theorem final_self {d : Punycode.State} (hd : Sane d) : Final d d.output := by
  have : d.output.filter (· ≤ d.n) = d.output := by
    rw [List.filter_eq_self]; intro c hc; simpa using hd.le c hc
  exact ⟨rfl, by rw [this], by rw [this]⟩

theorem filter_filter_le {L : List Nat} {a b : Nat} (h : a ≤ b) : (L.filter (· ≤ b)).filter (· ≤ a) = L.filter (· ≤ a) := by
  rw [List.filter_filter]
  apply List.filter_congr
  intro c _
  by_cases hc : c ≤ a
  · simp [hc, show c ≤ b by omega]
  · simp [hc]

theorem filter_lt_le {L : List Nat} {a b : Nat} (h : a < b) : (L.filter (· < b)).filter (· ≤ a) = L.filter (· ≤ a) := by
  rw [List.filter_filter]
  apply List.filter_congr
  intro c _
  by_cases hc : c ≤ a
  · simp [hc, show c < b by omega]
  · simp [hc]

theorem filter_le_lt {L : List Nat} {a : Nat} : (L.filter (· ≤ a)).filter (· < a) = L.filter (· < a) := by
  rw [List.filter_filter]
  apply List.filter_congr
  intro c _
  by_cases hc : c < a
  · simp [hc, show c ≤ a by omega]
  · simp [hc]

theorem filter_lt_lt {L : List Nat} {a b : Nat} (h : a ≤ b) : (L.filter (· < b)).filter (· < a) = L.filter (· < a) := by
  rw [List.filter_filter]
  apply List.filter_congr
  intro c _
  by_cases hc : c < a
  · simp [hc, show c < b by omega]
  · simp [hc]

theorem insert_final {d d1 : Punycode.State} {n place : Nat} {L : List Nat} (hd : Sane d) (h : Insert d d1 n place) (hf : Final d1 L) : Final d L := by
  have hself : d.output.filter (· ≤ d.n) = d.output := by
    rw [List.filter_eq_self]; intro c hc; simpa using hd.le c hc
  have hge := h.ge
  have hlen := h.len
  have hperm : (d1.output.filter (· < n)) = d.output.filter (· < n) := by
    rw [h.out, List.filter_append, List.filter_cons]
    simp only [Nat.lt_irrefl, decide_false, Bool.false_eq_true, if_false]
    rw [← List.filter_append, List.take_append_drop]
  have hlo : L.filter (· < n) = d.output.filter (· < n) := by
    have := hf.lo; rw [h.n1] at this; rw [this, hperm]
  rcases Nat.lt_or_ge d.n n with hlt | hge'
  · have hL : L.filter (· ≤ d.n) = d.output := by
      rw [← filter_lt_le hlt, hlo, filter_lt_le hlt, hself]
    refine ⟨?_, by rw [hL], by rw [hL]⟩
    rw [← filter_lt_lt hge, hlo, filter_lt_lt hge]
  · have hn : d.n = n := by omega
    have haft := h.after hn
    have hf1 := hf.front
    have hs := hf.size
    rw [h.n1, ← hn] at hf1 hs
    rw [h.i1] at hf1
    refine ⟨by rw [hn]; exact hlo, ?_, ?_⟩
    · have := congrArg (List.take d.i) hf1
      rw [List.take_take, List.take_take, Nat.min_eq_left (by omega)] at this
      rw [this, h.out, List.take_append_of_le_length (by rw [List.length_take]; omega), List.take_take, Nat.min_eq_left haft]
    · have : d1.output.length = d.output.length + 1 := by
        rw [h.out]; simp only [List.length_append, List.length_take, List.length_cons, List.length_drop]; omega
      omega

/-- The place and the code point of the next insertion are determined by the text decoded in the end. -/
theorem insert_unique {d a b : Punycode.State} {n m p q : Nat} {L : List Nat} (hd : Sane d) (ha : Insert d a n p) (hb : Insert d b m q)
    (fa : Final a L) (fb : Final b L) : n = m ∧ p = q := by
  have hself : d.output.filter (· ≤ d.n) = d.output := by
    rw [List.filter_eq_self]; intro c hc; simpa using hd.le c hc
  -- the smaller code point comes first
  have key : ∀ {a b : Punycode.State} {n m p q : Nat}, Insert d a n p → Insert d b m q → Final a L → Final b L → ¬ n < m := by
    intro a b n m p q ha hb fa fb hlt
    have h1 := ha.ge
    have hlo := fb.lo
    rw [hb.n1] at hlo
    have hperm : (b.output.filter (· < m)) = d.output := by
      rw [hb.out, List.filter_append, List.filter_cons]
      simp only [Nat.lt_irrefl, decide_false, Bool.false_eq_true, if_false]
      rw [← List.filter_append, List.take_append_drop, List.filter_eq_self]
      intro c hc
      have := hd.le c hc
      simp; omega
    have : L.filter (· ≤ n) = d.output := by
      rw [← filter_lt_le hlt, hlo, hperm, List.filter_eq_self]
      intro c hc
      have := hd.le c hc
      simp; omega
    have hs := fa.size
    have hlen := ha.len
    rw [ha.n1, this, ha.out] at hs
    simp only [List.length_append, List.length_take, List.length_cons, List.length_drop] at hs
    omega
  have hnm : n = m := by
    have h1 := key ha hb fa fb
    have h2 := key hb ha fb fa
    omega
  subst hnm
  -- so does the place on the left
  have key2 : ∀ {a b : Punycode.State} {p q : Nat}, Insert d a n p → Insert d b n q → Final a L → Final b L → ¬ p < q := by
    intro a b p q ha hb fa fb hlt
    have hf := fa.front
    have hg := fb.front
    have hla := ha.len
    have hlb := hb.len
    rw [ha.n1, ha.i1, ha.out] at hf
    rw [hb.n1, hb.i1, hb.out] at hg
    have e1 : (L.filter (· ≤ n))[p]? = some n := by
      have := congrArg (·[p]?) hf
      simp only [List.getElem?_take, show p < p + 1 by omega, if_true] at this
      rw [this, List.getElem?_append_right (by simp), List.length_take, Nat.min_eq_left hla, Nat.sub_self]
      rfl
    have e2 : (L.filter (· ≤ n))[p]? = d.output[p]? := by
      have := congrArg (·[p]?) hg
      simp only [List.getElem?_take, show p < q + 1 by omega, if_true] at this
      rw [this, List.getElem?_append_left (by rw [List.length_take]; omega), List.getElem?_take, if_pos hlt]
    rw [e1] at e2
    have hmem := List.mem_of_getElem? e2.symm
    have hge := ha.ge
    rcases Nat.lt_or_ge d.n n with h | h
    · have := hd.le n hmem; omega
    · have hi := ha.after (by omega)
      have : n ∈ d.output.drop d.i := by
        have : (d.output.drop d.i)[p - d.i]? = some n := by
          rw [List.getElem?_drop, show d.i + (p - d.i) = p by omega]; exact e2.symm
        exact List.mem_of_getElem? this
      have := hd.lt n this
      omega
  refine ⟨rfl, ?_⟩
  have h1 := key2 ha hb fa fb
  have h2 := key2 hb ha fb fa
  omega

/-- The decoder ends in a state with the final text. -/
theorem steps_final {ds : List UInt8} : ∀ {d d' : Punycode.State}, Sane d → Punycode.steps d ds = some d' → d'.k = 36 →
    Final d d'.output ∧ d.output.length ≤ d'.output.length ∧ (ds ≠ [] → d.output.length < d'.output.length) := by
  induction hn : ds.length using Nat.strong_induction_on generalizing ds with
  | _ n ih =>
    subst hn
    intro d d' hd hs hk
    by_cases hne : ds = []
    · subst hne
      simp only [Punycode.steps, Option.some.injEq] at hs
      subst hs
      exact ⟨final_self hd, le_refl _, fun h => absurd rfl h⟩
    · obtain ⟨ds1, ds2, q, e1, e2, e3⟩ := first_integer ds d d' hs hk (by rw [hd.k]; omega) (fun h => absurd h hne)
      have hins := taken_insert hd q
      have hlt : ds2.length < ds.length := by
        rw [e1, List.length_append]
        have : 0 < ds1.length := by cases e2 <;> simp
        omega
      obtain ⟨h1, h2, _⟩ := ih ds2.length hlt rfl (insert_sane hd hins rfl rfl rfl) e3 hk
      have hl : (taken d (d.i + q * d.w)).output.length = d.output.length + 1 := by
        rw [hins.out]
        have := hins.len
        simp only [List.length_append, List.length_take, List.length_cons, List.length_drop]; omega
      exact ⟨insert_final hd hins h1, by omega, fun _ => by omega⟩

theorem steps_unique {ds : List UInt8} : ∀ {ds' : List UInt8} {d a b : Punycode.State}, Sane d → Punycode.steps d ds = some a →
    Punycode.steps d ds' = some b → a.k = 36 → b.k = 36 → a.output = b.output → (∀ c ∈ ds, NotUpper c) → (∀ c ∈ ds', NotUpper c) → ds' = ds := by
  induction hn : ds.length using Nat.strong_induction_on generalizing ds with
  | _ n ih =>
    subst hn
    intro ds' d a b hd ha hb hka hkb hout hu hu'
    by_cases hne : ds = []
    · subst hne
      simp only [Punycode.steps, Option.some.injEq] at ha
      subst ha
      by_contra h
      have := (steps_final hd hb hkb).2.2 h
      rw [hout] at this
      omega
    · by_cases hne' : ds' = []
      · subst hne'
        simp only [Punycode.steps, Option.some.injEq] at hb
        subst hb
        have := (steps_final hd ha hka).2.2 hne
        rw [hout] at this
        omega
      · obtain ⟨ds1, ds2, q, e1, e2, e3⟩ := first_integer ds d a ha hka (by rw [hd.k]; omega) (fun h => absurd h hne)
        obtain ⟨ds1', ds2', q', e1', e2', e3'⟩ := first_integer ds' d b hb hkb (by rw [hd.k]; omega) (fun h => absurd h hne')
        have hins := taken_insert hd q
        have hins' := taken_insert hd q'
        have hsane := insert_sane hd hins rfl rfl rfl
        have hsane' := insert_sane hd hins' rfl rfl rfl
        have hf := (steps_final hsane e3 hka).1
        have hf' := (steps_final hsane' e3' hkb).1
        rw [← hout] at hf'
        obtain ⟨hn, hp⟩ := insert_unique hd hins hins' hf hf'
        have hq : q = q' := by
          have h1 := Nat.div_add_mod (d.i + q) (d.output.length + 1)
          have h2 := Nat.div_add_mod (d.i + q') (d.output.length + 1)
          rw [show (d.i + q) / (d.output.length + 1) = (d.i + q') / (d.output.length + 1) by omega, hp] at h1
          omega
        subst hq
        have hd1 : ds1' = ds1 := digs_unique e2 e2' (fun c hc => hu c (by rw [e1]; exact List.mem_append_left _ hc))
          (fun c hc => hu' c (by rw [e1']; exact List.mem_append_left _ hc))
        have hlt : ds2.length < ds.length := by
          rw [e1, List.length_append]
          have : 0 < ds1.length := by cases e2 <;> simp
          omega
        have hd2 := ih ds2.length hlt rfl hsane e3 e3' hka hkb hout (fun c hc => hu c (by rw [e1]; exact List.mem_append_right _ hc))
          (fun c hc => hu' c (by rw [e1']; exact List.mem_append_right _ hc))
        rw [e1, e1', hd1, hd2]

theorem extended_split (s : List UInt8) : Punycode.extended s = s ∨ ∃ b, s = b ++ 0x2D :: Punycode.extended s := by
  have h := List.takeWhile_append_dropWhile (p := (· ≠ (0x2D : UInt8))) (l := s.reverse)
  cases hd : s.reverse.dropWhile (· ≠ (0x2D : UInt8)) with
  | nil =>
    left
    rw [hd, List.append_nil] at h
    rw [Punycode.extended, h, List.reverse_reverse]
  | cons c r =>
    right
    have hc : c = 0x2D := by
      have := List.head_dropWhile_not (p := (· ≠ (0x2D : UInt8))) (l := s.reverse) (by rw [hd]; simp)
      simp only [hd, List.head_cons] at this
      simpa using this
    subst hc
    refine ⟨r.reverse, ?_⟩
    rw [hd] at h
    have := congrArg List.reverse h
    rw [List.reverse_append, List.reverse_reverse, List.reverse_cons, List.append_assoc] at this
    exact this.symm

/-- The parts of a decodable text. -/
theorem decode_parts {s : List UInt8} {L : List Nat} (h : Punycode.decode s = some L) :
    ∃ b ext, (∀ c ∈ b, c.toNat < 128) ∧ s = (if b = [] then ext else b ++ 0x2D :: ext) ∧
      ∃ st, Punycode.steps { output := b.map UInt8.toNat, n := 128, i := 0, bias := 72, oldi := 0, w := 1, k := 36 } ext = some st ∧
        st.k = 36 ∧ st.output = L := by
  have fin : ∀ b : List UInt8, (match Punycode.steps { output := b.map UInt8.toNat, n := 128, i := 0, bias := 72, oldi := 0, w := 1, k := 36 }
      (Punycode.extended s) with
    | none => none
    | some st => if st.k = 36 then some st.output else none) = some L →
      ∃ st, Punycode.steps { output := b.map UInt8.toNat, n := 128, i := 0, bias := 72, oldi := 0, w := 1, k := 36 } (Punycode.extended s) = some st ∧
        st.k = 36 ∧ st.output = L := by
    intro b hb
    split at hb
    · cases hb
    · rename_i st hst
      by_cases hk : st.k = 36
      · rw [if_pos hk, Option.some.injEq] at hb
        exact ⟨st, hst, hk, hb⟩
      · rw [if_neg hk] at hb; cases hb
  rw [Punycode.decode] at h
  rcases extended_split s with he | ⟨b, he⟩
  · refine ⟨[], Punycode.extended s, by simp, by rw [if_pos rfl, he], ?_⟩
    have : s.take (s.length - (Punycode.extended s).length - 1) = [] := by rw [he]; simp
    simp only [this] at h
    split at h
    · cases h
    · exact fin [] h
  · have ht : s.take (s.length - (Punycode.extended s).length - 1) = b := by
      generalize Punycode.extended s = x at he
      subst he
      rw [show (b ++ 0x2D :: x).length - x.length - 1 = b.length by rw [List.length_append, List.length_cons]; omega, List.take_left]
    have hlt : (Punycode.extended s).length < s.length := by
      conv_rhs => rw [he]
      simp; omega
    simp only [ht] at h
    split at h
    · cases h
    · rename_i hc
      simp only [Bool.or_eq_true, not_or, List.any_eq_true, not_exists, not_and, Bool.and_eq_true, decide_eq_true_eq] at hc
      have hne : b ≠ [] := by
        intro h0; subst h0; exact hc.2 hlt rfl
      refine ⟨b, Punycode.extended s, fun c hcm => ?_, by rw [if_neg hne]; exact he, fin b h⟩
      have := hc.1 c hcm
      simpa [UInt8.le_iff_toNat_le] using this

theorem start_sane (b : List UInt8) (hb : ∀ c ∈ b, c.toNat < 128) :
    Sane { output := b.map UInt8.toNat, n := 128, i := 0, bias := 72, oldi := 0, w := 1, k := 36 } := by
  refine ⟨rfl, rfl, rfl, ?_, ?_, by simp⟩
  · intro c hc
    obtain ⟨x, hx, rfl⟩ := List.mem_map.1 hc
    have := hb x hx
    simp only; omega
  · intro c hc
    obtain ⟨x, hx, rfl⟩ := List.mem_map.1 hc
    exact hb x hx

theorem decode_unique {s s' : List UInt8} {L : List Nat} (h : Punycode.decode s = some L) (h' : Punycode.decode s' = some L)
    (hu : ∀ c ∈ s, NotUpper c) (hu' : ∀ c ∈ s', NotUpper c) : s = s' := by
  obtain ⟨b, e, hb, hs, st, h1, h2, h3⟩ := decode_parts h
  obtain ⟨b', e', hb', hs', st', h1', h2', h3'⟩ := decode_parts h'
  have key : ∀ {b : List UInt8} {e : List UInt8} {st : Punycode.State}, (∀ c ∈ b, c.toNat < 128) →
      Punycode.steps { output := b.map UInt8.toNat, n := 128, i := 0, bias := 72, oldi := 0, w := 1, k := 36 } e = some st → st.k = 36 →
      st.output = L → b.map UInt8.toNat = L.filter (· < 128) := by
    intro b e st hb h1 h2 h3
    have := (steps_final (start_sane b hb) h1 h2).1.lo
    rw [h3] at this
    simp only at this
    rw [this, eq_comm, List.filter_eq_self]
    intro c hc
    obtain ⟨x, hx, rfl⟩ := List.mem_map.1 hc
    simpa using hb x hx
  have hbb : b = b' := by
    have := (key hb h1 h2 h3).trans (key hb' h1' h2' h3').symm
    exact List.map_injective_iff.2 (fun _ _ h => UInt8.toNat_inj.1 h) this
  subst hbb
  have hee : e' = e := by
    refine steps_unique (start_sane b hb) h1 h1' h2 h2' (h3.trans h3'.symm) (fun c hc => hu c ?_) (fun c hc => hu' c ?_)
    · rw [hs]; split <;> simp [hc]
    · rw [hs']; split <;> simp [hc]
  rw [hs, hs', hee]

theorem toAscii_unique {l : List Nat} {e e' : List UInt8} (h : Punycode.ToAscii l e) (h' : Punycode.ToAscii l e') : e = e' := by
  rcases h with ⟨h1, rfl⟩ | ⟨⟨c, hc, h1⟩, p, rfl, h2, h3⟩
  · rcases h' with ⟨_, rfl⟩ | ⟨⟨c, hc, h2⟩, _⟩
    · rfl
    · have := h1 c hc; omega
  · rcases h' with ⟨h4, _⟩ | ⟨_, p', rfl, h4, h5⟩
    · have := h4 c hc; omega
    · rw [decode_unique h2 h4 h3 h5]

theorem toAscii_unique_all {ls : List (List Nat)} {es : List (List UInt8)} (h : List.Forall₂ Punycode.ToAscii ls es) :
    ∀ {es'}, List.Forall₂ Punycode.ToAscii ls es' → es = es' := by
  induction h with
  | nil => intro es' h'; cases h'; rfl
  | cons h1 _ ih => intro es' h'; cases h' with | cons h2 h3 => rw [toAscii_unique h1 h2, ih h3]

end Verif.Puny
