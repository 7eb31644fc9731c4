import Verif.Proofs.PunyPass1

/-! The second pass of the Punycode encoder: its output, read by the decoder, inserts the code points of the label one after the other. -/

namespace Verif.Puny
open Verif.Spec Verif.Utf8
open Verif.Spec.Utf8 (IsScalar enc width form)
open Verif.Spec.Unicode (encs)
open Verif.Unicode (encs_cons)

/-- The decoder is between two integers. -/
structure Between (d : Punycode.State) (basic : Nat) : Prop where
  w : d.w = 1
  k : d.k = 36
  oldi : d.oldi = d.i
  bias : d.bias ≤ 288
  least : basic ≤ d.output.length
  first : d.output.length = basic ↔ d.i = 0

theorem steps_append (d : Punycode.State) (a b : List UInt8) :
    Punycode.steps d (a ++ b) = (Punycode.steps d a).bind fun d => Punycode.steps d b := by
  induction a generalizing d with
  | nil => rfl
  | cons c a ih =>
    simp only [List.cons_append, Punycode.steps]
    cases Punycode.step d c with
    | none => rfl
    | some d => exact ih d

theorem scanLoop_stop (e basic m : Nat) (x : List Nat) (r : List UInt8) (s : St) (h : x = [] ∨ ∃ y, x = 0x2E :: y) :
    scanLoop e basic m (at' x r) s = .ok s := by
  rw [scanLoop]
  rcases h with rfl | ⟨y, rfl⟩
  · rw [if_pos (at_nil r)]
  · obtain ⟨h0, b, t, h1, h2⟩ := at_cons (c := 0x2E) (by simp [IsScalar]) y r
    rw [if_neg h0]
    have hb : b = 0x2E := (h2 0x2E (by decide)).2 (by decide)
    simp only [h1, hb, if_true]

theorem scanLoop_cons (e basic m : Nat) {c : Nat} (hc : IsScalar c) (h : c ≠ 0x2E) (x : List Nat) (r : List UInt8) (s : St) :
    scanLoop e basic m (at' (c :: x) r) s =
      if c ≠ m then
        if c < m then match int (s.delta + 1) with
          | .error e => .error e
          | .ok delta => scanLoop e basic m (at' x r) { s with delta := delta }
        else scanLoop e basic m (at' x r) s
      else match digitLoop e s.bias s.delta 36 s.out with
        | .error e => .error e
        | .ok out => match adapt s.delta (s.handled + 1) (s.handled == basic) with
          | .error e => .error e
          | .ok bias => scanLoop e basic m (at' x r) { out := out, delta := 0, bias := bias, handled := s.handled + 1 } := by
  rw [scanLoop]
  obtain ⟨h0, b, t, h1, h2⟩ := at_cons hc x r
  rw [if_neg h0]
  have hb : b ≠ 0x2E := fun hb => h ((h2 0x2E (by decide)).1 hb)
  have hd := decode_at hc x r
  simp only [h1, if_neg hb]
  split
  · rename_i e he; rw [hd] at he; cases he
  · rename_i he; rw [hd] at he; cases he
  · rename_i cp q he
    rw [hd] at he
    cases he
    rfl

/-- One pass over the label. -/
theorem scanLoop_spec (basic m : Nat) (hm : 128 ≤ m) (hm' : m < 0x110000) (r : List UInt8) (x : List Nat) :
    ∀ (d : Punycode.State) (a : List Nat) (delta : Nat), (∀ c ∈ x, IsScalar c) → Between d basic → a.length + x.length ≤ 254 →
    d.output = a ++ ((lab x).filter (· < m)).map Punycode.lower → d.n ≤ m →
    delta + d.i = (m - d.n) * (d.output.length + 1) + a.length →
    ∃ (ds : List UInt8) (d' : Punycode.State) (delta' : Nat), (∀ c ∈ ds, IsDig c) ∧ Punycode.steps d ds = some d' ∧ Between d' basic ∧
      d'.output = a ++ ((lab x).filter (· ≤ m)).map Punycode.lower ∧ d'.n ≤ m ∧
      delta' + d'.i = (m - d'.n) * (d'.output.length + 1) + d'.output.length ∧
      ∀ buf q w, scanLoop buf.length basic m (at' x r) { out := rep buf q w, delta := delta, bias := d.bias, handled := d.output.length } =
        .ok { out := rep buf q (w ++ ds), delta := delta', bias := d'.bias, handled := d'.output.length } := by
  have stop : ∀ (x : List Nat) (d : Punycode.State) (a : List Nat) (delta : Nat), (x = [] ∨ ∃ y, x = 0x2E :: y) → Between d basic →
      d.output = a ++ ((lab x).filter (· < m)).map Punycode.lower → d.n ≤ m →
      delta + d.i = (m - d.n) * (d.output.length + 1) + a.length →
      ∃ (ds : List UInt8) (d' : Punycode.State) (delta' : Nat), (∀ c ∈ ds, IsDig c) ∧ Punycode.steps d ds = some d' ∧ Between d' basic ∧
      d'.output = a ++ ((lab x).filter (· ≤ m)).map Punycode.lower ∧ d'.n ≤ m ∧
      delta' + d'.i = (m - d'.n) * (d'.output.length + 1) + d'.output.length ∧
      ∀ buf q w, scanLoop buf.length basic m (at' x r) { out := rep buf q w, delta := delta, bias := d.bias, handled := d.output.length } =
        .ok { out := rep buf q (w ++ ds), delta := delta', bias := d'.bias, handled := d'.output.length } := by
    intro x d a delta hstop hb ho hn hd
    have hlab : lab x = [] := by
      rcases hstop with rfl | ⟨y, rfl⟩
      · rfl
      · exact lab_dot y
    rw [hlab] at ho ⊢
    simp only [List.filter_nil, List.map_nil, List.append_nil] at ho ⊢
    refine ⟨[], d, delta, by simp, rfl, hb, ho, hn, by rw [hd, ho], fun buf q w => ?_⟩
    rw [scanLoop_stop _ _ _ _ _ _ hstop, List.append_nil]
  induction x with
  | nil =>
    intro d a delta _ hb _ ho hn hd
    exact stop [] d a delta (.inl rfl) hb ho hn hd
  | cons c x ih =>
    intro d a delta hx hb hlen ho hn hd
    by_cases hdot : c = 0x2E
    · subst hdot
      exact stop _ d a delta (.inr ⟨x, rfl⟩) hb ho hn hd
    have hc := hx c (by simp)
    have hx' : ∀ c ∈ x, IsScalar c := fun c h => hx c (List.mem_cons_of_mem _ h)
    simp only [List.length_cons] at hlen
    have hlabx : (lab x).length ≤ x.length := (List.takeWhile_sublist _).length_le
    have hol : d.output.length ≤ 254 := by
      rw [ho, List.length_append, List.length_map]
      have := (List.filter_sublist (p := (· < m)) (l := lab (c :: x))).length_le
      have : (lab (c :: x)).length ≤ (c :: x).length := (List.takeWhile_sublist _).length_le
      simp only [List.length_cons] at this
      omega
    have hmul : (m - d.n) * (d.output.length + 1) ≤ 0x110000 * 255 := Nat.mul_le_mul (by omega) (by omega)
    have hdelta : delta < 2 ^ 30 := by omega
    rw [lab_cons hdot] at ho ⊢
    by_cases hcm : c = m
    · -- the code point is inserted
      subst hcm
      simp only [List.filter_cons, Nat.lt_irrefl, decide_false, Bool.false_eq_true, if_false, Nat.le_refl, decide_true, if_true] at ho ⊢
      obtain ⟨ds, h1, h2, h3⟩ := digitLoop_ok d.bias (by have := hb.bias; omega) 10 delta 36 (by norm_num; omega) (by norm_num)
      have hi : d.i + delta * d.w = a.length + (d.output.length + 1) * (c - d.n) := by
        rw [hb.w, Nat.mul_one, Nat.mul_comm (d.output.length + 1)]; omega
      have hal : a.length < d.output.length + 1 := by rw [ho]; simp; omega
      have hmod : (d.i + delta * d.w) % (d.output.length + 1) = a.length := by rw [hi, Nat.add_mul_mod_self_left, Nat.mod_eq_of_lt hal]
      have hdiv : (d.i + delta * d.w) / (d.output.length + 1) = c - d.n := by
        rw [hi, Nat.add_mul_div_left _ _ (by omega), Nat.div_eq_of_lt hal, Nat.zero_add]
      have hsub : d.i + delta * d.w - d.oldi = delta := by rw [hb.oldi, hb.w]; omega
      have hlow : Punycode.lower c = c := by simp only [Punycode.lower]; rw [if_neg (by omega)]
      have hst := h3 d rfl hb.k
      obtain ⟨d1, hd1⟩ : ∃ d1 : Punycode.State, d1 = taken d (d.i + delta * d.w) := ⟨_, rfl⟩
      rw [← hd1] at hst
      have hd1' : d1 = { output := d.output.take a.length ++ c :: d.output.drop a.length, n := c, i := a.length + 1,
                         bias := Punycode.adapt delta (d.output.length + 1) (d.oldi == 0), oldi := a.length + 1, w := 1, k := 36 } := by
        rw [hd1]
        simp only [taken, hmod, hdiv, hsub, show d.n + (c - d.n) = c by omega]
      have hout : d1.output = (a ++ [c]) ++ ((lab x).filter (· < c)).map Punycode.lower := by
        rw [hd1']
        simp only [ho, List.take_left, List.drop_left, List.append_assoc, List.cons_append, List.nil_append]
      have hlen1 : d1.output.length = d.output.length + 1 := by rw [hout, ho]; simp; omega
      have hb1 : Between d1 basic := by
        refine ⟨by rw [hd1'], by rw [hd1'], by rw [hd1'], ?_, ?_, ?_⟩
        · rw [hd1']; exact adapt_bound _ _ _ (by omega)
        · have := hb.least; omega
        · have := hb.least
          rw [hlen1]
          constructor
          · intro h; omega
          · intro h; rw [hd1'] at h; simp at h
      obtain ⟨ds', d', delta', g1, g2, g3, g4, g5, g6, g7⟩ := ih d1 (a ++ [c]) 0 hx' hb1 (by simp; omega) hout (by rw [hd1'])
        (by rw [hd1']; simp)
      refine ⟨ds ++ ds', d', delta', ?_, ?_, g3, ?_, g5, g6, fun buf q w => ?_⟩
      · intro y hy
        rcases List.mem_append.1 hy with hy | hy
        · exact h1 y hy
        · exact g1 y hy
      · rw [steps_append, hst]; exact g2
      · rw [g4]; simp [hlow]
      · rw [scanLoop_cons _ _ _ hc hdot, if_neg (by simp), show (36 : Int) = ((36 : Nat) : Int) from rfl, h2]
        simp only
        rw [adapt_ok _ _ _ (by omega) (by omega)]
        simp only
        have hfirst : (d.output.length == basic) = (d.oldi == 0) := by
          rw [Bool.eq_iff_iff, beq_iff_eq, beq_iff_eq, hb.oldi, hb.first]
        rw [hfirst, ← List.append_assoc, ← g7]
        congr 2
        · rw [hd1']
        · exact hlen1.symm
    · by_cases hlt : c < m
      · have hle : c ≤ m := by omega
        simp only [List.filter_cons, hlt, hle, decide_true, if_true, List.map_cons] at ho ⊢
        obtain ⟨ds, d', delta', g1, g2, g3, g4, g5, g6, g7⟩ := ih d (a ++ [Punycode.lower c]) (delta + 1) hx' hb (by simp; omega)
          (by rw [ho]; simp) hn (by simp only [List.length_append, List.length_cons, List.length_nil]; omega)
        refine ⟨ds, d', delta', g1, g2, g3, by rw [g4]; simp, g5, g6, fun buf q w => ?_⟩
        rw [scanLoop_cons _ _ _ hc hdot, if_pos hcm, if_pos hlt, int_ok (by simp only; omega) (by simp only; omega)]
        exact g7 buf q w
      · have hnle : ¬ c ≤ m := by omega
        simp only [List.filter_cons, hlt, hnle, decide_false, Bool.false_eq_true, if_false] at ho ⊢
        obtain ⟨ds, d', delta', g1, g2, g3, g4, g5, g6, g7⟩ := ih d a delta hx' hb (by omega) ho hn hd
        refine ⟨ds, d', delta', g1, g2, g3, g4, g5, g6, fun buf q w => ?_⟩
        rw [scanLoop_cons _ _ _ hc hdot, if_pos hcm, if_neg hlt]
        exact g7 buf q w

/-- All passes over the label. -/
theorem pass2Loop_spec (basic : Nat) (r : List UInt8) (x : List Nat) (hx : ∀ c ∈ x, IsScalar c) (hlen : x.length ≤ 254) (ms : List Nat) :
    ∀ (n : Nat) (d : Punycode.State) (delta : Nat), ms.Pairwise (· < ·) → (∀ c ∈ ms, n ≤ c ∧ c < 0x110000) → 128 ≤ n →
    (∀ c ∈ lab x, n ≤ c → c ∈ ms) → Between d basic → d.output = ((lab x).filter (· < n)).map Punycode.lower → d.n ≤ n → n ≤ 0x110000 →
    delta + d.i = (n - d.n) * (d.output.length + 1) →
    ∃ (ds : List UInt8) (d' : Punycode.State), (∀ c ∈ ds, IsDig c) ∧ Punycode.steps d ds = some d' ∧ Between d' basic ∧
      d'.output = (lab x).map Punycode.lower ∧
      ∀ buf q w, ∃ s, pass2Loop buf.length basic (at' x r) ms n { out := rep buf q w, delta := delta, bias := d.bias, handled := d.output.length } =
        .ok s ∧ s.out = rep buf q (w ++ ds) := by
  have hlab : (lab x).length ≤ 254 := le_trans (List.takeWhile_sublist _).length_le hlen
  induction ms with
  | nil =>
    intro n d delta _ _ _ hall hb ho _ _ _
    refine ⟨[], d, by simp, rfl, hb, ?_, fun buf q w => ⟨_, rfl, by simp⟩⟩
    rw [ho, List.filter_eq_self.2]
    intro c hc
    by_contra h
    have := hall c hc (by simpa using h)
    simp at this
  | cons m ms ih =>
    intro n d delta hs hms hn hall hb ho hdn hn' hd
    rw [List.pairwise_cons] at hs
    have hm := hms m (by simp)
    have hfilter : (lab x).filter (· < m) = (lab x).filter (· < n) := by
      apply List.filter_congr
      intro c hc
      rw [decide_eq_decide]
      constructor
      · intro h
        by_contra h'
        rcases List.mem_cons.1 (hall c hc (by omega)) with rfl | hmem
        · omega
        · have := hs.1 c hmem; omega
      · intro h; omega
    have hol : d.output.length ≤ 254 := by
      rw [ho, List.length_map]
      exact le_trans (List.filter_sublist).length_le hlab
    have hsum : (n - d.n) * (d.output.length + 1) + (m - n) * (d.output.length + 1) = (m - d.n) * (d.output.length + 1) := by
      rw [← Nat.add_mul]; congr 1; omega
    have hmul : (m - d.n) * (d.output.length + 1) ≤ 0x110000 * 255 := Nat.mul_le_mul (by omega) (by omega)
    obtain ⟨ds, d1, delta1, h1, h2, h3, h4, h5, h6, h7⟩ := scanLoop_spec basic m (by omega) hm.2 r x d [] (delta + (m - n) * (d.output.length + 1))
      hx hb (by simpa using hlen) (by rw [hfilter, ho]; rfl) (by omega) (by simp only [List.length_nil]; omega)
    rw [List.nil_append] at h4
    have hol1 : d1.output.length ≤ 254 := by
      rw [h4, List.length_map]
      exact le_trans (List.filter_sublist).length_le hlab
    have hmul1 : (m - d1.n) * (d1.output.length + 1) ≤ 0x110000 * 255 := Nat.mul_le_mul (by omega) (by omega)
    have hnext : delta1 + 1 + d1.i = (m + 1 - d1.n) * (d1.output.length + 1) := by
      rw [show m + 1 - d1.n = (m - d1.n) + 1 by omega, Nat.add_mul]; omega
    obtain ⟨ds', d', g1, g2, g3, g4, g5⟩ := ih (m + 1) d1 (delta1 + 1) hs.2
      (fun c hc => ⟨hs.1 c hc, (hms c (List.mem_cons_of_mem _ hc)).2⟩) (by omega)
      (fun c hc hle => by
        rcases List.mem_cons.1 (hall c hc (by omega)) with rfl | h
        · omega
        · exact h)
      h3 (by rw [h4]; simp only [Nat.lt_succ_iff]) (by omega) (by omega) hnext
    refine ⟨ds ++ ds', d', ?_, ?_, g3, g4, fun buf q w => ?_⟩
    · intro y hy
      rcases List.mem_append.1 hy with hy | hy
      · exact h1 y hy
      · exact g1 y hy
    · rw [steps_append, h2]; exact g2
    · obtain ⟨s, hs1, hs2⟩ := g5 buf q (w ++ ds)
      refine ⟨s, ?_, by rw [hs2, List.append_assoc]⟩
      rw [pass2Loop, show (m : Int) - n = ((m - n : Nat) : Int) by omega, int_ok (by omega) (by omega), ok_bind]
      have hle : (m - n) * (d.output.length + 1) ≤ 0x110000 * 255 := by omega
      have hdl : toInt ((toSize (delta : Int) + toSize ((m - n : Nat) : Int) * (d.output.length + 1) % 2 ^ 64) % 2 ^ 64) =
          ((delta + (m - n) * (d.output.length + 1) : Nat) : Int) := by
        rw [toSize_nat _ (by omega), toSize_nat _ (by omega), Nat.mod_eq_of_lt (a := (m - n) * (d.output.length + 1)) (by omega),
          Nat.mod_eq_of_lt (by omega), toInt_nat _ (by omega)]
      simp only [hdl]
      rw [h7, ok_bind]
      simp only
      rw [int_ok (by omega) (by omega), ok_bind, int_ok (by omega) (by omega), ok_bind]
      exact_mod_cast hs1

end Verif.Puny
