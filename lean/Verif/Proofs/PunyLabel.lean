import Verif.Proofs.PunyPass2

/-! Encoding one label. -/

namespace Verif.Puny
open Verif.Spec Verif.Utf8
open Verif.Spec.Utf8 (IsScalar enc width form)
open Verif.Spec.Unicode (encs)
open Verif.Unicode (encs_cons encs_append)

theorem enc_last {c : Nat} (hc : IsScalar c) : ∃ t b, enc c = t ++ [b] ∧ (∀ k : UInt8, k.toNat < 128 → (b = k ↔ c = k.toNat)) := by
  have hlt : c < 0x110000 := by simp only [IsScalar] at hc; omega
  simp only [enc, width]
  split_ifs
  · refine ⟨[], UInt8.ofNat c, rfl, fun k hk => ?_⟩
    rw [← UInt8.toNat_inj, UInt8.toNat_ofNat']; omega
  · refine ⟨[UInt8.ofNat (0xC0 + c / 64)], UInt8.ofNat (0x80 + c % 64), rfl, fun k hk => ?_⟩
    rw [← UInt8.toNat_inj, UInt8.toNat_ofNat']; omega
  · refine ⟨[UInt8.ofNat (0xE0 + c / 4096), UInt8.ofNat (0x80 + c / 64 % 64)], UInt8.ofNat (0x80 + c % 64), rfl, fun k hk => ?_⟩
    rw [← UInt8.toNat_inj, UInt8.toNat_ofNat']; omega
  · refine ⟨[UInt8.ofNat (0xF0 + c / 262144), UInt8.ofNat (0x80 + c / 4096 % 64), UInt8.ofNat (0x80 + c / 64 % 64)],
      UInt8.ofNat (0x80 + c % 64), rfl, fun k hk => ?_⟩
    rw [← UInt8.toNat_inj, UInt8.toNat_ofNat']; omega

theorem encs_len_le {x : List Nat} : x.length ≤ (encs x).length := by
  induction x with
  | nil => simp
  | cons c x ih =>
    rw [encs_cons, List.length_append, Verif.Unicode.enc_length, List.length_cons]
    have := (width_bounds c).1
    omega

/-- The label begins or the text ends with a hyphen. -/
def Hyphen (x : List Nat) : Prop := x.head? = some 0x2D ∨ x.getLast? = some 0x2D

instance (x : List Nat) : Decidable (Hyphen x) := by unfold Hyphen; infer_instance

open Classical in
theorem pass1_spec (id : Idna) (x : List Nat) (r : List UInt8) (hx : ∀ c ∈ x, IsScalar c) (hne : x ≠ []) :
    ∃ na : List Nat, na.Pairwise (· < ·) ∧ (∀ c, c ∈ na ↔ c ∈ lab x ∧ 128 ≤ c) ∧
      pass1 id (encs x).length (at' x r) =
        .ok (if ¬ Hyphen x ∧ Good id true (lab x) then some (at' (rest x) r, basics (lab x), na) else none) := by
  obtain ⟨na, h1, h2, h3⟩ := pass1Loop_spec id (encs x).length r x true [] [] hx List.Pairwise.nil (by simpa using encs_len_le) (by simpa using encs_len_le)
  refine ⟨na, h1, by simpa using h2, ?_⟩
  have hpos : 0 < (encs x).length := lt_of_lt_of_le (List.length_pos_iff.2 hne) encs_len_le
  obtain ⟨c, x', rfl⟩ := List.exists_cons_of_ne_nil hne
  obtain ⟨b, t, hb1, hb2⟩ := enc_head (hx c (by simp))
  obtain ⟨y, z, hyz⟩ : ∃ y z, c :: x' = y ++ [z] := ⟨_, _, (List.dropLast_append_getLast (by simp)).symm⟩
  obtain ⟨t', b', hl1, hl2⟩ := enc_last (hx z (by rw [hyz]; simp))
  rw [pass1]
  simp only [at']
  rw [if_neg (by omega)]
  have hr0 : rd (encs (c :: x') ++ r) 0 = .ok b := by
    rw [rd, encs_cons, hb1]; rfl
  have hr1 : rd (encs (c :: x') ++ r) ((encs (c :: x')).length - 1) = .ok b' := by
    rw [hyz, encs_append]
    simp only [encs_cons, Verif.Unicode.encs_nil, List.append_nil, hl1]
    rw [rd]
    simp
  show (do
    let a ← rd (encs (c :: x') ++ r) 0
    if a = 0x2D then return none
    let a ← rd (encs (c :: x') ++ r) ((encs (c :: x')).length - 1)
    if a = 0x2D then return none
    pass1Loop id (encs (c :: x')).length (at' (c :: x') r) true [] [] : C _) = _
  rw [hr0, ok_bind]
  have e1 : (b = 0x2D) ↔ (c :: x').head? = some 0x2D := by
    rw [hb2 0x2D (by decide)]; simp
  have e2 : (b' = 0x2D) ↔ (c :: x').getLast? = some 0x2D := by
    rw [hl2 0x2D (by decide), hyz]; simp
  by_cases g1 : b = 0x2D
  · rw [if_pos g1, if_neg (by rintro ⟨h, _⟩; exact h (.inl (e1.1 g1)))]; rfl
  · rw [if_neg g1, hr1, ok_bind]
    by_cases g2 : b' = 0x2D
    · rw [if_pos g2, if_neg (by rintro ⟨h, _⟩; exact h (.inr (e2.1 g2)))]; rfl
    · rw [if_neg g2, h3]
      have hh : ¬ Hyphen (c :: x') := by
        rintro (h | h)
        · exact g1 (e1.2 h)
        · exact g2 (e2.2 h)
      by_cases hg : Good id true (lab (c :: x'))
      · rw [if_pos hg, if_pos ⟨hh, hg⟩]; rfl
      · rw [if_neg hg, if_neg (fun h => hg h.2)]

theorem lower_lt {c : Nat} (h : c < 128) : Punycode.lower c < 128 := by simp only [Punycode.lower]; split_ifs <;> omega

theorem basics_ascii (l : List Nat) : ∀ b ∈ basics l, b.toNat < 128 ∧ ¬ (65 ≤ b.toNat ∧ b.toNat ≤ 90) := by
  intro b hb
  simp only [basics, List.mem_map, List.mem_filter, decide_eq_true_eq] at hb
  obtain ⟨c, ⟨_, hc⟩, rfl⟩ := hb
  rw [UInt8.toNat_ofNat']
  have := lower_lt hc
  rw [Nat.mod_eq_of_lt (by omega)]
  simp only [Punycode.lower] at *
  split_ifs <;> omega

theorem basics_ldh {id : Idna} {first : Bool} {l : List Nat} (h : Good id first l) : ∀ b ∈ basics l, b = 0x2D ∨ IsDig b := by
  intro b hb
  simp only [basics, List.mem_map, List.mem_filter, decide_eq_true_eq] at hb
  obtain ⟨c, ⟨hm, hc⟩, rfl⟩ := hb
  rcases h.1 c hm hc with rfl | h
  · left; decide
  · right
    simp only [IsDig, UInt8.toNat_ofNat', Punycode.lower, Alnum] at *
    split_ifs <;> omega

theorem basics_toNat (l : List Nat) : (basics l).map UInt8.toNat = (l.filter (· < 128)).map Punycode.lower := by
  simp only [basics, List.map_map]
  apply List.map_congr_left
  intro c hc
  simp only [List.mem_filter, decide_eq_true_eq] at hc
  simp only [Function.comp, UInt8.toNat_ofNat']
  have := lower_lt hc.2
  omega

/-- What follows the last hyphen. -/
theorem extended_nodash (a : List UInt8) (ds : List UInt8) (h : ∀ c ∈ ds, IsDig c) : Punycode.extended (a ++ 0x2D :: ds) = ds ∧ Punycode.extended ds = ds := by
  have hds : ∀ c ∈ ds.reverse, decide (c ≠ (0x2D : UInt8)) = true := by
    intro c hc
    have := h c (List.mem_reverse.1 hc)
    simp only [decide_eq_true_eq]
    rintro rfl
    simp [IsDig] at this
  constructor
  · simp only [Punycode.extended, List.reverse_append, List.reverse_cons, List.append_assoc, List.singleton_append]
    rw [List.takeWhile_append_of_pos hds]
    simp
  · have := List.takeWhile_append_of_pos (l₂ := []) hds
    rw [List.append_nil, List.takeWhile_nil, List.append_nil] at this
    rw [Punycode.extended, this, List.reverse_reverse]

/-- The label, decoded. -/
theorem decode_ok {basic : Nat} (a ds : List UInt8) (d : Punycode.State) (l : List Nat) (ha : ∀ b ∈ a, b.toNat < 128) (h : ∀ c ∈ ds, IsDig c) (hd : Between d basic)
    (hs : Punycode.steps { output := a.map UInt8.toNat, n := 128, i := 0, bias := 72, oldi := 0, w := 1, k := 36 } ds = some d)
    (hl : d.output = l) : Punycode.decode (a ++ (if a ≠ [] then [0x2D] else []) ++ ds) = some l := by
  by_cases hne : a = []
  · subst hne
    simp only [ne_eq, not_true_eq_false, if_false, List.nil_append, Punycode.decode, (extended_nodash [] ds h).2]
    simp only [List.map_nil] at hs
    simp [hs, hd.k, hl]
  · simp only [ne_eq, hne, not_false_eq_true, if_true, List.append_assoc, List.singleton_append, Punycode.decode, (extended_nodash a ds h).1]
    have e1 : (a ++ 0x2D :: ds).length - ds.length - 1 = a.length := by simp only [List.length_append, List.length_cons]; omega
    rw [e1, List.take_left]
    have e2 : a.any (fun x => decide (x ≥ 128)) = false := by
      rw [List.any_eq_false]
      intro b hb
      have := ha b hb
      simp only [decide_eq_true_eq, ge_iff_le, UInt8.le_iff_toNat_le]
      show ¬ 128 ≤ b.toNat
      omega
    simp [hne, e2, hs, hd.k, hl]

open Classical in
/-- `punycode_encode` on a text `x`. -/
theorem punycode_spec (id : Idna) (x : List Nat) (r : List UInt8) (hx : ∀ c ∈ x, IsScalar c) (hne : x ≠ []) (hlen : (encs x).length ≤ 254) :
    ∃ e, Punycode.ToAscii (lab x) e ∧ (Good id true (lab x) → ∀ b ∈ e, b = 0x2D ∨ IsDig b) ∧ ∀ buf q, q ≤ buf.length → punycodeEncode id (at' x r) buf q (buf.length - q) =
      .ok (if ¬ Hyphen x ∧ Good id true (lab x) then
          (if (∃ c ∈ lab x, 128 ≤ c) ∧ e.length > 63 then none else some (at' (rest x) r), buf.take q ++ over (buf.drop q) e, e.length)
        else (none, buf, buf.length - q)) := by
  have hxl : x.length ≤ 254 := le_trans encs_len_le hlen
  obtain ⟨na, h1, h2, h3⟩ := pass1_spec id x r hx hne
  have hpos : (encs x).length ≠ 0 := by
    have := lt_of_lt_of_le (List.length_pos_iff.2 hne) (encs_len_le (x := x))
    omega
  -- the first steps of the function
  have hfun : ∀ buf q, q ≤ buf.length → ∀ y, pass1 id (encs x).length (at' x r) = .ok y → punycodeEncode id (at' x r) buf q (buf.length - q) =
      match y with
      | none => .ok (none, buf, buf.length - q)
      | some (next, ascii, nonascii) => (do
        let out : Out := rep buf q []
        let out ← if nonascii.length ≠ 0 then emits buf.length out [0x78, 0x6E, 0x2D, 0x2D] else pure out
        let out ← emits buf.length out ascii
        if nonascii.length = 0 then return (some next, out.buf, out.size)
        let out ← if ascii.length ≠ 0 then emit buf.length out 0x2D else pure out
        let out ← pass2 (at' x r) buf.length out ascii.length nonascii
        if out.size > 63 then return (none, out.buf, out.size)
        return (some next, out.buf, out.size) : C _) := by
    intro buf q hq y hy
    rw [punycodeEncode]
    simp only [at'] at hy ⊢
    rw [if_neg hpos]
    show (do
      match ← pass1 id (encs x).length (encs x ++ r, some (encs x).length) with
      | none => return (none, buf, buf.length - q)
      | some (next, ascii, nonascii) =>
        let out : Out := { o := some q, buf := buf, size := 0 }
        let out ← if nonascii.length ≠ 0 then emits (q + (buf.length - q)) out [0x78, 0x6E, 0x2D, 0x2D] else pure out
        let out ← emits (q + (buf.length - q)) out ascii
        if nonascii.length = 0 then return (some next, out.buf, out.size)
        let out ← if ascii.length ≠ 0 then emit (q + (buf.length - q)) out 0x2D else pure out
        let out ← pass2 (encs x ++ r, some (encs x).length) (q + (buf.length - q)) out ascii.length nonascii
        if out.size > 63 then return (none, out.buf, out.size)
        return (some next, out.buf, out.size) : C _) = _
    have hrep : ({ o := some q, buf := buf, size := 0 } : Out) = rep buf q [] := by
      simp [rep, hq]
    rw [hy, ok_bind, show q + (buf.length - q) = buf.length by omega, hrep]
    cases y with
    | none => rfl
    | some y => rfl
  by_cases hna : ∃ c ∈ lab x, 128 ≤ c
  · -- Punycode
    have hna0 : na.length ≠ 0 := by
      obtain ⟨c, hc1, hc2⟩ := hna
      have : c ∈ na := (h2 c).2 ⟨hc1, hc2⟩
      intro h
      rw [List.length_eq_zero_iff.1 h] at this
      simp at this
    have hscal : ∀ c ∈ lab x, IsScalar c := fun c hc => hx c ((List.takeWhile_sublist _).subset hc)
    obtain ⟨ds, d, g1, g2, g3, g4, g5⟩ := pass2Loop_spec (basics (lab x)).length r x hx hxl na 128
      { output := (basics (lab x)).map UInt8.toNat, n := 128, i := 0, bias := 72, oldi := 0, w := 1, k := 36 } 0 h1
      (fun c hc => ⟨((h2 c).1 hc).2, by have := hscal c ((h2 c).1 hc).1; simp only [IsScalar] at this; omega⟩) (by omega)
      (fun c hc hle => (h2 c).2 ⟨hc, hle⟩) ⟨rfl, rfl, rfl, by simp, by simp, by simp⟩ (basics_toNat _) (by simp) (by simp) (by simp)
    refine ⟨[0x78, 0x6E, 0x2D, 0x2D] ++ (basics (lab x) ++ (if basics (lab x) ≠ [] then [0x2D] else []) ++ ds), .inr ⟨hna, _, rfl,
      decode_ok _ _ _ _ (fun b hb => (basics_ascii _ b hb).1) g1 g3 g2 g4, ?_⟩, fun hgood b hb => ?_, ?_⟩
    · intro c hc
      simp only [List.append_assoc, List.mem_append] at hc
      rcases hc with hc | hc | hc
      · exact (basics_ascii _ c hc).2
      · split_ifs at hc
        · simp only [List.mem_singleton] at hc; subst hc; decide
        · simp at hc
      · have := g1 c hc
        simp only [IsDig] at this
        omega
    · simp only [List.append_assoc, List.mem_append] at hb
      rcases hb with hb | hb | hb | hb
      · simp only [List.mem_cons, List.not_mem_nil, or_false] at hb
        rcases hb with rfl | rfl | rfl | rfl <;> simp [IsDig]
      · exact basics_ldh hgood b hb
      · split_ifs at hb
        · simp only [List.mem_singleton] at hb; exact .inl hb
        · simp at hb
      · exact .inr (g1 b hb)
    · intro buf q hq
      rw [hfun buf q hq _ h3]
      by_cases hgood : ¬ Hyphen x ∧ Good id true (lab x)
      · rw [if_pos hgood, if_pos hgood]
        simp only
        rw [if_pos hna0, emits_rep, ok_bind, emits_rep, ok_bind, if_neg hna0]
        have hdash : ∀ (F : Out → C (Option Pos × List UInt8 × Nat)), (if (basics (lab x)).length ≠ 0 then
              emit buf.length (rep buf q ([] ++ [0x78, 0x6E, 0x2D, 0x2D] ++ basics (lab x))) 0x2D >>= F
            else pure (rep buf q ([] ++ [0x78, 0x6E, 0x2D, 0x2D] ++ basics (lab x))) >>= F) =
            F (rep buf q ([0x78, 0x6E, 0x2D, 0x2D] ++ (basics (lab x) ++ if basics (lab x) ≠ [] then [0x2D] else []))) := by
          intro F
          by_cases hb : basics (lab x) = []
          · simp [hb]
          · rw [if_pos (by simpa using hb), emit_rep, if_pos hb, List.nil_append, List.append_assoc, ok_bind]
        rw [hdash]
        obtain ⟨s, hs1, hs2⟩ := g5 buf q ([0x78, 0x6E, 0x2D, 0x2D] ++ (basics (lab x) ++ if basics (lab x) ≠ [] then [0x2D] else []))
        simp only [List.length_map] at hs1
        rw [pass2]
        rw [show (Nat.cast 0 : Int) = 0 from rfl, show ((72 : Nat) : Int) = 72 from rfl, show ((128 : Nat) : Int) = 128 from rfl] at hs1
        rw [hs1, ok_bind]
        simp only [hs2, pure, Except.pure]
        rw [ok_bind]
        simp only [rep, List.append_assoc]
        generalize [0x78, 0x6E, 0x2D, 0x2D] ++ (basics (lab x) ++ ((if basics (lab x) ≠ [] then [0x2D] else []) ++ ds)) = e
        by_cases h63 : e.length > 63
        · rw [if_pos h63, if_pos ⟨hna, h63⟩]
        · rw [if_neg h63, if_neg (fun h => h63 h.2)]
      · rw [if_neg hgood, if_neg hgood]
  · -- ASCII only
    have hna0 : na.length = 0 := by
      rw [List.length_eq_zero_iff, List.eq_nil_iff_forall_not_mem]
      intro c hc
      exact hna ⟨c, (h2 c).1 hc⟩
    push Not at hna
    have hbas : basics (lab x) = (lab x).map fun c => UInt8.ofNat (Punycode.lower c) := by
      rw [basics, List.filter_eq_self.2 (fun c hc => by simpa using hna c hc)]
    refine ⟨basics (lab x), .inl ⟨hna, hbas⟩, basics_ldh, fun buf q hq => ?_⟩
    rw [hfun buf q hq _ h3]
    by_cases hgood : ¬ Hyphen x ∧ Good id true (lab x)
    · rw [if_pos hgood, if_pos hgood]
      simp only
      rw [if_neg (by omega)]
      simp only [pure, Except.pure]
      rw [ok_bind, emits_rep, ok_bind, if_pos hna0, if_neg (by rintro ⟨⟨c, hc, hc'⟩, _⟩; have := hna c hc; omega)]
      simp [rep]
    · rw [if_neg hgood, if_neg hgood]

end Verif.Puny
