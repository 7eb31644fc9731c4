import Verif.Proofs.Base64Tail

namespace Verif.Base64
open Verif.Spec.Base64

theorem decodeBuffer_both (src : List UInt8) (n : Nat) (dest : List UInt8) (p62 p63 : UInt8) (ign : Bool) :
    decodeBuffer src n dest p62 p63 ign = (do
      match ← decBoth (dflt p62 43) (dflt p63 47) ign src n dest 0 0 0 with
      | .error d => return (.eilseq, d)
      | .ok s =>
        if s.bits &&& ~~~((~~~ (0 : UInt32)) <<< UInt32.ofNat s.bitCount) ≠ 0 then return (.eilseq, s.dest)
        if !(← goodTail s.src s.left s.bitCount ign) then return (.eilseq, s.dest)
        if 2 ^ 63 ≤ s.pi % 2 ^ 64 then return (.eoverflow, s.dest)
        return (.count s.pi, s.dest)) := by
  simp only [decodeBuffer, decBoth, bind, Except.bind]
  cases decLoop1 (dflt p62 43) (dflt p63 47) ign src n dest 0 0 0 with
  | error e => rfl
  | ok x =>
    cases x with
    | error d => rfl
    | ok s =>
      simp only
      cases decLoop2 (dflt p62 43) (dflt p63 47) ign s.src s.left s.pi s.bits s.bitCount with
      | error e => rfl
      | ok y =>
        cases y with
        | none => rfl
        | some z => rfl

theorem run_length_le (vs : List Nat) (b : UInt32) (bc : Nat) : (run vs b bc).1.length ≤ vs.length := by
  induction vs generalizing b bc with
  | nil => simp [run]
  | cons v vs ih =>
    simp only [run]
    split
    · simp; exact ih _ _
    · have := ih (stepBits b v) (bc + 6); simp; omega

theorem vals_length_le (f : UInt8 → Int) (d : List UInt8) (vs : List Nat) (h : vals f d = some vs) :
    vs.length ≤ d.length := by
  induction d generalizing vs with
  | nil => simp [vals] at h; simp [← h]
  | cons c r ih =>
    simp only [vals] at h
    split at h
    · split at h
      · have := ih vs h; simp; omega
      · simp at h
    · simp only [Option.map_eq_some_iff] at h
      obtain ⟨vs', e, rfl⟩ := h
      have := ih vs' e; simp; omega

theorem vals_filter (f : UInt8 → Int) (k : UInt8 → Bool) (d : List UInt8) (h : ∀ c ∈ d, k c = false → f c = -2) :
    vals f (d.filter k) = vals f d := by
  induction d with
  | nil => rfl
  | cons c r ih =>
    have ih' := ih (fun c' hc' => h c' (List.mem_cons_of_mem _ hc'))
    by_cases hk : k c = true
    · rw [List.filter_cons_of_pos hk]; simp only [vals, ih']
    · rw [List.filter_cons_of_neg hk, ih']
      have := h c (by simp) (by simpa using hk)
      simp [vals, this]

theorem vals_map (f : UInt8 → Int) (g : Nat → UInt8) (vs : List Nat) (h : ∀ v ∈ vs, f (g v) = v) :
    vals f (vs.map g) = some vs := by
  induction vs with
  | nil => rfl
  | cons v vs ih =>
    have := h v (by simp)
    simp only [List.map_cons, vals, this]
    rw [if_neg (by omega), ih (fun v' hv' => h v' (by simp [hv']))]
    simp

theorem vals_append_ws (f : UInt8 → Int) (d w : List UInt8) (h : ∀ c ∈ w, f c = -2) :
    vals f (d ++ w) = vals f d := by
  induction d with
  | nil =>
    induction w with
    | nil => rfl
    | cons c w ih =>
      have := h c (by simp)
      simp only [List.nil_append, vals, this] at ih ⊢
      simpa using ih (fun c' hc' => h c' (by simp [hc']))
  | cons c r ih => simp only [List.cons_append, vals, ih]

/-- If every character of `d` is legal then `d` without whitespace is the text of its values. -/
theorem vals_inv {p62 p63 : UInt8} (ign : Bool) (d : List UInt8) (h1 : (127 : UInt8) ∉ d) (h2 : (255 : UInt8) ∉ d)
    (ha : Alphabet p62 p63) (vs : List Nat)
    (h : vals (getBits · p62 p63 ign) d = some vs) :
    d.filter (fun c => !(ign && isWs c)) = vs.map (digit p62 p63) ∧ ∀ v ∈ vs, v < 64 := by
  induction d generalizing vs with
  | nil => simp [vals] at h; subst h; simp
  | cons c r ih =>
    simp only [List.mem_cons, not_or] at h1 h2
    obtain ⟨g1, g2⟩ := getBits_inv (p62 := p62) (p63 := p63) ign c (Ne.symm h1.1) (Ne.symm h2.1)
    simp only [vals] at h
    split at h
    · split at h
      · rename_i e
        have := g2 e
        simp only [this.1, this.2, List.filter_cons]
        have := ih h1.2 h2.2 vs h
        simpa [(g2 e).1] using this
      · simp at h
    · rename_i hneg
      simp only [Option.map_eq_some_iff] at h
      obtain ⟨vs', e, rfl⟩ := h
      obtain ⟨i1, i2⟩ := ih h1.2 h2.2 vs' e
      obtain ⟨l, eq⟩ := g1 (by omega)
      have hk : (!(ign && isWs c)) = true := by
        cases ign with
        | false => simp
        | true =>
          cases hw : isWs c with
          | false => simp
          | true => have := getBits_ws ha c hw; omega
      rw [List.filter_cons, if_pos hk]
      refine ⟨by rw [i1, List.map_cons, eq], ?_⟩
      intro v hv
      simp only [List.mem_cons] at hv
      rcases hv with rfl | hv
      · exact l
      · exact i2 v hv

theorem pad_eq (n : Nat) : pad n = padOf (pend n) := by
  have : n % 3 = 0 ∨ n % 3 = 1 ∨ n % 3 = 2 := by omega
  rcases this with h | h | h <;> simp [pad, padOf, pend, h]

theorem pend_cases (n : Nat) : pend n = 0 ∨ pend n = 2 ∨ pend n = 4 := by
  simp only [pend]; split
  · simp
  · split <;> simp

theorem takeWhile_append_of_all {p : UInt8 → Bool} (d r : List UInt8) (h : ∀ c ∈ d, p c = true) :
    (d ++ r).takeWhile p = d ++ r.takeWhile p := by
  induction d with
  | nil => rfl
  | cons c d ih => simp [h c (by simp), ih (fun c' hc' => h c' (by simp [hc']))]

/-- The outcome of the decoder expressed through values and the accumulator. -/
theorem decode_char (src : List UInt8) (n : Nat) (dest : List UInt8) (pos62 pos63 : UInt8) (ign : Bool)
    (hr : Readable src n) (hobj : src.length < 2 ^ 63) (hlt : ∀ vs, vals (getBits · (dflt pos62 43) (dflt pos63 47) ign)
      (dataPart (text src n)) = some vs → ∀ v ∈ vs, v < 64) :
    (∃ d : List UInt8, d.length = dest.length ∧ decodeBuffer src n dest pos62 pos63 ign = .ok (.eilseq, d) ∧
      ∀ vs, vals (getBits · (dflt pos62 43) (dflt pos63 47) ign) (dataPart (text src n)) = some vs →
        ¬ ((run vs 0 0).2.2 ≠ 6 ∧ (run vs 0 0).2.1.toNat % 2 ^ (run vs 0 0).2.2 = 0 ∧
          (padOf (run vs 0 0).2.2).isPrefixOf ((text src n).drop (dataPart (text src n)).length) = true ∧
          (if ign then (((text src n).drop (dataPart (text src n)).length).drop (padOf (run vs 0 0).2.2).length).all
              (fun c => decodingOf c = -2)
            else (((text src n).drop (dataPart (text src n)).length).drop (padOf (run vs 0 0).2.2).length).isEmpty) =
            true)) ∨
    (∃ vs, vals (getBits · (dflt pos62 43) (dflt pos63 47) ign) (dataPart (text src n)) = some vs ∧
      decodeBuffer src n dest pos62 pos63 ign = .ok (.count (run vs 0 0).1.length, over dest (run vs 0 0).1) ∧
      (run vs 0 0).2.2 ≠ 6 ∧ (run vs 0 0).2.1.toNat % 2 ^ (run vs 0 0).2.2 = 0 ∧
          (padOf (run vs 0 0).2.2).isPrefixOf ((text src n).drop (dataPart (text src n)).length) = true ∧
          (if ign then (((text src n).drop (dataPart (text src n)).length).drop (padOf (run vs 0 0).2.2).length).all
              (fun c => decodingOf c = -2)
            else (((text src n).drop (dataPart (text src n)).length).drop (padOf (run vs 0 0).2.2).length).isEmpty) =
            true) := by
  obtain ⟨b1, b2⟩ := decBoth_spec (dflt pos62 43) (dflt pos63 47) ign dest src n [] 0 0 hr
  simp only [over_nil, List.length_nil, List.nil_append] at b1 b2
  rw [decodeBuffer_both]
  cases hv : vals (getBits · (dflt pos62 43) (dflt pos63 47) ign) (dataPart (text src n)) with
  | none =>
    left
    obtain ⟨d, hd, e⟩ := b1 hv
    exact ⟨d, hd, by simp [e, bind, Except.bind, pure, Except.pure], by simp⟩
  | some vs =>
    have e := b2 vs hv
    simp only [e, bind, Except.bind]
    have hdl : (dataPart (text src n)).length ≤ (text src n).length :=
      (List.takeWhile_sublist _).length_le
    have hr' := hr.drop hdl
    have ht := text_drop src n _ hdl
    rcases run_inv vs (hlt vs hv) 0 with h6 | ⟨hp, hdig⟩
    · left
      refine ⟨over dest (run vs 0 0).1, by simp, ?_, ?_⟩
      · split
        · rfl
        · rw [h6]; simp [goodTail, pure, Except.pure]
      · intro vs' hvs'
        simp only [Option.some.injEq] at hvs'
        subst hvs'
        tauto
    · have hpc := pend_cases (run vs 0 0).1.length
      rw [← hp] at hpc
      have hm := mask_zero (run vs 0 0).2.1 _ hpc
      have hg := goodTail_spec _ _ _ ign hr' hpc
      rw [ht] at hg
      by_cases hz : (run vs 0 0).2.1.toNat % 2 ^ (run vs 0 0).2.2 = 0
      · rw [if_neg (by simpa using hm.mpr hz), hg]
        simp only
        by_cases hgood : ((padOf (run vs 0 0).2.2).isPrefixOf ((text src n).drop (dataPart (text src n)).length) &&
          (if ign then (((text src n).drop (dataPart (text src n)).length).drop (padOf (run vs 0 0).2.2).length).all
              (fun c => decodingOf c = -2)
            else (((text src n).drop (dataPart (text src n)).length).drop (padOf (run vs 0 0).2.2).length).isEmpty)) = true
        · right
          refine ⟨vs, rfl, ?_, by omega, hz, (Bool.and_eq_true_iff.mp hgood).1, (Bool.and_eq_true_iff.mp hgood).2⟩
          rw [hgood]
          have l1 := run_length_le vs 0 0
          have l2 := vals_length_le _ _ _ hv
          have l4 : (text src n).length ≤ src.length := by
            have h1 := (List.takeWhile_sublist (fun c : UInt8 => decide (c ≠ 0)) (l := src.take n)).length_le
            have h2 : (src.take n).length ≤ src.length := by simp
            simp only [text]; omega
          rw [Nat.mod_eq_of_lt (by omega)]
          have : ¬ (2 ^ 63 ≤ (run vs 0 0).1.length) := by omega
          simp only [Bool.not_true, Bool.false_eq_true, if_false, this, pure, Except.pure]
        · left
          refine ⟨over dest (run vs 0 0).1, by simp, ?_, ?_⟩
          · rw [Bool.not_eq_true] at hgood
            rw [hgood]; rfl
          · intro vs' hvs'
            simp only [Option.some.injEq] at hvs'
            subst hvs'
            rw [Bool.and_eq_true] at hgood
            tauto
      · left
        refine ⟨over dest (run vs 0 0).1, by simp, ?_, ?_⟩
        · rw [if_pos (by simpa using fun h => hz (hm.mp h))]; rfl
        · intro vs' hvs'
          simp only [Option.some.injEq] at hvs'
          subst hvs'
          tauto

theorem dropWhile_head {p : UInt8 → Bool} (t : List UInt8) :
    t.drop (t.takeWhile p).length = t.dropWhile p := by
  induction t with
  | nil => rfl
  | cons c r ih => by_cases h : p c = true <;> simp [h, ih]

theorem digit_ne_61 {p62 p63 : UInt8} (ha : Alphabet p62 p63) (v : Nat) : digit p62 p63 v ≠ 61 := by
  by_cases h : v < 62
  · obtain ⟨_, hr⟩ := decoding_digit ⟨v, h⟩ p62 p63
    simp only at hr
    intro e
    rw [e] at hr
    revert hr; decide
  · simp only [digit]
    rw [if_neg (by omega), if_neg (by omega), if_neg (by omega)]
    split
    · exact (ha.2 p62 (Or.inl rfl)).2.2.2.1
    · exact (ha.2 p63 (Or.inr rfl)).2.2.2.1

/-- A valid text is decoded. -/
theorem decode_valid (src : List UInt8) (n : Nat) (dest : List UInt8) (pos62 pos63 : UInt8) (ign : Bool)
    (hr : Readable src n) (hobj : src.length < 2 ^ 63) (ha : Alphabet (dflt pos62 43) (dflt pos63 47))
    (bs : List UInt8) (hv : Valid (dflt pos62 43) (dflt pos63 47) ign (text src n) bs) :
    decodeBuffer src n dest pos62 pos63 ign = .ok (.count bs.length, over dest bs) := by
  generalize h62 : dflt pos62 43 = p62 at *
  generalize h63 : dflt pos63 47 = p63 at *
  obtain ⟨d, w, ht, hd, hw⟩ := hv
  have hd' : d.filter (fun c => !(ign && isWs c)) = (digits bs).map (digit p62 p63) :=
    List.append_cancel_right hd
  have hwf : ∀ c ∈ w, getBits c p62 p63 ign = -2 := by
    intro c hc; obtain ⟨e1, e2⟩ := hw c hc; rw [e1]; exact getBits_ws ha c e2
  have ws61 : ∀ c, isWs c = true → c ≠ 61 := by rintro c h rfl; simp [isWs] at h
  have hd61 : ∀ c ∈ d, c ≠ 61 := by
    intro c hc
    by_cases hk : (!(ign && isWs c)) = true
    · have : c ∈ d.filter (fun c => !(ign && isWs c)) := List.mem_filter.mpr ⟨hc, hk⟩
      rw [hd', List.mem_map] at this
      obtain ⟨v, _, rfl⟩ := this
      exact digit_ne_61 ha v
    · simp only [Bool.not_eq_true, Bool.not_eq_false', Bool.and_eq_true] at hk
      exact ws61 c hk.2
  have hvd : vals (getBits · p62 p63 ign) d = some (digits bs) := by
    rw [← vals_filter _ (fun c => !(ign && isWs c)) d ?_, hd', vals_map]
    · intro v hv; exact getBits_digit ha ign v (digits_lt bs v hv)
    · intro c _ hk
      simp only [Bool.not_eq_false', Bool.and_eq_true] at hk
      rw [hk.1]; exact getBits_ws ha c hk.2
  have hdp : dataPart (text src n) = if pad bs.length = [] then d ++ w else d := by
    rw [ht, dataPart, List.append_assoc, takeWhile_append_of_all _ _ (by simpa using hd61)]
    split
    · rename_i h
      rw [h, List.nil_append]
      congr 1
      have := takeWhile_append_of_all (p := (fun c : UInt8 => decide (c ≠ 61))) w []
        (by intro c hc; simpa using ws61 c (hw c hc).2)
      simpa using this
    · rename_i h
      have hp : ∃ p, pad bs.length = 61 :: p := by
        have : bs.length % 3 = 0 ∨ bs.length % 3 = 1 ∨ bs.length % 3 = 2 := by omega
        rcases this with h' | h' | h'
        · exact absurd (by simp [pad, h']) h
        · exact ⟨[61], by simp [pad, h', List.replicate]⟩
        · exact ⟨[], by simp [pad, h', List.replicate]⟩
      obtain ⟨p, hp⟩ := hp
      rw [hp]; simp
  have hvals : vals (getBits · p62 p63 ign) (dataPart (text src n)) = some (digits bs) := by
    rw [hdp]; split
    · rw [vals_append_ws _ _ _ hwf, hvd]
    · exact hvd
  have hrest : ∃ w', (text src n).drop (dataPart (text src n)).length = pad bs.length ++ w' ∧
      (∀ c ∈ w', ign = true ∧ isWs c = true) := by
    rw [hdp]; split
    · rename_i h
      refine ⟨[], ?_, by simp⟩
      rw [ht, h]; simp
    · refine ⟨w, ?_, hw⟩
      rw [ht]; simp
  obtain ⟨w', hrest, hw'⟩ := hrest
  obtain ⟨b', e, hz⟩ := run_digits bs 0
  rcases decode_char src n dest pos62 pos63 ign hr hobj (by
    rw [h62, h63]; intro vs hvs; rw [hvals] at hvs; cases hvs; exact digits_lt bs) with ⟨x, _, _, hno⟩ | ⟨vs, hvs, hdec, _⟩
  · exfalso
    rw [h62, h63] at hno
    refine hno _ hvals ?_
    rw [e, hrest, pad_eq]
    refine ⟨?_, hz, ?_, ?_⟩
    · have := pend_cases bs.length; simp only; omega
    · rw [List.isPrefixOf_iff_prefix]; exact ⟨w', rfl⟩
    · rw [List.drop_left]
      cases ign with
      | true =>
        simp only [if_true, List.all_eq_true, decide_eq_true_eq]
        intro c hc
        have h2 := (hw' c hc).2
        exact (table_inv c (by rintro rfl; simp [isWs] at h2) (by rintro rfl; simp [isWs] at h2)).1.mpr h2
      | false =>
        cases w' with
        | nil => rfl
        | cons c w' => have := hw' c (by simp); simp at this
  · rw [h62, h63, hvals] at hvs
    cases hvs
    rw [hdec, e]

/-- A text that is accepted is valid. -/
theorem decode_total (src : List UInt8) (n : Nat) (dest : List UInt8) (pos62 pos63 : UInt8) (ign : Bool)
    (hr : Readable src n) (hobj : src.length < 2 ^ 63) (ha : Alphabet (dflt pos62 43) (dflt pos63 47))
    (h127 : (127 : UInt8) ∉ text src n) (h255 : (255 : UInt8) ∉ text src n) :
    (∃ d : List UInt8, d.length = dest.length ∧ decodeBuffer src n dest pos62 pos63 ign = .ok (.eilseq, d)) ∨
    (∃ bs, Valid (dflt pos62 43) (dflt pos63 47) ign (text src n) bs) := by
  have hsub : ∀ c ∈ dataPart (text src n), c ∈ text src n := fun c hc => (List.takeWhile_sublist _).subset hc
  rcases decode_char src n dest pos62 pos63 ign hr hobj (fun vs hvs => (vals_inv ign _ (fun h => h127 (hsub _ h))
    (fun h => h255 (hsub _ h)) ha vs hvs).2) with ⟨x, hx, e, _⟩ | ⟨vs, hvs, hdec, h6, hz, hp, ht⟩
  · exact Or.inl ⟨x, hx, e⟩
  · right
    obtain ⟨hf, hlt⟩ := vals_inv ign _ (fun h => h127 (hsub _ h)) (fun h => h255 (hsub _ h)) ha vs hvs
    rcases run_inv vs hlt 0 with h | ⟨hpend, hdig⟩
    · exact absurd h h6
    · have hdig := hdig hz
      rw [List.isPrefixOf_iff_prefix] at hp
      obtain ⟨w, hw⟩ := hp
      rw [hpend, ← pad_eq] at hw
      rw [hpend, ← pad_eq, ← hw, List.drop_left] at ht
      refine ⟨(run vs 0 0).1, dataPart (text src n), w, ?_, ?_, ?_⟩
      · rw [List.append_assoc, hw]
        have : dataPart (text src n) = (text src n).take (dataPart (text src n)).length := by
          exact (List.prefix_iff_eq_take.mp (List.takeWhile_prefix _))
        conv_lhs => rw [← List.take_append_drop (dataPart (text src n)).length (text src n), ← this]
      · rw [hf, encode, hdig]
      · intro c hc
        have hct : c ∈ text src n := by
          have : c ∈ (text src n).drop (dataPart (text src n)).length := by rw [← hw]; simp [hc]
          exact List.mem_of_mem_drop this
        cases ign with
        | true =>
          simp only [if_true, List.all_eq_true, decide_eq_true_eq] at ht
          exact ⟨rfl, (table_inv c (fun e => h127 (e ▸ hct)) (fun e => h255 (e ▸ hct))).1.mp (ht c hc)⟩
        | false =>
          simp only [Bool.false_eq_true, if_false, List.isEmpty_iff] at ht
          rw [ht] at hc; simp at hc

end Verif.Base64
