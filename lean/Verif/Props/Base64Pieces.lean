import Verif.Props.Base64

/-!
# C123: base64 can be encoded and decoded piece by piece

The loops over the pieces are the user's.
-/

set_option autoImplicit false

namespace Verif.Base64
open Verif.Spec.Base64

/-- Encode the pieces one after the other, each where the one before ended. -/
def encodeChunks (pos62 pos63 : UInt8) : List (List UInt8) → List UInt8 → C (Nat × List UInt8)
  | [], dest => pure (0, dest)
  | s :: ss, dest => do
    let (n, out) ← encodeBuffer s dest pos62 pos63
    let (m, rest) ← encodeChunks pos62 pos63 ss (out.drop n)
    pure (n + m, out.take n ++ rest)

/-- Decode the pieces one after the other, each where the one before ended. -/
def decodeChunks (pos62 pos63 : UInt8) (ign : Bool) : List (List UInt8) → List UInt8 → C (DecRes × List UInt8)
  | [], dest => pure (.count 0, dest)
  | s :: ss, dest => do
    let (r, out) ← decodeBuffer s s.length dest pos62 pos63 ign
    match r with
    | .count n => do
      let (r', rest) ← decodeChunks pos62 pos63 ign ss (out.drop n)
      match r' with
      | .count m => pure (.count (n + m), out.take n ++ rest)
      | r' => pure (r', out.take n ++ rest)
    | r => pure (r, out)

theorem digits_append {a b : List UInt8} (h : 3 ∣ a.length) : digits (a ++ b) = digits a ++ digits b := by
  induction a using digits.induct with
  | case1 => rfl
  | case2 a => simp at h
  | case3 a b => simp at h
  | case4 a b c rest ih =>
    simp only [List.cons_append, digits, List.cons.injEq, true_and]
    exact ih (by simp only [List.length_cons] at h; omega)

theorem encode_append {p62 p63 : UInt8} {a b : List UInt8} (h : 3 ∣ a.length) : encode p62 p63 (a ++ b) = encode p62 p63 a ++ encode p62 p63 b := by
  have h1 : pad a.length = [] := by simp only [pad]; rw [show (3 - a.length % 3) % 3 = 0 by omega]; rfl
  have h2 : pad (a ++ b).length = pad b.length := by
    simp only [pad, List.length_append]; rw [show (3 - (a.length + b.length) % 3) % 3 = (3 - b.length % 3) % 3 by omega]
  simp only [encode, digits_append h, h1, h2, List.map_append, List.append_nil, List.append_assoc]

/-- C123: encoding pieces, all but the last of a length divisible by three, is encoding the whole. -/
theorem base64_encode_pieces (pos62 pos63 : UInt8) (ss : List (List UInt8)) (last dest : List UInt8) (h3 : ∀ s ∈ ss, 3 ∣ s.length)
    (hroom : ((ss ++ [last]).flatten.length + 2) / 3 * 4 < dest.length) :
    encodeChunks pos62 pos63 (ss ++ [last]) dest = encodeBuffer (ss ++ [last]).flatten dest pos62 pos63 := by
  rw [← encode_length (dflt pos62 43) (dflt pos63 47)] at hroom
  rw [base64_encode_rfc4648 _ _ _ _ hroom]
  induction ss generalizing dest with
  | nil =>
    simp only [List.nil_append, List.flatten_cons, List.flatten_nil, List.append_nil] at hroom ⊢
    simp only [encodeChunks, base64_encode_rfc4648 _ _ _ _ hroom, bind, Except.bind, pure, Except.pure, Nat.add_zero, List.take_append_drop]
  | cons s ss ih =>
    simp only [List.cons_append, List.flatten_cons] at hroom ⊢
    rw [encode_append (h3 s (by simp)), List.length_append] at hroom
    rw [encode_append (h3 s (by simp))]
    simp only [encodeChunks, base64_encode_rfc4648 s dest pos62 pos63 (by omega), bind, Except.bind, pure, Except.pure]
    rw [List.drop_left, List.take_left, ih (0 :: dest.drop _) (fun s hs => h3 s (by simp [hs])) (by
      simp only [List.length_cons, List.length_drop]; omega)]
    simp only [List.length_append, List.drop_succ_cons, List.drop_drop, List.append_assoc, Except.ok.injEq, Prod.mk.injEq, true_and]
    congr 4
    omega

/-- "Man" and "Ma". -/
example : (∀ s ∈ [[77, 97, 110]], 3 ∣ (s : List UInt8).length) ∧
    encodeChunks 0xFF 0xFF ([[77, 97, 110]] ++ [[77, 97]]) (List.replicate 10 7) = .ok (8, [84, 87, 70, 117, 84, 87, 69, 61, 0, 7]) := by
  refine ⟨by decide, ?_⟩
  rw [base64_encode_pieces _ _ _ _ _ (by decide) (by decide)]
  decide +kernel

theorem valid_append {p62 p63 : UInt8} {ign : Bool} {t t' bs bs' : List UInt8} (h : Valid p62 p63 ign t bs) (h3 : 3 ∣ bs.length)
    (h' : Valid p62 p63 ign t' bs') : Valid p62 p63 ign (t ++ t') (bs ++ bs') := by
  obtain ⟨d, w, rfl, hd, hw⟩ := h
  obtain ⟨d', w', rfl, hd', hw'⟩ := h'
  have h1 : pad bs.length = [] := by simp only [pad]; rw [show (3 - bs.length % 3) % 3 = 0 by omega]; rfl
  have h2 : pad (bs ++ bs').length = pad bs'.length := by
    simp only [pad, List.length_append]; rw [show (3 - (bs.length + bs'.length) % 3) % 3 = (3 - bs'.length % 3) % 3 by omega]
  rw [h1, List.append_nil] at hd
  refine ⟨d ++ w ++ d', w', ?_, ?_, hw'⟩
  · rw [h1, h2]; simp
  · have h4 : w.filter (fun c => !(ign && isWs c)) = [] := by
      rw [List.filter_eq_nil_iff]
      intro c hc
      simp [(hw c hc).1, (hw c hc).2]
    rw [List.filter_append, List.filter_append, h4, List.append_nil, hd, h2, List.append_assoc, hd', encode_append h3]

theorem valid_nonzero {p62 p63 : UInt8} (ha : Alphabet p62 p63) {ign : Bool} {t bs : List UInt8} (hv : Valid p62 p63 ign t bs) : (0 : UInt8) ∉ t := by
  obtain ⟨d, w, ht, hd, hw⟩ := hv
  have hd' := List.append_cancel_right hd
  intro h0
  rw [ht] at h0
  simp only [List.mem_append] at h0
  rcases h0 with (hc | hc) | hc
  · have hk : (!(ign && isWs 0)) = true := by cases ign <;> decide
    have : (0 : UInt8) ∈ d.filter (fun c => !(ign && isWs c)) := List.mem_filter.mpr ⟨hc, hk⟩
    rw [hd', List.mem_map] at this
    obtain ⟨v, _, hv⟩ := this
    by_cases h : v < 62
    · obtain ⟨_, hr⟩ := decoding_digit ⟨v, h⟩ p62 p63
      simp only at hr
      rw [hv] at hr; revert hr; decide
    · simp only [digit] at hv
      rw [if_neg (by omega), if_neg (by omega), if_neg (by omega)] at hv
      split at hv
      · exact (ha.2 p62 (Or.inl rfl)).2.2.2.2.1 hv
      · exact (ha.2 p63 (Or.inr rfl)).2.2.2.2.1 hv
  · simp only [pad] at hc
    exact absurd (List.eq_of_mem_replicate hc) (by decide)
  · have := (hw 0 hc).2
    revert this; decide

theorem text_whole {t : List UInt8} (h : (0 : UInt8) ∉ t) : text t t.length = t := by
  rw [text, List.take_length]
  induction t with
  | nil => rfl
  | cons c t ih =>
    rw [List.takeWhile_cons_of_pos (by simp only [ne_eq, decide_eq_true_eq]; rintro rfl; simp at h), ih fun h' => h (by simp [h'])]

theorem decode_whole {pos62 pos63 : UInt8} {ign : Bool} (ha : Alphabet (dflt pos62 43) (dflt pos63 47)) {t bs dest : List UInt8}
    (hv : Valid (dflt pos62 43) (dflt pos63 47) ign t bs) (hobj : t.length < 2 ^ 63) (hroom : bs.length ≤ dest.length) :
    decodeBuffer t t.length dest pos62 pos63 ign = .ok (.count bs.length, bs ++ dest.drop bs.length) := by
  have h := base64_decode_complete t t.length dest pos62 pos63 ign (Or.inl (Nat.le_refl _)) hobj ha bs (by rwa [text_whole (valid_nonzero ha hv)])
  rwa [over, List.take_of_length_le hroom] at h

/-- C123: decoding texts of their own, all but the last with a number of bytes divisible by three, is decoding the whole. -/
theorem base64_decode_pieces (pos62 pos63 : UInt8) (ign : Bool) (ha : Alphabet (dflt pos62 43) (dflt pos63 47)) (ts : List (List UInt8 × List UInt8))
    (t bs dest : List UInt8) (hv : ∀ x ∈ ts, Valid (dflt pos62 43) (dflt pos63 47) ign x.1 x.2 ∧ 3 ∣ x.2.length)
    (hl : Valid (dflt pos62 43) (dflt pos63 47) ign t bs) (hobj : ((ts.map (·.1)).flatten ++ t).length < 2 ^ 63)
    (hroom : ((ts.map (·.2)).flatten ++ bs).length ≤ dest.length) :
    decodeChunks pos62 pos63 ign (ts.map (·.1) ++ [t]) dest =
        .ok (.count ((ts.map (·.2)).flatten ++ bs).length, (ts.map (·.2)).flatten ++ bs ++ dest.drop ((ts.map (·.2)).flatten ++ bs).length) ∧
      decodeChunks pos62 pos63 ign (ts.map (·.1) ++ [t]) dest =
        decodeBuffer ((ts.map (·.1)).flatten ++ t) ((ts.map (·.1)).flatten ++ t).length dest pos62 pos63 ign := by
  have key : ∀ dest : List UInt8, ((ts.map (·.2)).flatten ++ bs).length ≤ dest.length → decodeChunks pos62 pos63 ign (ts.map (·.1) ++ [t]) dest =
        .ok (.count ((ts.map (·.2)).flatten ++ bs).length, (ts.map (·.2)).flatten ++ bs ++ dest.drop ((ts.map (·.2)).flatten ++ bs).length) ∧
      Valid (dflt pos62 43) (dflt pos63 47) ign ((ts.map (·.1)).flatten ++ t) ((ts.map (·.2)).flatten ++ bs) := by
    clear hroom
    induction ts with
    | nil =>
      intro dest hroom
      simp only [List.map_nil, List.flatten_nil, List.nil_append] at hobj hroom ⊢
      refine ⟨?_, hl⟩
      simp only [decodeChunks, decode_whole ha hl hobj hroom, bind, Except.bind, pure, Except.pure, Nat.add_zero, List.take_append_drop]
    | cons x ts ih =>
      intro dest hroom
      simp only [List.map_cons, List.flatten_cons, List.append_assoc, List.cons_append, List.length_append] at hobj hroom ⊢
      obtain ⟨hx, h3⟩ := hv x (by simp)
      obtain ⟨h1, h2⟩ := ih (fun y hy => hv y (by simp [hy])) (by simp only [List.length_append]; omega)
        (dest.drop x.2.length) (by simp only [List.length_append, List.length_drop]; omega)
      refine ⟨?_, valid_append hx h3 h2⟩
      simp only [decodeChunks, decode_whole ha hx (by omega) (show x.2.length ≤ dest.length by omega), bind, Except.bind, pure, Except.pure]
      rw [List.drop_left, List.take_left, h1]
      simp only [List.length_append, List.drop_drop, List.append_assoc]
  obtain ⟨h1, h2⟩ := key dest hroom
  exact ⟨h1, by rw [h1, decode_whole ha h2 hobj hroom]⟩

/-- "TWFu", a line end, and "TWE=". -/
example : Valid 43 47 true [84, 87, 70, 117, 10] [77, 97, 110] ∧ Valid 43 47 true [84, 87, 69, 61] [77, 97] ∧
    decodeChunks 0xFF 0xFF true ([[84, 87, 70, 117, 10]] ++ [[84, 87, 69, 61]]) (List.replicate 6 7) = .ok (.count 5, [77, 97, 110, 77, 97, 7]) := by
  have h1 : Valid 43 47 true [84, 87, 70, 117, 10] [77, 97, 110] := ⟨[84, 87, 70, 117], [10], by simp [pad], by decide, by decide⟩
  have h2 : Valid 43 47 true [84, 87, 69, 61] [77, 97] := ⟨[84, 87, 69], [], by simp [pad], by decide, by simp⟩
  exact ⟨h1, h2, (base64_decode_pieces 0xFF 0xFF true alphabet_std [([84, 87, 70, 117, 10], [77, 97, 110])] [84, 87, 69, 61] [77, 97]
    (List.replicate 6 7) (by simp only [List.mem_singleton]; rintro x rfl; exact ⟨h1, by decide⟩) h2 (by simp) (by decide)).1⟩

/-- C123: a text may be cut after any number of significant characters divisible by four if there are more of them behind. -/
theorem base64_decode_cut (pos62 pos63 : UInt8) (ign : Bool) (ha : Alphabet (dflt pos62 43) (dflt pos63 47)) (t t' bs dest : List UInt8)
    (hv : Valid (dflt pos62 43) (dflt pos63 47) ign (t ++ t') bs) (h4 : 4 ∣ (t.filter fun c => !(ign && isWs c)).length)
    (hs : ∃ c ∈ t', (ign && isWs c) = false) (hobj : (t ++ t').length < 2 ^ 63) (hroom : bs.length ≤ dest.length) :
    decodeChunks pos62 pos63 ign [t, t'] dest = decodeBuffer (t ++ t') (t ++ t').length dest pos62 pos63 ign := by
  obtain ⟨k, hk⟩ := h4
  obtain ⟨d, w, hT, hd, hw⟩ := hv
  have hlen := congrArg List.length hd
  rw [encode_length, List.length_append] at hlen
  have hp : (pad bs.length).length ≤ 2 := by simp only [pad, List.length_replicate]; omega
  have hww : w.filter (fun c => !(ign && isWs c)) = [] := by
    rw [List.filter_eq_nil_iff]
    intro c hc
    simp [(hw c hc).1, (hw c hc).2]
  have hpp : (pad bs.length).filter (fun c => !(ign && isWs c)) = pad bs.length := by
    rw [List.filter_eq_self]
    intro c hc
    simp only [pad] at hc
    rw [List.eq_of_mem_replicate hc]
    cases ign <;> decide
  have hcount := congrArg (fun l => (l.filter fun c => !(ign && isWs c)).length) hT
  simp only [List.filter_append, List.length_append, hww, hpp, List.length_nil, hk] at hcount
  have hpos : 0 < (t'.filter fun c => !(ign && isWs c)).length := by
    obtain ⟨c, hc, h⟩ := hs
    exact List.length_pos_of_mem (List.mem_filter.2 ⟨hc, by simp [h]⟩)
  rw [List.append_assoc] at hT
  rcases List.append_eq_append_iff.1 hT with ⟨a, rfl, ht'⟩ | ⟨c, rfl, _⟩
  · have hk3 : 3 * k ≤ bs.length := by omega
    have hb : bs = bs.take (3 * k) ++ bs.drop (3 * k) := (List.take_append_drop _ _).symm
    have h3 : 3 ∣ (bs.take (3 * k)).length := by rw [List.length_take, Nat.min_eq_left hk3]; omega
    have hpad : pad (bs.drop (3 * k)).length = pad bs.length := by
      simp only [pad, List.length_drop]; rw [show (3 - (bs.length - 3 * k) % 3) % 3 = (3 - bs.length % 3) % 3 by omega]
    have hpad1 : pad (bs.take (3 * k)).length = [] := by
      simp only [pad]; rw [show (3 - (bs.take (3 * k)).length % 3) % 3 = 0 by omega]; rfl
    have he : encode (dflt pos62 43) (dflt pos63 47) bs = encode (dflt pos62 43) (dflt pos63 47) (bs.take (3 * k)) ++
        encode (dflt pos62 43) (dflt pos63 47) (bs.drop (3 * k)) := by rw [← encode_append h3, ← hb]
    rw [he, List.filter_append, List.append_assoc] at hd
    obtain ⟨e1, e2⟩ := List.append_inj hd (by rw [hk, encode_length, List.length_take, Nat.min_eq_left hk3]; omega)
    have v1 : Valid (dflt pos62 43) (dflt pos63 47) ign t (bs.take (3 * k)) := ⟨t, [], by rw [hpad1]; simp, by rw [hpad1, List.append_nil, e1], by simp⟩
    have v2 : Valid (dflt pos62 43) (dflt pos63 47) ign t' (bs.drop (3 * k)) := ⟨a, w, by rw [ht', hpad, List.append_assoc], by rw [hpad, e2], hw⟩
    have := (base64_decode_pieces pos62 pos63 ign ha [(t, bs.take (3 * k))] t' (bs.drop (3 * k)) dest (by
      simp only [List.mem_singleton]; rintro x rfl; exact ⟨v1, h3⟩) v2
      (by simpa using hobj) (by simpa using hroom)).2
    simpa using this
  · simp only [List.filter_append, List.length_append] at hk
    omega

/-- "TW Fu" and "TWE=". -/
example : Valid 43 47 true ([84, 87, 32, 70, 117] ++ [84, 87, 69, 61]) [77, 97, 110, 77, 97] ∧
    4 ∣ (([84, 87, 32, 70, 117] : List UInt8).filter fun c => !(true && isWs c)).length :=
  ⟨⟨[84, 87, 32, 70, 117, 84, 87, 69], [], by decide, by decide, by simp⟩, by decide⟩

end Verif.Base64
