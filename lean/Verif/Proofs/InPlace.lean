import Verif.Model.InPlace
import Verif.Proofs.Base64Final
import Verif.Proofs.Recompose
import Verif.Proofs.NormalText

/-! Proofs about decoding and recomposition with the source and the destination in one object. -/

set_option autoImplicit false

namespace Verif.Base64

theorem storeLoopIn_eq (p62 p63 : UInt8) (ign : Bool) (rest : List UInt8) (left : Nat) : ∀ (dest : List UInt8) (k pi : Nat) (bits : UInt32) (bc : Nat),
    pi ≤ k →
    (∃ e, decLoop1 p62 p63 ign ((dest ++ rest).drop k) left dest pi bits bc = .error e ∧
      storeLoopIn p62 p63 ign dest.length (dest ++ rest) k left pi bits bc = .error e) ∨
    (∃ d, decLoop1 p62 p63 ign ((dest ++ rest).drop k) left dest pi bits bc = .ok (.error d) ∧
      storeLoopIn p62 p63 ign dest.length (dest ++ rest) k left pi bits bc = .ok (.error (d ++ rest))) ∨
    ∃ s k', decLoop1 p62 p63 ign ((dest ++ rest).drop k) left dest pi bits bc = .ok (.ok s) ∧
      storeLoopIn p62 p63 ign dest.length (dest ++ rest) k left pi bits bc = .ok (.ok ⟨s.dest ++ rest, k', s.left, s.pi, s.bits, s.bitCount⟩) ∧
      (s.dest ++ rest).drop k' = s.src := by
  induction left with
  | zero =>
    intro dest k pi bits bc hk
    rw [storeLoopIn, decLoop1.eq_def]
    simp only [Nat.lt_irrefl, and_false, dif_neg, not_false_eq_true, if_false]
    exact Or.inr (Or.inr ⟨_, k, rfl, rfl, rfl⟩)
  | succ left ih =>
    intro dest k pi bits bc hk
    rw [storeLoopIn, decLoop1.eq_def]
    simp only []
    by_cases hp : pi < dest.length ∧ 0 < left + 1
    · rw [dif_pos hp, if_pos hp]
      cases hm : (dest ++ rest).drop k with
      | nil =>
        have : (dest ++ rest)[k]? = none := by
          rw [List.drop_eq_nil_iff] at hm; exact List.getElem?_eq_none hm
        simp only [rd, this]
        exact Or.inl ⟨_, rfl, rfl⟩
      | cons c r =>
        have hc : (dest ++ rest)[k]? = some c := by rw [← List.head?_drop, hm]; rfl
        have hr : (dest ++ rest).drop (k + 1) = r := by rw [← List.tail_drop, hm]; rfl
        simp only [rd, hc, Nat.add_sub_cancel]
        by_cases hc0 : c ≠ 0 ∧ c ≠ 61
        · simp only [if_pos hc0]
          by_cases hn : getBits c p62 p63 ign < 0
          · simp only [if_pos hn]
            by_cases hn2 : getBits c p62 p63 ign = -2
            · simp only [if_pos hn2]
              have := ih dest (k + 1) pi bits bc (by omega)
              rwa [hr] at this
            · simp only [if_neg hn2]
              exact Or.inr (Or.inl ⟨_, rfl, rfl⟩)
          · simp only [if_neg hn]
            by_cases h8 : 8 ≤ bc + 6
            · simp only [if_pos h8]
              rw [wr_ok hp.1, wr_ok (b := dest ++ rest) (by rw [List.length_append]; omega)]
              simp only
              have := ih (dest.set pi ((bits <<< 6 ||| UInt32.ofNat (getBits c p62 p63 ign).toNat) >>> UInt32.ofNat (bc + 6 - 8)).toUInt8) (k + 1) (pi + 1)
                (bits <<< 6 ||| UInt32.ofNat (getBits c p62 p63 ign).toNat) (bc + 6 - 8) (by omega)
              rw [List.length_set] at this
              rw [List.set_append_left _ _ hp.1]
              have hd : (dest.set pi ((bits <<< 6 ||| UInt32.ofNat (getBits c p62 p63 ign).toNat) >>> UInt32.ofNat (bc + 6 - 8)).toUInt8 ++ rest).drop (k + 1) = r := by
                rw [← List.set_append_left _ _ hp.1, List.drop_set_of_lt (by omega), hr]
              rwa [hd] at this
            · simp only [if_neg h8]
              have := ih dest (k + 1) pi (bits <<< 6 ||| UInt32.ofNat (getBits c p62 p63 ign).toNat) (bc + 6) (by omega)
              rwa [hr] at this
        · simp only [if_neg hc0]
          exact Or.inr (Or.inr ⟨_, k, rfl, rfl, hm⟩)
    · rw [dif_neg hp, if_neg hp]
      exact Or.inr (Or.inr ⟨_, k, rfl, rfl, rfl⟩)

theorem decodeBufferIn_eq (dest rest : List UInt8) (k n : Nat) (pos62 pos63 : UInt8) (ign : Bool) :
    decodeBufferIn (dest ++ rest) k n dest.length pos62 pos63 ign =
      (decodeBuffer ((dest ++ rest).drop k) n dest pos62 pos63 ign).map fun x => (x.1, x.2 ++ rest) := by
  simp only [decodeBufferIn, decodeBuffer, bind, Except.bind]
  rcases storeLoopIn_eq (dflt pos62 43) (dflt pos63 47) ign rest n dest k 0 0 0 (Nat.zero_le _) with ⟨e, h1, h2⟩ | ⟨d, h1, h2⟩ | ⟨s, k', h1, h2, h3⟩
  · rw [h1, h2]; rfl
  · rw [h1, h2]; rfl
  · rw [h1, h2]
    simp only [h3]
    cases decLoop2 (dflt pos62 43) (dflt pos63 47) ign s.src s.left s.pi s.bits s.bitCount with
    | error e => rfl
    | ok x =>
      cases x with
      | none => rfl
      | some x =>
        obtain ⟨src, left, pi, bits, bc⟩ := x
        simp only
        split
        · rfl
        · cases goodTail src left bc ign with
          | error e => rfl
          | ok b =>
            simp only
            split
            · rfl
            · split <;> rfl

end Verif.Base64

namespace Verif.Unicode
open Verif.Utf8 Verif.Spec.Utf8 Verif.Spec.Unicode

theorem hfold_encs_le (l : List Nat) : (encs (hflat (hfold l))).length ≤ (encs l).length := by
  induction l using List.reverseRecOn with
  | nil => simp [hfold, hflat]
  | append_singleton l c ih =>
    rw [hfold_snoc]
    revert ih
    rcases hfold l with ⟨o, h⟩
    intro ih
    cases h with
    | none =>
      rw [hstep_none]
      simp only [hflat, Option.toList, List.append_nil, encs_append, encs_cons, encs_nil, List.length_append] at ih ⊢
      omega
    | some n =>
      rcases hstep_some o n c with ⟨p, hp, e⟩ | ⟨_, e⟩
      · rw [e]
        have := hp.width
        simp only [hflat, Option.toList, List.append_nil, encs_append, encs_cons, encs_nil, List.length_append] at ih ⊢
        omega
      · rw [e]
        simp only [hflat, Option.toList, List.append_nil, encs_append, encs_cons, encs_nil, List.length_append] at ih ⊢
        omega

theorem gstep_encs_le {u : Ucd} (t : Table u) (g : G) (c : Nat) : (encs (gflat (gstep u g c))).length ≤ (encs (gflat g)).length + (enc c).length := by
  obtain ⟨e, cur⟩ := g
  cases cur with
  | none =>
    simp only [gstep]
    split <;> simp [gflat]
  | some x =>
    obtain ⟨s, b⟩ := x
    simp only [gstep]
    cases hp : (if blocked u b (u.ccc c) = true then none else u.composite s c) with
    | some p =>
      have : u.composite s c = some p := by
        split at hp
        · cases hp
        · exact hp
      have := t.width _ _ _ this
      rw [← enc_length, ← enc_length, ← enc_length] at this
      simp [gflat]; omega
    | none =>
      simp only []
      split <;> simp [gflat] <;> omega

theorem hfold_out_le (g : G) : (encs (hfold g.1).1).length ≤ (encs (gflat g)).length := by
  have h1 : (encs (hfold g.1).1).length ≤ (encs g.1).length := by
    have := hfold_encs_le g.1
    simp only [hflat, encs_append, List.length_append] at this
    omega
  have h2 : (encs g.1).length ≤ (encs (gflat g)).length := by
    obtain ⟨e, cur⟩ := g
    cases cur with
    | none => simp [gflat]
    | some x => simp [gflat]
  omega

theorem drop_splice {buf bs : List UInt8} {k : Nat} (h : bs.length ≤ k) : (splice buf 0 bs).drop k = buf.drop k := by
  rw [splice_zero, List.drop_append, List.drop_of_length_le h, List.nil_append, List.drop_drop]
  congr 1; omega

theorem recomposeLoopIn_eq {u : Ucd} (tb : Table u) {t : List UInt8} {cps : List Nat} {b : Bool} (hs : Scan Loose t cps b) :
    ∀ {k : Nat} {lim : Option Nat} {g : G} {r : Recomposer} {buf : List UInt8} {e : Nat},
    Input ((splice buf 0 (encs (hfold g.1).1)).drop k, lim) t → Rel r g.2 → glen g ≤ 100 → (∀ d ∈ gflat g, IsScalar d) →
    (encs (hfold g.1).1).length ≤ e → e ≤ buf.length → (encs (gflat g)).length ≤ k →
    recomposeLoopIn u k lim r (hfold g.1).2 (splice buf 0 (encs (hfold g.1).1)) (encs (hfold g.1).1).length (some e) =
      recomposeLoop u ((splice buf 0 (encs (hfold g.1).1)).drop k, lim) r (hfold g.1).2 (splice buf 0 (encs (hfold g.1).1))
        (encs (hfold g.1).1).length (some e) := by
  have sc := scan_scalar hs
  induction hs with
  | nil =>
    intro k lim g r buf e hp hr hk hsc ho he hw
    rw [recomposeLoopIn, recomposeLoop]
    rcases input_nil hp with h0 | ⟨h0, r, hr⟩
    · rw [if_pos h0, if_pos h0]
    · simp only at h0 hr
      rw [if_neg h0, if_neg h0, hr]
      simp
  | bad h1 h2 =>
    intro k lim g r buf e hp hr hk hsc ho he hw
    obtain ⟨h0, ⟨c, s, hc, hc0⟩, h3⟩ := input_cons hp h1
    simp only at h0 hc
    rw [recomposeLoopIn, recomposeLoop, if_neg h0, if_neg h0]
    rcases h3 with ⟨hd, _⟩ | ⟨pre, t', cp, q, hd, hl, he, _⟩
    · simp only [hc] at hd ⊢
      rw [if_neg hc0, if_neg hc0, liftC_bind hd, liftC_bind hd]
    · exact absurd he (h2 _ _ _ hl)
  | @cons pre cp rest cps b hl hs ih =>
    intro k lim g r buf e hp hr hk hsc ho he hw
    obtain ⟨h0, ⟨c, s, hc, hc0⟩, h3⟩ := input_cons hp (by intro h; exact loose_ne_nil hl (List.append_eq_nil_iff.1 h).1)
    rcases h3 with ⟨_, hd⟩ | ⟨pre', t', cp', p', hd, hl', heq, hp'⟩
    · exact absurd rfl (hd _ _ _ hl)
    obtain ⟨rfl, rfl, rfl⟩ := loose_unique hl hl' heq
    obtain ⟨s', lim'⟩ := p'
    obtain ⟨pre2, hl2, hM, _, _⟩ := decode_some.1 hd
    have hpre : pre2 = pre := by
      obtain ⟨rr, h1, _⟩ := hp
      simp only at h1
      rw [h1, List.append_assoc] at hM
      exact ((loose_unique hl hl2 hM).1).symm
    subst hpre
    simp only at h0 hc
    have hlen : ∀ bs : List UInt8, bs.length ≤ e → (splice buf 0 bs).length = buf.length := fun bs h => splice_length (by omega)
    have hne : pre2 ≠ [] := loose_ne_nil hl
    have hk' : buf.length - s'.length = k + pre2.length := by
      have h1 := congrArg List.length hM
      have h2 := hlen _ ho
      have h3 := List.length_pos_iff.2 hne
      simp only [List.length_drop, List.length_append] at h1
      omega
    rw [recomposeLoopIn, recomposeLoop, if_neg h0, if_neg h0]
    obtain ⟨r', out, hf, hcase⟩ := feed_spec u hr hk cp
    rw [hc]
    simp only [if_neg hc0]
    rw [← hc, liftC_bind hd, liftC_bind hd]
    simp only []
    rw [liftC_bind hf, liftC_bind hf]
    simp only []
    rcases hcase with ⟨h100, rfl⟩ | ⟨h100, w, r'', hw', hreads, hrel⟩
    · rw [deliver]
      rfl
    · have hsc' := gstep_scalar tb hsc (sc cp (by simp))
      have hw2 : w.foldl hstep (hfold g.1) = hfold (gstep u g cp).1 := by rw [hw']; simp [Unicode.hfold]
      have hscw : ∀ c ∈ (w.foldl hstep ((hfold g.1).1, (hfold g.1).2)).1, IsScalar c := by
        intro c hc
        rw [hw2] at hc
        have h1 : ∀ d ∈ (gstep u g cp).1, IsScalar d := by
          intro d hd
          apply hsc' d
          clear * - hd
          revert hd
          obtain ⟨e', cur⟩ := gstep u g cp
          intro hd
          cases cur with
          | none => exact hd
          | some x => simp only [gflat]; exact List.mem_append_left _ hd
        exact hfold_scalar h1 c (List.mem_append_left _ hc)
      have hdl := deliver_spec hreads (o := (Unicode.hfold g.1).1) (h := (Unicode.hfold g.1).2) (buf := buf) (e := e) hscw ho he
      rw [hw2] at hdl
      by_cases hfit : (encs (Unicode.hfold (gstep u g cp).1).1).length ≤ e
      · rw [returns_bind (hdl.1 hfit), returns_bind (hdl.1 hfit)]
        simp only [ne_eq, not_true_eq_false, if_false]
        have hw3 : (encs (gflat (gstep u g cp))).length ≤ k + pre2.length := by
          have h1 := gstep_encs_le tb g cp
          have h2 := loose_width hl
          omega
        have hdrop : (splice buf 0 (encs (hfold (gstep u g cp).1).1)).drop (k + pre2.length) = s' := by
          rw [drop_splice (Nat.le_trans (hfold_out_le _) hw3), ← drop_splice (Nat.le_trans (Nat.le_trans (hfold_out_le g) hw) (Nat.le_add_right _ _)),
            ← List.drop_drop, hM]
          simp
        rw [hlen _ hfit, hk']
        have := ih (fun c hc => sc c (by simp [hc])) (k := k + pre2.length) (lim := lim') (g := gstep u g cp) (r := r'') (buf := buf) (e := e)
          (by rw [hdrop]; exact hp') hrel h100 hsc' hfit he hw3
        rw [this, hdrop]
      · obtain ⟨r3, h3, buf', h4, h5⟩ := hdl.2 (by omega)
        rw [returns_bind h4, returns_bind h4]

theorem recomposeIn_eq {u : Ucd} (tb : Table u) {mem t : List UInt8} {k e : Nat} {lim : Option Nat} (hp : Input (mem.drop k, lim) t)
    (he : e ≤ mem.length) : recomposeIn u mem k lim (some e) = recompose u (mem.drop k, lim) mem (some e) := by
  obtain ⟨cps, b, hs⟩ := scan_exists t
  have h0 : hfold ([] : List Nat) = ([], none) := rfl
  have h := recomposeLoopIn_eq tb hs (k := k) (lim := lim) (g := ([], none)) (r := Recomposer.new) (buf := mem) (e := e)
    (by simpa [h0, splice_nil] using hp) rfl (by simp [glen]) (by simp [gflat]) (by simp [h0]) he (by simp [gflat])
  simp only [h0, encs_nil, splice_nil, List.length_nil] at h
  rw [recomposeIn, recompose, h]
  refine bind_congr fun x => ?_
  obtain ⟨x, b⟩ := x
  cases x <;> rfl

end Verif.Unicode
