import Verif.Proofs.Decompose

/-! Proofs about `sort_combining_characters`. -/

namespace Verif.Unicode
open Verif.Utf8 Verif.Spec.Utf8 Verif.Spec.Unicode

theorem decodeAt_enc {pre post : List UInt8} {c e : Nat} (hc : IsScalar c) (h : pre.length + (enc c).length ≤ e) :
    decodeAt (pre ++ (enc c ++ post)) pre.length e = .ok (c, pre.length + (enc c).length) := by
  have hd : decode (enc c ++ post, some (e - pre.length)) = .ok (some (c, (post, advN (some (e - pre.length)) (enc c).length))) :=
    decode_some.2 ⟨enc c, legal_loose ⟨hc, rfl⟩, rfl, fun n hn => by simp only [Option.some.injEq] at hn; omega, rfl⟩
  simp only [decodeAt, List.drop_left, hd]
  congr 2
  simp only [List.length_append]
  omega

theorem moveTo_spec (p q s post : List UInt8) : moveTo (p ++ (q ++ (s ++ post))) p.length (p.length + q.length) (p.length + q.length + s.length) =
    .ok (p ++ (s ++ (q ++ post))) := by
  rw [moveTo, if_pos ⟨by omega, by omega, by simp only [List.length_append]; omega⟩]
  have h1 : (p ++ (q ++ (s ++ post))).drop (p.length + q.length) = s ++ post := by
    rw [← List.append_assoc, List.drop_left' (by simp)]
  have h2 : (s ++ post).take (p.length + q.length + s.length - (p.length + q.length)) = s := by
    rw [show p.length + q.length + s.length - (p.length + q.length) = s.length by omega, List.take_left]
  have h3 : (p ++ (q ++ (s ++ post))).drop p.length = q ++ (s ++ post) := List.drop_left
  have h4 : (q ++ (s ++ post)).take (p.length + q.length - p.length) = q := by
    rw [show p.length + q.length - p.length = q.length by omega, List.take_left]
  have h5 : p.length + q.length + s.length - (p.length + q.length) = s.length := by omega
  rw [h5] at h2
  simp only [h1, h2, h3, h4, h5]
  congr 1
  -- the first splice puts the run behind the snippet's place, the second fills that place
  have h6 : splice (p ++ (q ++ (s ++ post))) (p.length + s.length) q = (p ++ (q ++ (s ++ post))).take (p.length + s.length) ++ (q ++ post) := by
    simp only [splice, List.append_assoc]
    congr 2
    rw [← List.append_assoc, ← List.append_assoc, List.append_assoc p, List.drop_left' (by simp only [List.length_append]; omega)]
  rw [h6]
  have h7 : ((p ++ (q ++ (s ++ post))).take (p.length + s.length)).length = p.length + s.length := by
    rw [List.length_take, List.length_append, List.length_append, List.length_append]; omega
  simp only [splice, List.append_assoc]
  rw [List.take_append_of_le_length (by omega), List.take_take, Nat.min_eq_left (by omega), List.take_left,
    List.drop_left' h7]

theorem insertLoop_spec (u : Ucd) {c r e : Nat} {r2 : List Nat} {post : List UInt8} (hsc : IsScalar r) (hr : u.ccc r > u.ccc c) (r1 : List Nat) :
    ∀ a : List UInt8, (∀ x ∈ r1, IsScalar x ∧ u.ccc x ≤ u.ccc c) →
    a.length + (encs (r1 ++ r :: r2)).length + (enc c).length ≤ e →
    ∀ p q, p ++ q = a ++ encs r1 → q.length = (encs r1).length →
    Returns (insertLoop u (a ++ (encs (r1 ++ r :: r2) ++ (enc c ++ post))) a.length (a.length + (encs (r1 ++ r :: r2)).length)
      (a.length + (encs (r1 ++ r :: r2)).length + (enc c).length) e (u.ccc c))
      (a ++ (encs r1 ++ (enc c ++ (encs (r :: r2) ++ post)))) := by
  induction r1 with
  | nil =>
    intro a h he p q _ _
    rw [insertLoop]
    simp only [List.nil_append, encs_nil, encs_cons, List.length_append, List.append_assoc] at he ⊢
    rw [liftC_bind (decodeAt_enc hsc (by omega))]
    simp only []
    rw [if_pos hr, returns_liftC]
    have := moveTo_spec a (enc r ++ encs r2) (enc c) post
    simp only [List.length_append, List.append_assoc] at this
    exact this
  | cons x r1 ih =>
    intro a h he p q _ _
    rw [insertLoop]
    obtain ⟨hx, hxc⟩ := h x (by simp)
    simp only [List.cons_append, encs_cons, List.length_append, List.append_assoc] at he ⊢
    rw [liftC_bind (decodeAt_enc hx (by omega))]
    simp only []
    rw [if_neg (by omega)]
    have := ih (a ++ enc x) (fun y hy => h y (by simp [hy])) (by simp only [List.length_append]; omega) (a ++ enc x) (encs r1) rfl rfl
    simp only [List.length_append, List.append_assoc, Nat.add_assoc, encs_cons] at this ⊢
    exact this

/-- Split a sorted run before the first larger class. -/
theorem split_run {ccc : Nat → Nat} {k : Nat} (r : List Nat) (hs : r.Pairwise fun x y => ccc x ≤ ccc y) (h : ∃ z ∈ r, k < ccc z) :
    ∃ r1 x r2, r = r1 ++ x :: r2 ∧ (∀ y ∈ r1, ccc y ≤ k) ∧ k < ccc x ∧ ∀ y ∈ r2, k < ccc y := by
  induction r with
  | nil => obtain ⟨z, hz, _⟩ := h; simp at hz
  | cons a r ih =>
    obtain ⟨ha, hr⟩ := List.pairwise_cons.1 hs
    by_cases hk : k < ccc a
    · exact ⟨[], a, r, rfl, by simp, hk, fun y hy => by have := ha y hy; omega⟩
    · obtain ⟨z, hz, hkz⟩ := h
      have hzr : z ∈ r := by
        rcases List.mem_cons.1 hz with rfl | hz
        · exact absurd hkz hk
        · exact hz
      obtain ⟨r1, x, r2, rfl, h1, h2, h3⟩ := ih hr ⟨z, hzr, hkz⟩
      refine ⟨a :: r1, x, r2, rfl, fun y hy => ?_, h2, h3⟩
      rcases List.mem_cons.1 hy with rfl | hy
      · omega
      · exact h1 y hy

/-- `last_ccc`: the class of the last character of the run, 0 if there is none. -/
def Last (u : Ucd) (r : List Nat) (last : Nat) : Prop := (r = [] ∧ last = 0) ∨ ∃ r' z, r = r' ++ [z] ∧ last = u.ccc z

theorem sortLoop_spec (u : Ucd) (rest : List Nat) (post : List UInt8) : ∀ (a r : List Nat) (last : Nat),
    (∀ c ∈ a ++ r ++ rest, IsScalar c) → Ordered u.ccc a → (∀ x c, a = x ++ [c] → u.ccc c = 0) →
    (r.Pairwise fun x y => u.ccc x ≤ u.ccc y) → (∀ x ∈ r, 0 < u.ccc x) → Last u r last →
    Returns (sortLoop u (encs (a ++ r ++ rest) ++ post) (encs a).length (encs (a ++ r)).length last (encs (a ++ r ++ rest)).length)
      (encs (ord u.ccc (a ++ r ++ rest)) ++ post) := by
  induction rest with
  | nil =>
    intro a r last hsc ha hend hr hpos hlast
    rw [sortLoop, if_pos (by simp), returns_pure, List.append_nil, ord_self (ordered_append_run ha hend hr)]
  | cons c rest ih =>
    intro a r last hsc ha hend hr hpos hlast
    have hc : IsScalar c := hsc c (by simp)
    have hpc := enc_pos c
    have hne : ¬ (encs (a ++ r)).length = (encs (a ++ r ++ c :: rest)).length := by
      simp only [encs_append, encs_cons, List.length_append]; omega
    have hdec : decodeAt (encs (a ++ r ++ c :: rest) ++ post) (encs (a ++ r)).length (encs (a ++ r ++ c :: rest)).length =
        .ok (c, (encs (a ++ r ++ [c])).length) := by
      have := decodeAt_enc (pre := encs (a ++ r)) (post := encs rest ++ post) (c := c) (e := (encs (a ++ r ++ c :: rest)).length) hc
        (by simp only [encs_append, encs_cons, List.length_append]; omega)
      simp only [encs_append, encs_cons, encs_nil, List.length_append, List.append_assoc, List.append_nil, Nat.add_assoc] at this ⊢
      exact this
    rw [sortLoop, if_neg hne, liftC_bind hdec]
    simp only []
    by_cases h0 : u.ccc c = 0
    · rw [if_pos h0]
      have := ih (a ++ r ++ [c]) [] 0 (by simpa using hsc) (by
        rw [ordered_iff_chain, List.isChain_append]
        refine ⟨ordered_iff_chain.1 (ordered_append_run ha hend hr), by simp, fun x _ y hy => ?_⟩
        simp only [List.head?_cons, Option.mem_def, Option.some.injEq] at hy
        rw [← hy, h0]
        omega) (fun x d h => by
          have := List.append_inj_right' h rfl
          simp only [List.cons.injEq, and_true] at this
          rw [← this]; exact h0) List.Pairwise.nil (by simp) (Or.inl ⟨rfl, rfl⟩)
      simpa using this
    · rw [if_neg h0]
      by_cases hge : u.ccc c ≥ last
      · rw [if_pos hge]
        have := ih a (r ++ [c]) (u.ccc c) (by simpa using hsc) ha hend (by
          rw [List.pairwise_append]
          refine ⟨hr, by simp, fun x hx y hy => ?_⟩
          simp only [List.mem_singleton] at hy
          subst hy
          rcases hlast with ⟨rfl, _⟩ | ⟨r', z, rfl, rfl⟩
          · simp at hx
          · rcases List.mem_append.1 hx with hx | hx
            · have := (List.pairwise_append.1 hr).2.2 x hx z (by simp); omega
            · simp only [List.mem_singleton] at hx; subst hx; exact hge) (fun x hx => by
          rcases List.mem_append.1 hx with hx | hx
          · exact hpos x hx
          · simp only [List.mem_singleton] at hx; subst hx; omega) (Or.inr ⟨r, c, rfl, rfl⟩)
        simpa using this
      · rw [if_neg hge]
        rcases hlast with ⟨rfl, rfl⟩ | ⟨r', z, hz, rfl⟩
        · omega
        obtain ⟨r1, x, r2, hr1, hle, hx, hgt⟩ := split_run r hr ⟨z, by rw [hz]; simp, Nat.lt_of_not_le hge⟩
        have hins := insertLoop_spec u (c := c) (r := x) (r2 := r2) (e := (encs (a ++ r ++ c :: rest)).length) (post := encs rest ++ post)
          (hsc x (by rw [hr1]; simp)) hx r1 (encs a) (fun y hy => ⟨hsc y (by rw [hr1]; simp [hy]), hle y hy⟩)
          (by rw [← hr1]; simp only [encs_append, encs_cons, List.length_append]; omega) (encs a) (encs r1) rfl rfl
        rw [← hr1] at hins
        have e1 : encs a ++ (encs r ++ (enc c ++ (encs rest ++ post))) = encs (a ++ r ++ c :: rest) ++ post := by
          simp [encs_append]
        have e2 : (encs a).length + (encs r).length = (encs (a ++ r)).length := by simp
        have e3 : (encs a).length + (encs r).length + (enc c).length = (encs (a ++ r ++ [c])).length := by simp; omega
        rw [e3, e2, e1] at hins
        rw [returns_bind hins]
        have hxr : Last u (r1 ++ c :: x :: r2) (u.ccc z) := by
          right
          rcases List.eq_nil_or_concat r2 with rfl | ⟨r3, w, rfl⟩
          · have := List.append_inj_right' (hr1.symm.trans hz) rfl
            simp only [List.cons.injEq, and_true] at this
            subst this
            exact ⟨r1 ++ [c], x, by simp, rfl⟩
          · have hw : w = z := by
              have : r1 ++ x :: r3 ++ [w] = r' ++ [z] := by rw [← hz, hr1]; simp
              have := List.append_inj_right' this rfl
              simpa using this
            subst hw
            exact ⟨r1 ++ c :: x :: r3, w, by simp, rfl⟩
        have := ih a (r1 ++ c :: x :: r2) (u.ccc z) (fun d hd => hsc d (by
          rw [hr1]; simp only [List.mem_append, List.mem_cons] at hd ⊢; tauto)) ha hend (by
          rw [hr1] at hr
          rw [List.pairwise_append] at hr ⊢
          refine ⟨hr.1, List.pairwise_cons.2 ⟨fun y hy => ?_, hr.2.1⟩, fun y hy w hw => ?_⟩
          · rcases List.mem_cons.1 hy with rfl | hy
            · omega
            · have := hgt y hy; omega
          · rcases List.mem_cons.1 hw with rfl | hw
            · exact hle y hy
            · exact hr.2.2 y hy w hw) (fun y hy => by
          by_cases hyc : y = c
          · subst hyc; omega
          · refine hpos y ?_
            rw [hr1]; simp only [List.mem_append, List.mem_cons] at hy ⊢; tauto) hxr
        have eord : ord u.ccc (a ++ r ++ c :: rest) = ord u.ccc (a ++ (r1 ++ c :: x :: r2) ++ rest) := by
          have h := ord_move_low (ccc := u.ccc) (x := a ++ r1) (y := rest) (b := x :: r2) (c := c) (by omega) (fun d hd => by
            rcases List.mem_cons.1 hd with rfl | hd
            · exact hx
            · exact hgt d hd)
          rw [hr1]
          simpa using h
        rw [eord]
        have e4 : encs a ++ (encs r1 ++ (enc c ++ (encs (x :: r2) ++ (encs rest ++ post)))) = encs (a ++ (r1 ++ c :: x :: r2) ++ rest) ++ post := by
          simp [encs_append]
        have e5 : (encs (a ++ r ++ [c])).length = (encs (a ++ (r1 ++ c :: x :: r2))).length := by
          rw [hr1]; simp only [encs_append, encs_cons, encs_nil, List.length_append, List.append_nil]; omega
        have e6 : (encs (a ++ r ++ c :: rest)).length = (encs (a ++ (r1 ++ c :: x :: r2) ++ rest)).length := by
          rw [hr1]; simp only [encs_append, encs_cons, List.length_append]; omega
        rw [e4, e5, e6]
        exact this

end Verif.Unicode
