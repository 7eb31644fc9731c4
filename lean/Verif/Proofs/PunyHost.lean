import Verif.Proofs.PunyLabel
import Verif.Proofs.Charstr
import Mathlib.Data.List.TakeWhile

/-! Encoding the labels of a host name. -/

namespace Verif.Puny
open Verif.Spec Verif.Utf8 Verif.Charstr
open Verif.Spec.Utf8 (IsScalar enc width form)
open Verif.Spec.Unicode (encs)
open Verif.Unicode (encs_cons encs_append)

/-- The labels that are encoded: an empty label after the last full stop is not. -/
def parts (x : List Nat) : List (List Nat) := if x.getLast? = some 0x2E then (x.splitOn 0x2E).dropLast else x.splitOn 0x2E

theorem lab_rest (x : List Nat) : x = lab x ++ rest x := (List.takeWhile_append_dropWhile).symm

theorem lab_nodot (x : List Nat) : ∀ c ∈ lab x, c ≠ 0x2E := by
  intro c hc
  simpa using List.mem_takeWhile_imp hc

theorem rest_cases (x : List Nat) : rest x = [] ∨ ∃ y, rest x = 0x2E :: y := by
  cases h : rest x with
  | nil => exact .inl rfl
  | cons c y =>
    right
    have := List.head_dropWhile_not (p := (· ≠ 0x2E)) (l := x) (by rw [← rest, h]; simp)
    have h' : (x.dropWhile (· ≠ 0x2E)) = c :: y := h
    simp only [h', List.head_cons] at this
    simp at this
    exact ⟨y, by rw [this]⟩

theorem splitOn_nodot {l : List Nat} (h : ∀ c ∈ l, c ≠ 0x2E) : l.splitOn 0x2E = [l] := by
  rw [List.splitOn]
  exact List.splitOnP_eq_singleton (by simpa using h)

theorem splitOn_dot {l : List Nat} (h : ∀ c ∈ l, c ≠ 0x2E) (y : List Nat) : (l ++ 0x2E :: y).splitOn 0x2E = l :: y.splitOn 0x2E := by
  rw [List.splitOn]
  exact List.splitOnP_append_cons_of_forall_mem (by simpa using h) 0x2E (by simp) y

theorem splitOn_ne (y : List Nat) : y.splitOn 0x2E ≠ [] := List.splitOnP_ne_nil _ _

theorem parts_last {x : List Nat} (h : rest x = []) : parts x = [lab x] ∧ x.getLast? ≠ some 0x2E := by
  have hx : x = lab x := by rw [← List.append_nil (lab x), ← h]; exact lab_rest x
  have hl : x.getLast? ≠ some 0x2E := by
    intro hl
    have hm := List.mem_of_getLast? hl
    rw [hx] at hm
    exact lab_nodot x _ hm rfl
  refine ⟨?_, hl⟩
  rw [parts, if_neg hl]
  conv_lhs => rw [hx]
  exact splitOn_nodot (lab_nodot x)

theorem parts_dot {x : List Nat} (h : rest x = [0x2E]) : parts x = [lab x] ∧ x.getLast? = some 0x2E := by
  have hx : x = lab x ++ 0x2E :: [] := by rw [← h]; exact lab_rest x
  have hl : x.getLast? = some 0x2E := by rw [hx]; simp
  refine ⟨?_, hl⟩
  rw [parts, if_pos hl]
  conv_lhs => rw [hx]
  rw [splitOn_dot (lab_nodot x), splitOn_nodot (by simp)]
  rfl

theorem parts_more {x y : List Nat} (h : rest x = 0x2E :: y) (hy : y ≠ []) : parts x = lab x :: parts y ∧ x.getLast? = y.getLast? := by
  have hx : x = lab x ++ 0x2E :: y := by rw [← h]; exact lab_rest x
  have hl : x.getLast? = y.getLast? := by
    rw [hx, List.getLast?_append, List.getLast?_cons]
    obtain ⟨z, hz⟩ := Option.isSome_iff_exists.1 (List.getLast?_isSome.2 hy)
    simp [hz]
  refine ⟨?_, hl⟩
  have hs : x.splitOn 0x2E = lab x :: y.splitOn 0x2E := by
    conv_lhs => rw [hx]
    exact splitOn_dot (lab_nodot x) y
  simp only [parts, hl, hs]
  split
  · exact List.dropLast_cons_of_ne_nil (splitOn_ne y)
  · rfl

theorem parts_ne (x : List Nat) : parts x ≠ [] := by
  rcases rest_cases x with h | ⟨y, h⟩
  · rw [(parts_last h).1]; simp
  · by_cases hy : y = []
    · subst hy; rw [(parts_dot h).1]; simp
    · rw [(parts_more h hy).1]; simp

/-- The label begins with a hyphen, has ASCII characters other than letters, digits and hyphens, or begins with a spacing mark. -/
def Refused (id : Idna) (l : List Nat) : Prop := l.head? = some 0x2D ∨ ¬ Good id true l

open Classical in
/-- What becomes of the labels `ls` with the ASCII forms `es`, after the output `w`. `hyphen` and `dot` tell whether the text ends with a hyphen
or a full stop. -/
noncomputable def outcome (id : Idna) (hyphen dot : Prop) : List (List Nat) → List (List UInt8) → List UInt8 → C (Option (List UInt8))
  | l :: ls, e :: es, w =>
    if hyphen ∨ Refused id l then .ok none
    else if e.length > 63 then if ∃ c ∈ l, 128 ≤ c then .ok none else .error .abort
    else if w.length + e.length + 1 > 253 then .ok none
    else if ls = [] then .ok (some (w ++ e ++ (if dot then [0x2E] else []) ++ [0]))
    else outcome id hyphen dot ls es (w ++ e ++ [0x2E])
  | _, _, _ => .ok none

theorem filtered_none (id : Idna) (p : Pos) (encoding : List UInt8) (q outputSize : Nat) {enc' : List UInt8} {size : Nat}
    (h : punycodeEncode id p encoding q (encoding.length - q) = .ok (none, enc', size)) : filteredLoop id p encoding q outputSize = pure none := by
  rw [filteredLoop, liftC_bind h]

theorem filtered_some (id : Idna) (p : Pos) (encoding : List UInt8) (q outputSize : Nat) {next : Pos} {enc' : List UInt8} {size n : Nat}
    (h : punycodeEncode id p encoding q (encoding.length - q) = .ok (some next, enc', size)) (hn : next.2 = some n) :
    filteredLoop id p encoding q outputSize =
      if size > 63 then liftC (.error .abort)
      else if outputSize + size + 1 > 253 then pure none
      else liftC (wr enc' (q + size) 0x2E) >>= fun encoding =>
        if n > 1 then filteredLoop id (next.1.drop 1, some (n - 1)) encoding (q + size + 1) (outputSize + size + 1)
        else liftC (wr encoding (q + size + n) 0) >>= fun encoding => liftC (dup encoding) >>= fun d => pure (some d) := by
  rw [filteredLoop, liftC_bind h]
  simp only [hn]
  split_ifs <;> rfl

open Classical in
theorem filtered_spec (id : Idna) (r : List UInt8) (x : List Nat) (hx : ∀ c ∈ x, IsScalar c) (hne : x ≠ []) (hlen : (encs x).length ≤ 254) :
    ∃ es, List.Forall₂ Punycode.ToAscii (parts x) es ∧ (∀ l e, (l, e) ∈ (parts x).zip es → Good id true l → ∀ b ∈ e, b = 0x2D ∨ IsDig b) ∧
      ∀ w tail, w.length + tail.length = 255 → w.length ≤ 253 → (0 : UInt8) ∉ w →
        filteredLoop id (at' x r) (w ++ tail) w.length w.length =
          liftC (outcome id (x.getLast? = some 0x2D) (x.getLast? = some 0x2E) (parts x) es w) := by
  induction hn : x.length using Nat.strong_induction_on generalizing x with
  | _ n ih =>
    subst hn
    obtain ⟨e, ha, hldh, hp⟩ := punycode_spec id x r hx hne hlen
    have hhead : x.head? = some 0x2D ↔ (lab x).head? = some 0x2D := by
      cases x with
      | nil => simp [lab]
      | cons c x =>
        by_cases hc : c = 0x2E
        · subst hc; simp [lab_dot]
        · rw [lab_cons hc]; simp
    -- the first label
    have step : ∀ w tail, w.length + tail.length = 255 → w.length ≤ 253 → (0 : UInt8) ∉ w →
        filteredLoop id (at' x r) (w ++ tail) w.length w.length =
          if x.getLast? = some 0x2D ∨ Refused id (lab x) then liftC (.ok none)
          else if e.length > 63 then if ∃ c ∈ lab x, 128 ≤ c then liftC (.ok none) else liftC (.error .abort)
          else if w.length + e.length + 1 > 253 then liftC (.ok none)
          else if (encs (rest x)).length > 1 then
            filteredLoop id ((at' (rest x) r).1.drop 1, some ((encs (rest x)).length - 1)) (w ++ e ++ [0x2E] ++ tail.drop (e.length + 1))
              (w.length + e.length + 1) (w.length + e.length + 1)
          else liftC (.ok (some (w ++ e ++ (if (encs (rest x)).length = 1 then [0x2E] else []) ++ [0]))) := by
      intro w tail h1 h2 h3
      have hpu := hp (w ++ tail) w.length (by simp)
      rw [List.take_left, List.drop_left] at hpu
      by_cases hg : ¬ Hyphen x ∧ Good id true (lab x)
      · rw [if_pos hg] at hpu
        rw [if_neg]
        · by_cases h63 : e.length > 63
          · rw [if_pos h63]
            by_cases hna : ∃ c ∈ lab x, 128 ≤ c
            · rw [if_pos ⟨hna, h63⟩] at hpu
              rw [filtered_none id _ _ _ _ hpu, if_pos hna]; rfl
            · rw [if_neg (fun h => hna h.1)] at hpu
              rw [filtered_some id _ _ _ _ hpu rfl, if_pos h63, if_neg hna]
          · rw [if_neg (fun h => h63 h.2)] at hpu
            rw [filtered_some id _ _ _ _ hpu rfl, if_neg h63, if_neg h63]
            by_cases h253 : w.length + e.length + 1 > 253
            · rw [if_pos h253, if_pos h253]; rfl
            · rw [if_neg h253, if_neg h253]
              have hov : over tail e = e ++ tail.drop e.length := by
                rw [over, List.take_of_length_le (by omega)]
              have htail : ∃ t0 t1 t2, tail.drop e.length = t0 :: t1 :: t2 ∧ tail.drop (e.length + 1) = t1 :: t2 := by
                have hl : (tail.drop e.length).length ≥ 2 := by rw [List.length_drop]; omega
                obtain ⟨t0, u, hu⟩ := List.exists_cons_of_length_pos (l := tail.drop e.length) (by omega)
                rw [hu, List.length_cons] at hl
                obtain ⟨t1, t2, ht⟩ := List.exists_cons_of_length_pos (l := u) (by omega)
                refine ⟨t0, t1, t2, by rw [hu, ht], ?_⟩
                rw [← List.drop_drop, hu, ht]; rfl
              obtain ⟨t0, t1, t2, ht0, ht1⟩ := htail
              have hwr : wr (w ++ over tail e) (w.length + e.length) 0x2E = .ok (w ++ e ++ [0x2E] ++ tail.drop (e.length + 1)) := by
                rw [wr_ok (by simp; omega), hov, ht0, ht1, ← List.append_assoc, List.set_append_right _ _ (by simp)]
                simp
              have hze : (0 : UInt8) ∉ e := by
                intro h0
                rcases hldh hg.2 0 h0 with h | h
                · exact absurd h (by decide)
                · simp [IsDig] at h
              rw [liftC_bind hwr]
              by_cases hn : (encs (rest x)).length > 1
              · rw [if_pos hn, if_pos hn]
              · rw [if_neg hn, if_neg hn]
                have h01 : (encs (rest x)).length = 0 ∨ (encs (rest x)).length = 1 := by omega
                rw [ht1]
                rcases h01 with h0 | h0
                · have hw2 : wr (w ++ e ++ [0x2E] ++ t1 :: t2) (w.length + e.length + 0) 0 = .ok (w ++ e ++ 0 :: t1 :: t2) := by
                    rw [wr_ok (by simp), List.append_assoc, List.set_append_right _ _ (by simp)]
                    simp
                  rw [h0, liftC_bind hw2, liftC_bind (dup_spec (w ++ e) (t1 :: t2) (by simp [h3, hze]))]
                  simp
                  rfl
                · have hw2 : wr (w ++ e ++ [0x2E] ++ t1 :: t2) (w.length + e.length + 1) 0 = .ok (w ++ e ++ [0x2E] ++ 0 :: t2) := by
                    have hl : (w ++ e ++ [0x2E]).length = w.length + e.length + 1 := by simp; omega
                    rw [wr_ok (by rw [List.length_append, hl]; simp), List.set_append_right _ _ (by rw [hl]), hl, Nat.sub_self]
                    rfl
                  rw [h0, liftC_bind hw2, liftC_bind (dup_spec (w ++ e ++ [0x2E]) t2 (by simp [h3, hze]))]
                  simp
                  rfl
        · rintro (h | h | h)
          · exact hg.1 (.inr h)
          · exact hg.1 (.inl (hhead.2 h))
          · exact h hg.2
      · rw [if_neg hg] at hpu
        rw [filtered_none id _ _ _ _ hpu, if_pos]
        · rfl
        · by_contra hcon
          push Not at hcon
          refine hg ⟨?_, ?_⟩
          · rintro (h | h)
            · exact hcon.2 (.inl (hhead.1 h))
            · exact hcon.1 h
          · by_contra h
            exact hcon.2 (.inr h)
    rcases rest_cases x with h | ⟨y, h⟩
    · obtain ⟨h1, h2⟩ := parts_last h
      refine ⟨[e], by rw [h1]; exact .cons ha .nil, ?_, fun w tail g1 g2 g3 => ?_⟩
      · rw [h1]
        intro l e' hm
        simp only [List.zip_cons_cons, List.zip_nil_left, List.mem_singleton, Prod.mk.injEq] at hm
        obtain ⟨rfl, rfl⟩ := hm
        exact hldh
      · rw [step w tail g1 g2 g3, h1, h]
        simp only [outcome, h2, if_true, if_false, Verif.Unicode.encs_nil, List.length_nil, gt_iff_lt, Nat.not_lt_zero, Nat.zero_ne_one]
        split_ifs <;> rfl
    · by_cases hy : y = []
      · subst hy
        obtain ⟨h1, h2⟩ := parts_dot h
        refine ⟨[e], by rw [h1]; exact .cons ha .nil, ?_, fun w tail g1 g2 g3 => ?_⟩
        · rw [h1]
          intro l e' hm
          simp only [List.zip_cons_cons, List.zip_nil_left, List.mem_singleton, Prod.mk.injEq] at hm
          obtain ⟨rfl, rfl⟩ := hm
          exact hldh
        · have hl1 : (encs [0x2E]).length = 1 := by decide
          rw [step w tail g1 g2 g3, h1, h, hl1]
          simp only [outcome, h2, if_true, gt_iff_lt, Nat.lt_irrefl, if_false]
          split_ifs <;> rfl
      · obtain ⟨h1, h2⟩ := parts_more h hy
        have hxe : x = lab x ++ 0x2E :: y := by rw [← h]; exact lab_rest x
        have hsy : ∀ c ∈ y, IsScalar c := fun c hc => hx c (by rw [hxe]; simp [hc])
        have hel : (encs x).length = (encs (lab x)).length + (1 + (encs y).length) := by
          conv_lhs => rw [hxe]
          rw [encs_append, encs_cons, List.length_append, List.length_append]
          rfl
        have hyl : y.length < x.length := by
          conv_rhs => rw [hxe]
          simp; omega
        obtain ⟨es, i1, i2, i3⟩ := ih y.length hyl y hsy hy (by omega) rfl
        refine ⟨e :: es, by rw [h1]; exact .cons ha i1, ?_, fun w tail g1 g2 g3 => ?_⟩
        · rw [h1]
          intro l e' hm
          simp only [List.zip_cons_cons, List.mem_cons, Prod.mk.injEq] at hm
          rcases hm with ⟨rfl, rfl⟩ | hm
          · exact hldh
          · exact i2 l e' hm
        · rw [step w tail g1 g2 g3, h1, h2, h, outcome]
          have hyl1 : (encs (0x2E :: y)).length = 1 + (encs y).length := by
            rw [encs_cons, List.length_append]; rfl
          have hyp : 0 < (encs y).length := lt_of_lt_of_le (List.length_pos_iff.2 hy) encs_len_le
          by_cases c1 : y.getLast? = some 0x2D ∨ Refused id (lab x)
          · rw [if_pos c1, if_pos c1]
          rw [if_neg c1, if_neg c1]
          by_cases c2 : e.length > 63
          · rw [if_pos c2, if_pos c2]; split_ifs <;> rfl
          rw [if_neg c2, if_neg c2]
          by_cases c3 : w.length + e.length + 1 > 253
          · rw [if_pos c3, if_pos c3]
          rw [if_neg c3, if_neg c3, if_pos (by omega), if_neg (parts_ne y)]
          have hat : ((at' (0x2E :: y) r).1.drop 1, some ((encs (0x2E :: y)).length - 1)) = at' y r := by
            simp only [at', hyl1]
            rw [encs_cons, show enc 0x2E = [0x2E] by decide, show 1 + (encs y).length - 1 = (encs y).length by omega]
            rfl
          have hw : (w ++ e ++ [0x2E]).length = w.length + e.length + 1 := by simp; omega
          have hze : (0 : UInt8) ∉ e := by
            intro h0
            have hgood : Good id true (lab x) := by
              by_contra hb
              exact c1 (.inr (.inr hb))
            rcases hldh hgood 0 h0 with h | h
            · exact absurd h (by decide)
            · simp [IsDig] at h
          rw [hat, ← hw]
          exact i3 (w ++ e ++ [0x2E]) (tail.drop (e.length + 1)) (by rw [hw, List.length_drop]; omega) (by omega) (by simp [g3, hze])

end Verif.Puny
