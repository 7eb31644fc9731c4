import Verif.Proofs.EmitDecomp
import Verif.Model.EmitHeader

/-! The file that allowed_in_normal_form.py writes. -/

set_option autoImplicit false

namespace Verif.Emit
open Verif.Spec.CText hiding Str
open Verif.Py (Str)
open Verif.PyGen

/-- Names joined by `|`. -/
def barLeaf (x : Str) (xs : List Str) : Leaf :=
  ⟨joinBar (x :: xs), .ident x :: xs.flatMap (fun y => [.sym .bar, .ident y]), xs.foldl (fun a y => .bin .bar a (.var y)) (.var x)⟩

/-- An identifier. -/
def Name (x : Str) : Prop := (∀ c ∈ x, isWord c = true) ∧ word x = some (.ident x)

theorem lex_bar {cs : Str} {ts : List Tok} {s : At} (h : feed .free (';' :: cs) = some (ts, s)) : ∀ (xs : List Str) (x : Str), Name x → (∀ y ∈ xs, Name y) →
    feed .free (joinBar (x :: xs) ++ ';' :: cs) = some (.ident x :: (xs.flatMap (fun y => [.sym .bar, .ident y]) ++ ts), s)
  | [], x, hx, _ => lex_word hx.1 hx.2 rfl h
  | y :: xs, x, hx, hxs => by
    have ih := lex_bar h xs y (hxs y (by simp)) fun z hz => hxs z (by simp [hz])
    have h1 := lex_lit (a := c!" | ") (ts := [.sym .bar]) rfl ih
    have h2 := lex_word hx.1 hx.2 (c := ' ') rfl h1
    simpa [joinBar, List.flatMap_cons, List.append_assoc] using h2

theorem barLeaf_good {x : Str} {xs : List Str} (hx : Name x) (hxs : ∀ y ∈ xs, Name y) (hl : xs.length ≤ 3) : (barLeaf x xs).Good where
  lex h := by
    have := lex_bar h xs x hx hxs
    simpa [barLeaf] using this
  parse ts := by
    match xs, hl with
    | [], _ => rfl
    | [_], _ => rfl
    | [_, _], _ => rfl
    | [_, _, _], _ => rfl
    | _ :: _ :: _ :: _ :: _, h => simp only [List.length_cons] at h; omega

variable {H : Str → Option V} {G : Globals} {L : Locals}

theorem eval_bar : ∀ (xs : List (Str × Nat)) (a : E) (k : Nat), Returns (a.eval H G L) (.int k) → k < 256 →
    (∀ y ∈ xs, y.2 < 256 ∧ ident H G L y.1 = .ok (.int y.2)) →
    Returns (((xs.map Prod.fst).foldl (fun a y => .bin .bar a (.var y)) a).eval H G L) (.int ((xs.map Prod.snd).foldl (· ||| ·) k : Nat))
  | [], a, k, ha, _, _ => ha
  | y :: xs, a, k, ha, hk, h => by
    obtain ⟨h1, h2⟩ := h y (by simp)
    have hlt : k ||| y.2 < 256 := Nat.or_lt_two_pow (n := 8) hk h1
    have hr : Returns (E.eval H G L (.bin .bar a (.var y.1))) (.int (k ||| y.2 : Nat)) := by
      rw [E.eval, returns_bind ha]
      simp only [reduceCtorEq, if_false, E.eval, h2, liftC_bind rfl]
      rw [returns_liftC]
      have : (((k ||| y.2 : Nat) : Int)) < 2 ^ 31 := by omega
      show (if 0 ≤ (k : Int) ∧ 0 ≤ (y.2 : Int) then Spec.CText.int ((k ||| y.2 : Nat) : Int) else Except.error Err.ub) = _
      rw [if_pos ⟨by omega, by omega⟩, Spec.CText.int, if_pos ⟨by omega, this⟩]
    exact eval_bar xs _ _ hr hlt fun z hz => h z (by simp [hz])

theorem flag_good : ∀ y ∈ flagConstants, y.2 < 256 ∧ header y.1 = some (.int y.2) ∧ y.1 ≠ c!"codepoint" := by
  intro y hy
  simp only [flagConstants, List.mem_cons, List.not_mem_nil, or_false] at hy
  rcases hy with rfl | rfl | rfl | rfl | rfl | rfl | rfl | rfl <;> exact ⟨by decide, rfl, by decide⟩

theorem flag_word : ∀ y ∈ flagConstants, Name y.1 := by unfold Name; decide

theorem flagName_of {ls : List QcLine} {cp kind b : Nat} {form : Str} (h : qcBits (qcValue ls kind cp) kind = .ok b)
    (h1 : (c!"UNICODE_" ++ (form ++ c!"_DISALLOWED"), 1 <<< (2 * kind)) ∈ flagConstants)
    (h2 : (c!"UNICODE_" ++ (form ++ c!"_MAYBE"), 2 <<< (2 * kind)) ∈ flagConstants) :
    ∃ xs : List (Str × Nat), flagName ls cp form kind = .ok (xs.map Prod.fst) ∧ xs.length ≤ 1 ∧ (∀ y ∈ xs, y ∈ flagConstants) ∧
      ∀ a : Nat, (xs.map Prod.snd).foldl (· ||| ·) a = a ||| b := by
  unfold qcBits at h
  unfold flagName
  split at h
  · next e => cases h; rw [if_pos e]; exact ⟨[_], rfl, by simp, by simpa using h1, fun a => rfl⟩
  · next e =>
    rw [if_neg e]
    split at h
    · next e => cases h; rw [if_pos e]; exact ⟨[_], rfl, by simp, by simpa using h2, fun a => rfl⟩
    · next e =>
      rw [if_neg e]
      split at h
      · next e => cases h; rw [if_pos e]; exact ⟨[], rfl, by simp, by simp, fun a => by simp⟩
      · cases h

theorem flagNames_of {ls : List QcLine} {cp k : Nat} (h : qcFlags ls cp = .ok k) :
    ∃ xs : List (Str × Nat), flagNames ls cp = .ok (xs.map Prod.fst) ∧ xs.length ≤ 4 ∧ (∀ y ∈ xs, y ∈ flagConstants) ∧ (xs.map Prod.snd).foldl (· ||| ·) 0 = k := by
  unfold qcFlags at h
  cases ha : qcBits (qcValue ls 0 cp) 0 with
  | error e => rw [ha] at h; cases h
  | ok a =>
    cases hb : qcBits (qcValue ls 1 cp) 1 with
    | error e => rw [ha, hb] at h; cases h
    | ok b =>
      cases hc : qcBits (qcValue ls 2 cp) 2 with
      | error e => rw [ha, hb, hc] at h; cases h
      | ok c =>
        cases hd : qcBits (qcValue ls 3 cp) 3 with
        | error e => rw [ha, hb, hc, hd] at h; cases h
        | ok d =>
          rw [ha, hb, hc, hd] at h
          cases h
          obtain ⟨xa, a1, a2, a3, a4⟩ := flagName_of (form := c!"NFC") ha (by decide) (by decide)
          obtain ⟨xb, b1, b2, b3, b4⟩ := flagName_of (form := c!"NFD") hb (by decide) (by decide)
          obtain ⟨xc, c1, c2, c3, c4⟩ := flagName_of (form := c!"NFKC") hc (by decide) (by decide)
          obtain ⟨xd, d1, d2, d3, d4⟩ := flagName_of (form := c!"NFKD") hd (by decide) (by decide)
          refine ⟨xa ++ (xb ++ (xc ++ xd)), ?_, ?_, ?_, ?_⟩
          · rw [flagNames, a1, b1, c1, d1]
            simp only [List.map_append]; rfl
          · simp only [List.length_append]; omega
          · intro y hy
            simp only [List.mem_append] at hy
            rcases hy with h | h | h | h
            exacts [a3 y h, b3 y h, c3 y h, d3 y h]
          · simp only [List.map_append, List.foldl_append, a4, b4, c4, d4, Nat.zero_or]

/-- What the file for the code points below `n` means. -/
theorem qcOut_means {ls : List QcLine} {n : Nat} {flags : Nat → Nat} (hf : ∀ cp, qcFlags ls cp = .ok (flags cp)) :
    ∃ names, (List.range n).mapM (flagNames ls) = .ok names ∧
      (∀ cp < n, Means header (qcOut ((List.range n).zip names)) c!"charstr_allowed_unicode_normal_forms" [.int cp] (.int (flags cp))) ∧
      ∀ c : Int, (∀ cp < n, (cp : Int) ≠ c) → Means header (qcOut ((List.range n).zip names)) c!"charstr_allowed_unicode_normal_forms" [.int c] (.int 0) := by
  choose xs h1 h2 h3 h4 using fun cp => flagNames_of (hf cp)
  have hm : (List.range n).mapM (flagNames ls) = .ok ((List.range n).map fun cp => (xs cp).map Prod.fst) := by
    generalize List.range n = l
    induction l with
    | nil => rfl
    | cons c l ih => rw [List.mapM_cons, h1, ih]; rfl
  let leaf (cp : Nat) : Leaf := match (xs cp).map Prod.fst with
    | [] => numLeaf 0
    | x :: l => barLeaf x l
  let keys := (List.range n).filter fun cp => decide (xs cp ≠ [])
  let cases := keys.map fun cp => (cp, leaf cp)
  have hname : ∀ cp, ∀ y ∈ (xs cp).map Prod.fst, Name y := by
    intro cp y hy
    obtain ⟨p, hp, rfl⟩ := List.mem_map.1 hy
    exact flag_word p (h3 cp p hp)
  have hg : ∀ c ∈ cases, c.2.Good := by
    intro c hc
    obtain ⟨cp, _, rfl⟩ := List.mem_map.1 hc
    have hl := h2 cp
    have hn := hname cp
    show (leaf cp).Good
    dsimp only [leaf]
    rw [← List.length_map (f := Prod.fst)] at hl
    generalize (xs cp).map Prod.fst = l at hl hn
    cases l with
    | nil => exact numLeaf_good 0
    | cons x l => exact barLeaf_good (hn x (by simp)) (fun y hy => hn y (by simp [hy])) (by rw [List.length_cons] at hl; omega)
  have hk : (cases.map Prod.fst).Nodup := by
    have : cases.map Prod.fst = keys := by simp [cases, Function.comp_def]
    rw [this]
    exact List.nodup_range.filter _
  have ht : qcOut ((List.range n).zip ((List.range n).map fun cp => (xs cp).map Prod.fst)) =
      c!"#include \"charstr.h\"\n\nint charstr_allowed_unicode_normal_forms(int codepoint)\n{\n    switch (codepoint) {\n" ++
      (cases.flatMap (fun c => c!"        case " ++ (fmt 10 c.1 ++ (c!": return " ++ (c.2.text ++ c!";\n")))) ++ c!"        default: return 0;\n    }\n}\n") := by
    rw [qcOut]
    congr 2
    dsimp only [cases, keys]
    generalize List.range n = l
    induction l with
    | nil => rfl
    | cons c l ih =>
      rw [List.map_cons, List.zip_cons_cons, List.filter_cons, List.filter_cons]
      by_cases hx : xs c = []
      · rw [if_neg (by simp [hx]), if_neg (by simp [hx]), ih]
      · rw [if_pos (by simp [hx]), if_pos (by simp [hx]), List.flatMap_cons, List.map_cons, List.flatMap_cons, ih]
        have : (leaf c).text = joinBar ((xs c).map Prod.fst) := by
          dsimp only [leaf]
          cases e : (xs c).map Prod.fst with
          | nil => exact absurd (List.map_eq_nil_iff.1 e) hx
          | cons x l => rfl
        rw [this]; rfl
  have hp := program_switch header (name := c!"charstr_allowed_unicode_normal_forms") (x := c!"codepoint") hg (numLeaf_good 0) hk
    (head := c!"#include \"charstr.h\"\n\nint charstr_allowed_unicode_normal_forms(int codepoint)\n{\n    switch (codepoint) {\n")
    (tail := c!"        default: return 0;\n    }\n}\n") (by decide) (by decide)
  rw [← ht] at hp
  have hempty : ∀ cp, xs cp = [] → flags cp = 0 := by
    intro cp h
    have := h4 cp
    rw [h] at this
    exact this.symm
  refine ⟨_, hm, fun cp hcp => ⟨_, _, hp, by rw [find, if_pos rfl], invoke_switch rfl (n := cp) (by simp [ident, find]) (v := .int (flags cp)) ?_ rfl⟩,
    fun c hc => ⟨_, _, hp, by rw [find, if_pos rfl], invoke_switch rfl (n := c) (by simp [ident, find]) (v := .int 0) ?_ rfl⟩⟩
  · by_cases hx : xs cp = []
    · rw [pick_miss (by
        intro c hc h
        obtain ⟨a, ha, rfl⟩ := List.mem_map.1 hc
        have ha := (List.mem_filter.1 ha).2
        simp only [Nat.cast_inj] at h
        subst h
        simp [hx] at ha), hempty cp hx]
      exact eval_num (by decide)
    · rw [pick_hit hk (List.mem_map.2 ⟨cp, List.mem_filter.2 ⟨List.mem_range.2 hcp, by simpa using hx⟩, rfl⟩)]
      have h5 : ∀ y ∈ xs cp, y.2 < 256 ∧ ident header [] [(c!"codepoint", .int cp)] y.1 = .ok (.int y.2) := by
        intro y hy
        obtain ⟨g1, g2, g3⟩ := flag_good y (h3 cp y hy)
        refine ⟨g1, ?_⟩
        rw [ident, find_none (by simpa using g3.symm)]
        simp only [find, g2]
      have h6 := h4 cp
      show Returns (E.eval header [] [(c!"codepoint", .int cp)] (leaf cp).e) _
      dsimp only [leaf]
      cases e : xs cp with
      | nil => exact absurd e hx
      | cons x l =>
        rw [e] at h5 h6
        have g := h5 x (by simp)
        have h7 := eval_bar (L := [(c!"codepoint", .int cp)]) (G := []) (H := header) l (.var x.1) x.2 ((returns_liftC _ _).2 g.2) g.1 fun y hy => h5 y (by simp [hy])
        rw [List.map_cons, List.foldl_cons, Nat.zero_or] at h6
        rw [h6] at h7
        exact h7
  · rw [pick_miss (by
      intro p hp
      obtain ⟨a, ha, rfl⟩ := List.mem_map.1 hp
      exact hc a (List.mem_range.1 (List.mem_filter.1 ha).1))]
    exact eval_num (by decide)

end Verif.Emit
