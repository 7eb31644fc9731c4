import Verif.Model.IdnaRead
import Verif.Spec.IdnaTable
import Verif.Props.Charstr
import Verif.Proofs.NormalText

/-! Lemmas about reading `IdnaMappingTable.txt`. -/

set_option autoImplicit false

namespace Verif.IdnaGen
open Verif.Charstr Verif.Utf8 Verif.Spec.IdnaTable
open Verif.Spec.Charstr (hexValue Split SplitStr Atoms Stripped)
open Verif.Spec.Utf8 (IsScalar enc)
open Verif.Spec.Unicode (encs)

theorem isWs_table (c : UInt8) : (blank c = true → isWs c = true) ∧ (32 < c → isWs c = false) := by
  have h : ∀ c : Fin 256, (blank (UInt8.ofNat c) = true → isWs (UInt8.ofNat c) = true) ∧ (32 < UInt8.ofNat c → isWs (UInt8.ofNat c) = false) := by
    decide +kernel
  have := h ⟨c.toNat, c.toNat_lt⟩
  simpa using this

theorem hex_table (c : UInt8) : hexDigit c = hexValue c ∧ (blank c = true → isSpace c = true ∧ hexValue c = none ∧ c ≠ 46 ∧ c ≠ 59) ∧
    (hexValue c ≠ none → isSpace c = false ∧ c ≠ 45 ∧ c ≠ 43 ∧ c ≠ 120 ∧ c ≠ 88 ∧ c ≠ 46 ∧ c ≠ 0 ∧ 32 < c) ∧ (blank c = true → c ≠ 120 ∧ c ≠ 88 ∧ c ≠ 0) := by
  have h : ∀ c : Fin 256, let c := UInt8.ofNat c
      hexDigit c = hexValue c ∧ (blank c = true → isSpace c = true ∧ hexValue c = none ∧ c ≠ 46 ∧ c ≠ 59) ∧
      (hexValue c ≠ none → isSpace c = false ∧ c ≠ 45 ∧ c ≠ 43 ∧ c ≠ 120 ∧ c ≠ 88 ∧ c ≠ 46 ∧ c ≠ 0 ∧ 32 < c) ∧ (blank c = true → c ≠ 120 ∧ c ≠ 88 ∧ c ≠ 0) := by
    decide +kernel
  have := h ⟨c.toNat, c.toNat_lt⟩
  simpa using this

/-! ### Numbers -/

theorem _root_.Verif.Spec.IdnaTable.Hex.ne_nil {s : List UInt8} {v : Nat} (h : Hex s v) : s ≠ [] := by cases h <;> simp

theorem _root_.Verif.Spec.IdnaTable.Hex.chars {s : List UInt8} {v : Nat} (h : Hex s v) : ∀ c ∈ s, hexValue c ≠ none := by
  induction h with
  | one c d h => simp [h]
  | more s v c d hs h ih =>
    intro x hx
    rcases List.mem_append.1 hx with hx | hx
    · exact ih x hx
    · simp only [List.mem_singleton] at hx; subst hx; simp [h]

theorem hexRun_append {s : List UInt8} {v : Nat} (h : Hex s v) (r : List UInt8) : hexRun (s ++ r) 0 = hexRun r v := by
  induction h generalizing r with
  | one c d h => simp [hexRun, (hex_table c).1, h]
  | more s v c d hs h ih => rw [List.append_assoc, ih]; simp [hexRun, (hex_table c).1, h]

theorem skipSpace_blank (w s : List UInt8) (hw : ∀ c ∈ w, blank c = true) : skipSpace (w ++ s) = skipSpace s := by
  induction w with
  | nil => rfl
  | cons c w ih =>
    rw [List.cons_append, skipSpace, if_pos ((hex_table c).2.1 (hw c (by simp))).1, ih fun x hx => hw x (List.mem_cons_of_mem _ hx)]

theorem strtol16_spec (w s r : List UInt8) (v : Nat) (hw : ∀ c ∈ w, blank c = true) (hs : Hex s v) (hv : v < 2 ^ 31)
    (hr : ∃ c r', r = c :: r' ∧ (c = 0 ∨ blank c = true)) : strtol16 (w ++ s ++ r) = .ok (v : Int) := by
  obtain ⟨e, r', rfl, he⟩ := hr
  obtain ⟨c, s', rfl⟩ := List.exists_cons_of_ne_nil hs.ne_nil
  have hc := (hex_table c).2.2.1 (hs.chars c (by simp))
  have hnone : hexDigit e = none := by
    rcases he with rfl | he
    · decide
    · rw [(hex_table e).1]; exact ((hex_table e).2.1 he).2.1
  have h1 : skipSpace (w ++ (c :: s') ++ e :: r') = .ok (c :: s' ++ e :: r') := by
    rw [List.append_assoc, skipSpace_blank _ _ hw, List.cons_append, skipSpace, if_neg (by simp [hc.1])]
  have h2 : skipSign (c :: s' ++ e :: r') = (false, c :: s' ++ e :: r') := by
    rw [List.cons_append, skipSign]
    · rintro x hx; simp only [List.cons.injEq] at hx; exact hc.2.1 hx.1
    · rintro x hx; simp only [List.cons.injEq] at hx; exact hc.2.2.1 hx.1
  have hx : ∀ x ∈ (s' ++ e :: r').head?, x ≠ 120 ∧ x ≠ 88 := by
    intro x hx
    cases s' with
    | nil =>
      simp only [List.nil_append, List.head?_cons, Option.mem_def, Option.some.injEq] at hx
      subst hx
      rcases he with rfl | he
      · decide
      · exact ⟨((hex_table e).2.2.2 he).1, ((hex_table e).2.2.2 he).2.1⟩
    | cons d s' =>
      simp only [List.cons_append, List.head?_cons, Option.mem_def, Option.some.injEq] at hx
      subst hx
      have := (hex_table d).2.2.1 (hs.chars d (by simp))
      exact ⟨this.2.2.2.1, this.2.2.2.2.1⟩
  have h3 : skip0x (c :: s' ++ e :: r') = c :: s' ++ e :: r' := by
    rw [List.cons_append]
    generalize s' ++ e :: r' = t at hx
    unfold skip0x
    split
    · rename_i x d r heq
      simp only [List.cons.injEq] at heq
      have := hx x (by simp [heq.2])
      rw [if_neg (by tauto), heq.1, heq.2]
    · rfl
  have h4 : hexRun (c :: s' ++ e :: r') 0 = .ok v := by
    rw [hexRun_append hs, hexRun, hnone]
  simp only [strtol16, h1, h2, h3, h4, bind, Except.bind, pure, Except.pure]
  simp only [Bool.false_eq_true, if_false]
  rw [if_pos (by omega)]

theorem toInt_small {v : Nat} (h : v < 2 ^ 31) : toInt (v : Int) = v := by
  rw [toInt, Int.emod_eq_of_lt (by omega) (by omega), if_pos (by omega)]

/-! ### Mappings -/

theorem strtol16_digits {a : List UInt8} {v : Nat} (ha : Hex a v) (hv : v < 2 ^ 31) : strtol16 (a ++ [0]) = .ok (v : Int) :=
  strtol16_spec [] a [0] v (List.forall_mem_nil _) ha hv ⟨0, [], rfl, .inl rfl⟩

theorem encodeMapping_step {a : List UInt8} {v : Int} (h : strtol16 a = .ok v) (as : List (List UInt8)) (buf : List UInt8) (q : Nat) :
    encodeMapping (a :: as) buf q = match encode (toInt v) buf q (some 99) with
      | .error e => .error e
      | .ok (none, _) => .error .abort
      | .ok (some q, buffer) => encodeMapping as buffer q := by
  rw [encodeMapping, h]
  simp only
  generalize encode _ buf q (some 99) = x
  obtain _ | ⟨_ | _, _⟩ := x <;> rfl

theorem encodeMapping_cons {a : List UInt8} {v : Nat} (ha : Hex a v) (hv : v < 2 ^ 31) (as : List (List UInt8)) (buf : List UInt8) (q : Nat) :
    encodeMapping ((a ++ [0]) :: as) buf q = match encode v buf q (some 99) with
      | .error e => .error e
      | .ok (none, _) => .error .abort
      | .ok (some q, buffer) => encodeMapping as buffer q := by
  rw [encodeMapping_step (strtol16_digits ha hv), toInt_small hv]

theorem encodeMapping_spec {as : List (List UInt8)} {m : List Nat} (h : List.Forall₂ Hex as m) (hm : ∀ c ∈ m, IsScalar c) :
    ∀ (buf : List UInt8) (q : Nat), buf.length = 100 → q ≤ 99 →
    (q + (encs m).length ≤ 99 → encodeMapping (as.map (· ++ [0])) buf q = .ok (q + (encs m).length, splice buf q (encs m))) ∧
    (99 < q + (encs m).length → encodeMapping (as.map (· ++ [0])) buf q = .error .abort) := by
  induction h with
  | nil => intro buf q _ _; simp [encodeMapping]; omega
  | @cons a v as m ha h ih =>
    intro buf q hb hq
    have hv : IsScalar v := hm v (by simp)
    have hv' : v < 2 ^ 31 := by simp only [IsScalar] at hv; omega
    obtain ⟨e1, e2⟩ := Unicode.encode_scalar hv (buf := buf) (s := q) (e := 99) hq (by omega)
    rw [List.map_cons, encodeMapping_cons ha hv']
    by_cases hf : q + (enc v).length ≤ 99
    · rw [e1 hf]
      simp only
      have hl : (splice buf q (enc v)).length = 100 := by rw [splice_length (by omega), hb]
      obtain ⟨k1, k2⟩ := ih (fun c hc => hm c (List.mem_cons_of_mem _ hc)) _ (q + (enc v).length) hl hf
      constructor
      · intro hle
        simp only [Unicode.encs_cons, List.length_append] at hle ⊢
        rw [k1 (by omega), splice_splice (by omega), Nat.add_assoc]
      · intro hlt
        simp only [Unicode.encs_cons, List.length_append] at hlt
        exact k2 (by omega)
    · obtain ⟨buf', e3, _⟩ := e2 (by omega)
      rw [e3]
      constructor
      · intro hle; simp only [Unicode.encs_cons, List.length_append] at hle; omega
      · intro _; rfl

theorem forall₂_left {α β : Type} {R : α → β → Prop} {l : List α} {m : List β} (h : List.Forall₂ R l m) {a : α} (ha : a ∈ l) : ∃ b, R a b := by
  induction h with
  | nil => cases ha
  | @cons x y _ _ hxy _ ih =>
    rcases List.mem_cons.1 ha with rfl | ha
    · exact ⟨y, hxy⟩
    · exact ih ha

/-- What is stored for the code points of a line. -/
def lineEntry (l : Line) : Entry := ⟨some (l.status ++ [0]), l.mapping.map (encs · ++ [0])⟩

theorem encs_nonzero {m : List Nat} (h : ∀ c ∈ m, IsScalar c ∧ c ≠ 0) : (0 : UInt8) ∉ encs m := by
  rw [Unicode.encs_zero fun c hc => (h c hc).1]
  exact fun h0 => (h 0 h0).2 rfl

theorem readMapping_spec {f : List UInt8} {m : List Nat} (h : Mapping f m) (hm : ∀ c ∈ m, IsScalar c ∧ c ≠ 0) (hl : (encs m).length ≤ 99)
    (hf : 0 ∉ f) {buf : List UInt8} (hb : buf.length = 100) :
    ∃ buf', readMapping buf (some (f ++ [0])) = .ok (some buf') ∧ dupstr (some buf') = .ok (some (encs m ++ [0])) := by
  obtain ⟨as, h1, h2⟩ := h
  have hws : ∀ a ∈ as, ∀ c ∈ a, isWs c = false := by
    intro a ha c hc
    obtain ⟨v, hv⟩ := forall₂_left h2 ha
    exact (isWs_table c).2 ((hex_table c).2.2.1 (hv.chars c hc)).2.2.2.2.2.2.2
  have h3 : Atoms isWs f as := by
    clear h2 hf
    induction h1 with
    | done s h => exact .done s fun c hc => (isWs_table c).1 (h c hc)
    | atom w a r as hw h0 ha hr h ih =>
      exact .atom w a r as (fun c hc => (isWs_table c).1 (hw c hc)) h0 (fun c hc => hws a (by simp) c hc)
        (fun c hc => (isWs_table c).1 (hr c hc)) (ih fun a ha => hws a (List.mem_cons_of_mem _ ha))
  obtain ⟨as', g1, g2⟩ := split_atoms_correct f [] hf
  obtain rfl := (atoms_unique _ _ _ _ g2 h3).1
  have g3 := (encodeMapping_spec h2 (fun c hc => (hm c hc).1) buf 0 hb (by omega)).1 (by omega)
  rw [Nat.zero_add] at g3
  have hlen : (splice buf 0 (encs m)).length = 100 := by rw [splice_length (by omega), hb]
  refine ⟨splice buf 0 (encs m ++ [0]), ?_, ?_⟩
  · simp only [readMapping, g1, g3, bind, Except.bind, pure, Except.pure]
    rw [wr, if_pos (by omega)]
    simp only
    rw [← splice_one (by omega), show (encs m).length = 0 + (encs m).length by omega, splice_splice (by omega)]
  · rw [splice_zero, List.append_assoc]
    exact (dup_correct (encs m) _ [] (encs_nonzero hm)).1

theorem fillRange_spec {status : List UInt8} {mapping : Option (List UInt8)} {e : Entry} (hs : strip (some status) = .ok e.status)
    (hm : dupstr mapping = .ok e.mapping) : ∀ (k : Nat) (table : Table) (lo : Nat), lo + k ≤ 0x110000 →
    ((∀ cp, lo ≤ cp → cp < lo + k → (table cp).status = none) →
      fillRange status mapping table k lo = .ok fun i => if lo ≤ i ∧ i < lo + k then e else table i) ∧
    ((∃ cp, lo ≤ cp ∧ cp < lo + k ∧ (table cp).status ≠ none) → fillRange status mapping table k lo = .error .abort) := by
  intro k
  induction k with
  | zero =>
    intro table lo _
    refine ⟨fun _ => ?_, fun ⟨cp, h1, h2, _⟩ => by omega⟩
    rw [fillRange]
    congr 1
    funext i
    rw [if_neg (by omega)]
  | succ k ih =>
    intro table lo hlo
    rw [fillRange, if_neg (by omega)]
    simp only [Int.toNat_natCast, hs, hm]
    by_cases h0 : (table lo).status = none
    · rw [if_neg (by simp [h0])]
      obtain ⟨i1, i2⟩ := ih (fun i => if i = lo then e else table i) (lo + 1) (by omega)
      constructor
      · intro h
        have := i1 fun cp h1 h2 => by
          rw [if_neg (by omega)]
          exact h cp (by omega) (by omega)
        rw [show ((lo : Int) + 1) = ((lo + 1 : Nat) : Int) by omega]
        refine this.trans ?_
        congr 1
        funext i
        by_cases h1 : i = lo
        · subst h1; rw [if_neg (by omega), if_pos rfl, if_pos (by omega)]
        · by_cases h2 : lo + 1 ≤ i ∧ i < lo + 1 + k
          · rw [if_pos h2, if_pos (by omega)]
          · rw [if_neg h2, if_neg h1, if_neg (by omega)]
      · rintro ⟨cp, h1, h2, h3⟩
        have hne : cp ≠ lo := by rintro rfl; exact h3 h0
        rw [show ((lo : Int) + 1) = ((lo + 1 : Nat) : Int) by omega]
        refine i2 ⟨cp, by omega, by omega, ?_⟩
        rwa [if_neg hne]
    · rw [if_pos (by simpa [Option.isSome_iff_ne_none] using h0)]
      refine ⟨fun h => absurd (h lo (by omega) (by omega)) h0, fun _ => rfl⟩

/-! ### Lines -/

open Classical in
/-- What a line does to the table. -/
noncomputable def fill (table : Table) (l : Line) : C Table :=
  if ∃ cp, cp < 0x110000 ∧ l.About cp ∧ (table cp).status ≠ none then .error .abort
  else .ok fun i => if l.About i then lineEntry l else table i

theorem split_hash {body comment : List UInt8} (hc : ∀ c ∈ comment.head?, c = 35) (hb : 35 ∉ body) (h0 : 0 ∉ body ++ comment) :
    ∃ ps, split 35 1 (body ++ comment ++ [0]) = .ok ((body ++ [0]) :: ps) := by
  obtain ⟨ps, h1, h2⟩ := split_correct 35 (by decide) 1 (body ++ comment) [] h0
  rw [h1]
  cases comment with
  | nil =>
    have : Split 35 1 (body ++ []) [body] := ⟨by simp [List.intercalate], by simp, by
      rw [List.append_nil, List.count_eq_zero.2 hb]; rfl⟩
    rw [split_unique _ _ _ _ _ h2 this]
    exact ⟨_, rfl⟩
  | cons c r =>
    obtain rfl := hc c (by simp)
    have : Split 35 1 (body ++ 35 :: r) [body, r] := ⟨by simp [List.intercalate], by simpa using hb, by
      rw [List.count_append, List.count_cons_self]; simp; omega⟩
    rw [split_unique _ _ _ _ _ h2 this]
    exact ⟨_, rfl⟩

theorem split_fields {fs : List (List UInt8)} (hne : fs ≠ []) (hf : ∀ f ∈ fs, 59 ∉ f) (hl : fs.length ≤ 2 ^ 32) (h0 : 0 ∉ List.intercalate [59] fs) :
    split 59 (2 ^ 32 - 1) (List.intercalate [59] fs ++ [0]) = .ok (fs.map (· ++ [0])) := by
  obtain ⟨ps, h1, h2⟩ := split_correct 59 (by decide) (2 ^ 32 - 1) _ [] h0
  have : Split 59 (2 ^ 32 - 1) (List.intercalate [59] fs) fs := ⟨rfl, fun p hp => hf p ((List.dropLast_sublist fs).subset hp), by
    rw [count_join 59 fs (fun p hp => hf p ((List.dropLast_sublist fs).subset hp)) hne, List.count_eq_zero.2 (hf _ (List.getLast_mem hne))]
    have := List.length_pos_iff.2 hne
    omega⟩
  rw [h1, split_unique _ _ _ _ _ h2 this]

theorem no_dots {s : List UInt8} (h : 46 ∉ s) : ¬ [46, 46] <:+: s := fun hi => h (hi.subset (by simp))

/-- The first field: the pieces as given to `strtol`. -/
theorem split_range {f : List UInt8} {lo hi : Nat} (h : Range f lo hi) (hlo : lo < 2 ^ 31) (hhi : hi < 2 ^ 31) (h0 : 0 ∉ f) :
    ∃ first more last, splitStr (f ++ [0]) [46, 46, 0] (2 ^ 32 - 1) = .ok (first :: more) ∧ dup (more.headD first) = .ok last ∧
      strtol16 first = .ok (lo : Int) ∧ strtol16 last = .ok (hi : Int) := by
  obtain ⟨r, ⟨w, w', hf, hw, hw', -, -⟩, hr⟩ := h
  obtain ⟨ps, h1, h2, -⟩ := split_str_correct [46, 46] [] f [] (by decide) h0 (2 ^ 32 - 1)
  rw [show [46, 46, 0] = [46, 46] ++ 0 :: ([] : List UInt8) from rfl, h1]
  have hdot : ∀ v : List UInt8, (∀ c ∈ v, blank c = true) → 46 ∉ v := fun v hv h => ((hex_table 46).2.1 (hv _ h)).2.2.1 rfl
  have hhex : ∀ {s : List UInt8} {v : Nat}, Hex s v → 46 ∉ s := fun hs h => ((hex_table 46).2.2.1 (hs.chars _ h)).2.2.2.2.2.1 rfl
  have hend : ∃ c r', w' ++ [0] = c :: r' ∧ (c = 0 ∨ blank c = true) := by
    cases w' with
    | nil => exact ⟨0, [], rfl, .inl rfl⟩
    | cons c w' => exact ⟨c, w' ++ [0], rfl, .inr (hw' c (by simp))⟩
  rcases hr with ⟨hr, rfl⟩ | ⟨a, b, rfl, ha, hb⟩
  · have : SplitStr [46, 46] (2 ^ 32 - 1) f [f] := .none _ _ (no_dots (by
      rw [hf]; simp [hdot w hw, hdot w' hw', hhex hr]))
    rw [split_str_unique _ _ _ _ _ h2 this]
    have e : strtol16 (f ++ [0]) = .ok (hi : Int) := by
      rw [hf, List.append_assoc]
      exact strtol16_spec w r _ hi hw hr hlo hend
    exact ⟨_, [], _, rfl, dup_spec f [] h0, e, e⟩
  · have hf' : f = (w ++ a) ++ [46, 46] ++ (b ++ w') := by rw [hf]; simp
    have hA : 46 ∉ w ++ a := by simp [hdot w hw, hhex ha]
    have hB : 46 ∉ b ++ w' := by simp [hdot w' hw', hhex hb]
    have : SplitStr [46, 46] (2 ^ 32 - 1) f [w ++ a, b ++ w'] := by
      rw [hf']
      refine .cut (2 ^ 32 - 2) _ _ _ ?_ (.none _ _ (no_dots hB))
      intro a' b' he
      by_contra hlt
      have e1 : ((w ++ a) ++ [46, 46] ++ (b ++ w'))[a'.length]? = some 46 := by
        rw [he, List.append_assoc, List.getElem?_append_right (Nat.le_refl _)]
        simp
      rw [List.append_assoc, List.getElem?_append_left (by omega)] at e1
      exact hA (List.mem_of_getElem? e1)
    rw [split_str_unique _ _ _ _ _ h2 this]
    have h0' : 0 ∉ b ++ w' := fun h => h0 (by rw [hf']; exact List.mem_append_right _ h)
    refine ⟨_, [b ++ w' ++ [0]], _, rfl, dup_spec (b ++ w') [] h0', ?_, ?_⟩
    · exact strtol16_spec w a _ lo hw ha hlo ⟨0, [], rfl, .inl rfl⟩
    · rw [List.append_assoc]
      exact strtol16_spec [] b _ hi (List.forall_mem_nil _) hb hhi hend

theorem strip_status {f st : List UInt8} (h : Stripped blank f st) (hst : ∀ c ∈ st, 32 < c) (h0 : 0 ∉ f) :
    strip (some (f ++ [0])) = .ok (some (st ++ [0])) := by
  obtain ⟨r, h1, h2⟩ := (strip_spec f [] h0).1
  obtain ⟨a, b, h3, ha, hb, hh, hl⟩ := h
  have : Stripped isWs f st := ⟨a, b, h3, fun c hc => (isWs_table c).1 (ha c hc), fun c hc => (isWs_table c).1 (hb c hc),
    fun c hc => (isWs_table c).2 (hst c (List.mem_of_head? hc)), fun c hc => (isWs_table c).2 (hst c (List.mem_of_getLast? hc))⟩
  rw [h1, stripped_unique _ _ _ _ h2 this]

theorem mem_intercalate_59 {fs : List (List UInt8)} {f : List UInt8} (hf : f ∈ fs) {c : UInt8} (hc : c ∈ f) : c ∈ List.intercalate [59] fs := by
  induction fs with
  | nil => cases hf
  | cons a fs ih =>
    cases fs with
    | nil => simp only [List.mem_singleton] at hf; subst hf; simpa [List.intercalate] using hc
    | cons b fs =>
      rw [intercalate_cons _ _ _ (by simp)]
      rcases List.mem_cons.1 hf with rfl | hf
      · simp [hc]
      · simp [ih hf]

theorem readLine_says {line : List UInt8} {l : Line} (h : Says line l) (hl : l.Ok) {buf : List UInt8} (hb : buf.length = 100) (table : Table) :
    readLine buf table (line ++ [0]) = fill table l := by
  obtain ⟨body, comment, range, status, fields, rfl, h1, h2, h3, h4, h5, h6, h7, h8, h8', h9⟩ := h
  have hbody : 0 ∉ body := fun h => h3 (List.mem_append_left _ h)
  have hz : ∀ f ∈ range :: status :: fields, 0 ∉ f := fun f hf h => hbody (by rw [h4]; exact mem_intercalate_59 hf h)
  obtain ⟨ps, e1⟩ := split_hash h1 h2 h3
  have e2 := split_fields (fs := range :: status :: fields) (by simp) h5 (by simp; omega) (h4 ▸ hbody)
  rw [← h4] at e2
  obtain ⟨k1, k2, k3⟩ := hl
  obtain ⟨first, more, last, e3, e4, e5, e6⟩ := split_range h7 (by omega) (by omega) (hz _ (by simp))
  have e7 := strip_status h8 h8' (hz _ (by simp))
  obtain ⟨mp, e8, e9⟩ : ∃ mp, readMapping buf (fields.map (· ++ [0])).head? = .ok mp ∧ dupstr mp = .ok (lineEntry l).mapping := by
    rcases h9 with ⟨rfl, hm⟩ | ⟨f, fs, m, rfl, hm, hmf⟩
    · exact ⟨none, rfl, by simp [dupstr, lineEntry, hm]⟩
    · obtain ⟨g1, g2⟩ := k3 m hm
      obtain ⟨buf', g3, g4⟩ := readMapping_spec hmf g1 g2 (hz f (by simp)) hb
      exact ⟨_, g3, by rw [g4, lineEntry, hm]; rfl⟩
  have e10 : readLine buf table (body ++ comment ++ [0]) = fillRange (status ++ [0]) mp table (l.hi + 1 - l.lo) l.lo := by
    simp only [readLine, e1, e2, List.map_cons, e3, e4, e5, e6, e8, bind, Except.bind, toInt_small (show l.hi < 2 ^ 31 by omega),
      toInt_small (show l.lo < 2 ^ 31 by omega)]
    congr 1
    omega
  rw [e10]
  by_cases hle : l.lo ≤ l.hi + 1
  · obtain ⟨f1, f2⟩ := fillRange_spec (e := lineEntry l) e7 e9 (l.hi + 1 - l.lo) table l.lo (by omega)
    by_cases hex : ∃ cp, cp < 0x110000 ∧ l.About cp ∧ (table cp).status ≠ none
    · rw [fill, if_pos hex]
      obtain ⟨cp, h1, h2, h3⟩ := hex
      exact f2 ⟨cp, h2.1, by have := h2.2; omega, h3⟩
    · rw [fill, if_neg hex, f1 fun cp h1 h2 => by
        by_contra h3
        exact hex ⟨cp, by omega, ⟨h1, by omega⟩, h3⟩]
      congr 1
      funext i
      by_cases hi : l.About i
      · rw [if_pos hi, if_pos ⟨hi.1, by have := hi.2; omega⟩]
      · rw [if_neg hi, if_neg (fun h => hi ⟨h.1, by omega⟩)]
  · rw [show l.hi + 1 - l.lo = 0 by omega, fillRange, fill, if_neg (fun ⟨cp, _, h, _⟩ => by have := h.1; have := h.2; omega)]
    congr 1
    funext i
    rw [if_neg (fun h : l.About i => by have := h.1; have := h.2; omega)]

theorem readLine_silent {line : List UInt8} (h : Silent line) (buf : List UInt8) (table : Table) : readLine buf table (line ++ [0]) = .ok table := by
  obtain ⟨body, comment, rfl, h1, h2, h3, h4⟩ := h
  obtain ⟨ps, e1⟩ := split_hash h1 h2 h3
  have hbody : 0 ∉ body := fun h => h3 (List.mem_append_left _ h)
  have e2 := split_fields (fs := [body]) (by simp) (by simpa using h4) (by simp) (by simpa [List.intercalate] using hbody)
  simp only [List.intercalate, List.intersperse, List.flatten_cons, List.flatten_nil, List.append_nil] at e2
  simp only [readLine, e1, e2, bind, Except.bind, List.map_cons, List.map_nil, pure, Except.pure]

/-! ### Files -/

/-- The number of lines about a code point. -/
def count (ls : List Line) (cp : Nat) : Nat := (ls.filter fun l => decide (l.About cp)).length

theorem count_cons (l : Line) (ls : List Line) (cp : Nat) : count (l :: ls) cp = (if l.About cp then 1 else 0) + count ls cp := by
  simp only [count, List.filter_cons]
  by_cases h : l.About cp
  · simp [h]; omega
  · simp [h]

theorem count_pos {ls : List Line} {l : Line} {cp : Nat} (hl : l ∈ ls) (h : l.About cp) : 0 < count ls cp :=
  List.length_pos_of_mem (List.mem_filter.2 ⟨hl, by simpa using h⟩)

theorem count_zero {ls : List Line} {cp : Nat} (h : count ls cp = 0) : ∀ l ∈ ls, ¬ l.About cp := fun l hl ha => by
  have := count_pos hl ha; omega

/-- The effect of several lines. -/
noncomputable def fillAll : Table → List Line → C Table
  | table, [] => .ok table
  | table, l :: ls => match fill table l with
    | .error e => .error e
    | .ok table => fillAll table ls

theorem readLines_file {lines : List (List UInt8)} {ls : List Line} (h : File lines ls) (hok : ∀ l ∈ ls, l.Ok) {buffer : Nat → List UInt8}
    (hb : ∀ n, (buffer n).length = 100) : ∀ table, readLines buffer table (lines.map (· ++ [0])) = fillAll table ls := by
  induction h with
  | nil => intro table; rfl
  | silent line lines ls h hr ih =>
    intro table
    rw [List.map_cons, readLines, readLine_silent h]
    exact ih hok table
  | line line lines l ls h hr ih =>
    intro table
    rw [List.map_cons, readLines, readLine_says h (hok l (by simp)) (hb _), fillAll]
    generalize fill table l = x
    cases x with
    | error e => rfl
    | ok t => exact ih (fun l hl => hok l (List.mem_cons_of_mem _ hl)) t

/-- Whether the entry is used. -/
def used (table : Table) (cp : Nat) : Nat := if (table cp).status = none then 0 else 1

theorem used_le (table : Table) (cp : Nat) : used table cp ≤ 1 := by
  rw [used]; split <;> omega

theorem fillAll_spec (ls : List Line) : ∀ table : Table,
    ((∀ cp, cp < 0x110000 → used table cp + count ls cp ≤ 1) → ∃ t, fillAll table ls = .ok t ∧
      ∀ cp, cp < 0x110000 → (∀ l ∈ ls, l.About cp → t cp = lineEntry l) ∧ (count ls cp = 0 → t cp = table cp)) ∧
    ((∃ cp, cp < 0x110000 ∧ 1 < used table cp + count ls cp) → fillAll table ls = .error .abort ∨ ∃ cp, cp < 0x110000 ∧ 1 < used table cp) := by
  induction ls with
  | nil =>
    intro table
    refine ⟨fun _ => ⟨table, rfl, fun cp _ => ⟨fun l hl => absurd hl (by simp), fun _ => rfl⟩⟩, fun ⟨cp, h1, h2⟩ => .inr ⟨cp, h1, h2⟩⟩
  | cons l ls ih =>
    intro table
    by_cases hex : ∃ cp, cp < 0x110000 ∧ l.About cp ∧ (table cp).status ≠ none
    · have hf : fill table l = .error .abort := by rw [fill, if_pos hex]
      constructor
      · intro h
        obtain ⟨cp, h1, h2, h3⟩ := hex
        have := h cp h1
        rw [count_cons, if_pos h2, used, if_neg h3] at this
        omega
      · intro _
        rw [fillAll, hf]
        exact .inl rfl
    · have hf : fill table l = .ok fun i => if l.About i then lineEntry l else table i := by rw [fill, if_neg hex]
      obtain ⟨i1, i2⟩ := ih fun i => if l.About i then lineEntry l else table i
      have hu : ∀ cp, cp < 0x110000 → used (fun i => if l.About i then lineEntry l else table i) cp = used table cp + if l.About cp then 1 else 0 := by
        intro cp hcp
        by_cases ha : l.About cp
        · have h0 : (table cp).status = none := by
            by_contra h; exact hex ⟨cp, hcp, ha, h⟩
          simp [used, ha, h0, lineEntry]
        · simp [used, ha]
      rw [fillAll, hf]
      constructor
      · intro h
        obtain ⟨t, h1, h2⟩ := i1 fun cp hcp => by
          have := h cp hcp
          rw [count_cons] at this
          rw [hu cp hcp]; omega
        refine ⟨t, h1, fun cp hcp => ⟨fun m hm ha => ?_, fun h0 => ?_⟩⟩
        · rcases List.mem_cons.1 hm with rfl | hm
          · have hc : count ls cp = 0 := by
              have := h cp hcp
              rw [count_cons, if_pos ha] at this
              omega
            rw [(h2 cp hcp).2 hc, if_pos ha]
          · exact (h2 cp hcp).1 m hm ha
        · rw [count_cons] at h0
          have hn : ¬ l.About cp := fun ha => by rw [if_pos ha] at h0; omega
          rw [(h2 cp hcp).2 (by omega), if_neg hn]
      · rintro ⟨cp, hcp, h⟩
        rw [count_cons] at h
        rcases i2 ⟨cp, hcp, by rw [hu cp hcp]; omega⟩ with h | ⟨x, hx, h⟩
        · exact .inl h
        · have := used_le (fun i => if l.About i then lineEntry l else table i) x
          omega

theorem fillAll_other (ls : List Line) : ∀ (table t : Table), fillAll table ls = .ok t → ∀ cp, (∀ l ∈ ls, ¬ l.About cp) → t cp = table cp := by
  induction ls with
  | nil => intro table t h cp _; simp only [fillAll, Except.ok.injEq] at h; rw [h]
  | cons l ls ih =>
    intro table t h cp hn
    rw [fillAll] at h
    by_cases hex : ∃ cp, cp < 0x110000 ∧ l.About cp ∧ (table cp).status ≠ none
    · rw [fill, if_pos hex] at h; cases h
    · rw [fill, if_neg hex] at h
      rw [ih _ t h cp fun l hl => hn l (List.mem_cons_of_mem _ hl), if_neg (hn l (by simp))]

theorem complete_iff (table : Table) (n : Nat) : complete table n = true ↔ ∀ cp, cp < n → (table cp).status ≠ none := by
  induction n with
  | zero => simp [complete]
  | succ n ih =>
    simp only [complete, Bool.and_eq_true, ih, Option.isSome_iff_ne_none]
    constructor
    · rintro ⟨h1, h2⟩ cp hcp
      by_cases h : cp = n
      · subst h; exact h2
      · exact h1 cp (by omega)
    · intro h
      exact ⟨fun cp hcp => h cp (by omega), h n (by omega)⟩

/-- The table made of a file. -/
theorem readTable_file {lines : List (List UInt8)} {ls : List Line} (h : File lines ls) (hok : ∀ l ∈ ls, l.Ok) {buffer : Nat → List UInt8}
    (hb : ∀ n, (buffer n).length = 100) :
    ((∀ cp, cp < 0x110000 → count ls cp = 1) → ∃ t, readTable buffer (lines.map (· ++ [0])) = .ok t ∧
      (∀ l ∈ ls, ∀ cp, l.About cp → t cp = lineEntry l) ∧ ∀ cp, 0x110000 ≤ cp → t cp = ⟨none, none⟩) ∧
    ((∃ cp, cp < 0x110000 ∧ count ls cp ≠ 1) → readTable buffer (lines.map (· ++ [0])) = .error .abort) := by
  have hu : ∀ cp, used empty cp = 0 := fun cp => by simp [used, empty]
  obtain ⟨f1, f2⟩ := fillAll_spec ls empty
  simp only [readTable, readLines_file h hok hb, bind, Except.bind]
  have hlt : ∀ l ∈ ls, ∀ cp, l.About cp → cp < 0x110000 := fun l hl cp ha => by
    have := (hok l hl).2.1; have := ha.2; omega
  constructor
  · intro hc
    obtain ⟨t, g1, g2⟩ := f1 fun cp hcp => by rw [hu, hc cp hcp]
    have hcomp : complete t 0x110000 = true := by
      rw [complete_iff]
      intro cp hcp
      have : 0 < count ls cp := by rw [hc cp hcp]; omega
      obtain ⟨l, hl⟩ := List.exists_mem_of_length_pos this
      rw [List.mem_filter] at hl
      rw [(g2 cp hcp).1 l hl.1 (by simpa using hl.2)]
      simp [lineEntry]
    refine ⟨t, ?_, fun l hl cp ha => (g2 cp (hlt l hl cp ha)).1 l hl ha, fun cp hcp => fillAll_other ls _ _ g1 cp fun l hl ha => by
      have := hlt l hl cp ha; omega⟩
    rw [g1]
    simp only [hcomp, if_true]
    rfl
  · rintro ⟨cp, hcp, hne⟩
    by_cases hall : ∀ cp, cp < 0x110000 → used empty cp + count ls cp ≤ 1
    · obtain ⟨t, g1, g2⟩ := f1 hall
      have h0 : count ls cp = 0 := by have := hall cp hcp; omega
      have hcomp : complete t 0x110000 = false := by
        rw [← Bool.not_eq_true, complete_iff]
        intro hx
        apply hx cp hcp
        rw [(g2 cp hcp).2 h0]; rfl
      rw [g1]
      simp only [hcomp, Bool.false_eq_true, if_false]
      rfl
    · have : ∃ cp, cp < 0x110000 ∧ 1 < used empty cp + count ls cp := by
        by_contra hx
        exact hall fun cp hcp => by
          by_contra hy
          exact hx ⟨cp, hcp, by omega⟩
      rcases f2 this with h | ⟨x, _, h⟩
      · rw [h]
      · rw [hu] at h; omega

end Verif.IdnaGen
