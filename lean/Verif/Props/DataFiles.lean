import Mathlib.Tactic.Ring
import Verif.Proofs.PyGen

/-!
# C112: the generators read the data files as they are written

For every text in the format of the data files (`Verif.Spec.DataFiles`) the scripts run to the end, and the functions they emit return what
the lines say.
-/

set_option autoImplicit false

namespace Verif.PyGen
open Verif.Py
open Verif.Categorize hiding Entry
open Verif.Spec.DataFiles hiding Str Range

variable {text : Str} {es : List Entry}

/-- The file is one that the scripts are made for: in order, with its ranges closed, within the code space. -/
structure Sound (es : List Entry) : Prop where
  ne : es ≠ []
  ascending : Ascending es
  ranged : Ranged es
  bound : ∀ e ∈ es, e.cp < 0x110000

/-- C112, categorize.py: the emitted function returns the category of each code point that the file gives one. Missing: the others, see
`datafile_category_other`. -/
theorem datafile_category_partial (h : UnicodeData text es) (hs : Sound es) :
    ∃ code, categorizeText 0x110000 text = .ok code ∧ ∀ cp c, HasCategory es cp c → category ['C', 'n'] code cp = c := by
  obtain ⟨code, hc⟩ := categorize_succeeds 0x110000 (es.map recOf) (by simpa using hs.ne) (ordered_of hs.ascending) (paired_of hs.ranged)
    (by simpa [recOf] using hs.bound)
  refine ⟨code, by rw [categorize_data _ h, hc], fun cp c ha => ?_⟩
  exact category_exact_assigned (ordered_of hs.ascending) hc _ cp c ((assigned_iff cp c).2 ha)

/-- C112, categorize.py: the result for a code point that is not in the file is `Cn`, unless the next one in the file stands alone, that is,
its successor does not have the same category. Then it is the category of that one. -/
theorem datafile_category_other {code : Code Str} (h : UnicodeData text es) (hs : Sound es) (hc : categorizeText 0x110000 text = .ok code) (cp : Int)
    (hu : ∀ c, ¬ HasCategory es cp c) :
    (category ['C', 'n'] code cp = ['C', 'n'] ∧
      ∀ q c, HasCategory es q c → cp < q → (∀ x d, cp < x → x < q → ¬ HasCategory es x d) → HasCategory es (q + 1) c) ∨
    ∃ q c, category ['C', 'n'] code cp = c ∧ cp < q ∧ HasCategory es q c ∧ (∀ x d, cp < x → x < q → ¬ HasCategory es x d) ∧
      ¬ HasCategory es (q + 1) c := by
  rw [categorize_data _ h] at hc
  have := category_unassigned (ordered_of hs.ascending) hc ['C', 'n'] cp (fun c => by rw [assigned_iff]; exact hu c)
  simpa only [assigned_iff] using this

theorem cp_unique (h : Ascending es) : ∀ a ∈ es, ∀ b ∈ es, a.cp = b.cp → a = b := by
  intro a ha b hb hab
  obtain ⟨i, hi, rfl⟩ := List.getElem_of_mem ha
  obtain ⟨j, hj, rfl⟩ := List.getElem_of_mem hb
  have hp := List.pairwise_iff_getElem.1 h
  obtain h | h | h := Nat.lt_trichotomy i j
  · have := hp i j hi hj h; omega
  · subst h; rfl
  · have := hp j i hj hi h; omega

theorem case_data {want : Str} {field : CaseRec Str → Option Nat} {g : Entry → CaseRec Str} {v : Entry → Option Nat} (hg : ∀ e, (g e).toRec = recOf e)
    (hv : ∀ e, e.cat = want → field (g e) = v e) (hs : Sound es) :
    ∃ cases f, caseLoop want field (es.map g) none = .ok cases ∧ compile cases = .ok f ∧
      (∀ e ∈ es, switch cases e.cp = if e.cat = want then ((v e).getD e.cp : Nat) else e.cp) ∧
      ∀ c : Int, (∀ e ∈ es, (e.cp : Int) ≠ c) → switch cases c = c := by
  have hp : Paired ((es.map g).map CaseRec.toRec) := by
    rw [List.map_map, show (CaseRec.toRec ∘ g) = recOf from funext hg]
    exact paired_of hs.ranged
  have hcp : ∀ e, (g e).cp = e.cp := fun e => by rw [hg]; rfl
  have hcat : ∀ e, (g e).cat = e.cat := fun e => by rw [hg]; rfl
  have hn := cases_nodup (want := want) (field := field) hcp hs.ascending
  obtain ⟨f, hf, _⟩ := compile_distinct hn
  have hd : ((es.map g).filterMap (caseOf want field)).Pairwise fun a b => a.1 ≠ b.1 := List.pairwise_map.1 hn
  have hmem : ∀ a dst, (a, dst) ∈ (es.map g).filterMap (caseOf want field) ↔ ∃ e ∈ es, e.cp = a ∧ e.cat = want ∧ v e = some dst := by
    intro a dst
    simp only [List.mem_filterMap, List.mem_map, caseOf, Option.ite_none_right_eq_some, Option.map_eq_some_iff, Prod.mk.injEq]
    constructor
    · rintro ⟨_, ⟨e, he, rfl⟩, h1, x, h2, h3, rfl⟩
      rw [hcat] at h1
      exact ⟨e, he, by rw [← h3, hcp], h1, by rw [← hv e h1, h2]⟩
    · rintro ⟨e, he, h1, h2, h3⟩
      exact ⟨g e, ⟨e, he, rfl⟩, by rw [hcat, h2], dst, by rw [hv e h2, h3], by rw [hcp, h1], rfl⟩
  have huniq := cp_unique hs.ascending
  refine ⟨_, f, caseLoop_spec want field _ _ (le_refl _) hp, hf, ?_, ?_⟩
  · intro e he
    by_cases hc : e.cat = want
    · rw [if_pos hc]
      cases hve : v e with
      | some d => exact switch_mem hd ((hmem _ _).2 ⟨e, he, rfl, hc, hve⟩)
      | none =>
        refine switch_other ?_
        intro a dst ha hac
        obtain ⟨b, hb, h1, h2, h3⟩ := (hmem _ _).1 ha
        have := huniq b hb e he (by omega)
        rw [this, hve] at h3
        cases h3
    · rw [if_neg hc]
      refine switch_other ?_
      intro a dst ha hac
      obtain ⟨b, hb, h1, h2, h3⟩ := (hmem _ _).1 ha
      have := huniq b hb e he (by omega)
      exact hc (this ▸ h2)
  · intro c hc
    refine switch_other ?_
    intro a dst ha hac
    obtain ⟨b, hb, h1, _⟩ := (hmem _ _).1 ha
    exact hc b hb (by omega)

/-- C112, lower_case.py: the emitted function maps the code point of a line with category Lu and a code point in field 13 to the latter, and
every other integer to itself. -/
theorem datafile_lower (h : UnicodeData text es) (hs : Sound es) : ∃ f, lowerText text = .ok f ∧
    (∀ e ∈ es, f e.cp = if e.cat = ['L', 'u'] then (e.lower.getD e.cp : Nat) else e.cp) ∧ ∀ c : Int, (∀ e ∈ es, (e.cp : Int) ≠ c) → f c = c := by
  obtain ⟨cases, f, h1, h2, h3⟩ := case_data (want := ['L', 'u']) (field := CaseRec.lower)
    (g := fun e => ⟨recOf e, if e.cat = ['L', 'u'] then e.lower else none, none⟩) (v := Entry.lower) (fun _ => rfl) (fun e he => if_pos he) hs
  refine ⟨switch cases, ?_, h3⟩
  rw [lowerText, mapM_data (fun l e => parseLower_says) h]
  simp only [bind, Except.bind, h1, h2]

/-- C112, upper_case.py: likewise for category Ll and field 12. -/
theorem datafile_upper (h : UnicodeData text es) (hs : Sound es) : ∃ f, upperText text = .ok f ∧
    (∀ e ∈ es, f e.cp = if e.cat = ['L', 'l'] then (e.upper.getD e.cp : Nat) else e.cp) ∧ ∀ c : Int, (∀ e ∈ es, (e.cp : Int) ≠ c) → f c = c := by
  obtain ⟨cases, f, h1, h2, h3⟩ := case_data (want := ['L', 'l']) (field := CaseRec.upper)
    (g := fun e => ⟨recOf e, none, if e.cat = ['L', 'l'] then e.upper else none⟩) (v := Entry.upper) (fun _ => rfl) (fun e he => if_pos he) hs
  refine ⟨switch cases, ?_, h3⟩
  rw [upperText, mapM_data (fun l e => parseUpper_says) h]
  simp only [bind, Except.bind, h1, h2]

theorem cps_nodup (h : Ascending es) : (es.map Entry.cp).Nodup := by
  rw [List.Nodup, List.pairwise_map]
  exact h.imp fun h => by omega

/-- C112, canonical_combining_classes.py: the emitted function returns the class in the line of the code point, and 0 if there is none. -/
theorem datafile_ccc (h : UnicodeData text es) (hs : Sound es) : ∃ f, cccText text = .ok f ∧ (∀ e ∈ es, f e.cp = e.ccc) ∧
    ∀ cp, (∀ e ∈ es, e.cp ≠ cp) → f cp = 0 := by
  have h1 := cccLoop_spec _ (es.map fun e => (recOf e, e.ccc)) (le_refl _)
    (by rw [List.map_map, show (Prod.fst ∘ fun e : Entry => (recOf e, e.ccc)) = recOf from rfl]; exact paired_of hs.ranged)
  rw [List.map_map, show ((fun r : Rec Str × Nat => (r.1.cp, r.2)) ∘ fun e : Entry => (recOf e, e.ccc)) = fun e => (e.cp, e.ccc) from rfl] at h1
  obtain ⟨f, h2, h3, h4⟩ := compile_distinct (cases := es.map fun e => (e.cp, e.ccc)) (by rw [List.map_map]; exact cps_nodup hs.ascending)
  refine ⟨fun cp => (f cp).getD 0, ?_, ?_, ?_⟩
  · rw [cccText, mapM_data (fun l e => parseCcc_says) h]
    simp only [bind, Except.bind, h1, h2]
  · intro e he
    have := h3 (e.cp, e.ccc) (List.mem_map.2 ⟨e, he, rfl⟩)
    simp only at this
    simp [this]
  · intro cp hcp
    have := h4 cp (by
      intro c hc
      obtain ⟨e, he, rfl⟩ := List.mem_map.1 hc
      exact hcp e he)
    simp [this]

theorem mem_decompositions {es : List Entry} {a : Nat} {d : List Nat} :
    (a, d) ∈ decompositions (es.map fun e => (e.cp, e.dec)) ↔ ∃ e ∈ es, e.cp = a ∧ e.dec = some d := by
  simp only [decompositions, List.mem_filterMap, List.mem_map, Option.map_eq_some_iff, Prod.mk.injEq]
  constructor
  · rintro ⟨_, ⟨e, he, rfl⟩, x, h1, h2, rfl⟩; exact ⟨e, he, h2, h1⟩
  · rintro ⟨e, he, h1, h2⟩; exact ⟨_, ⟨e, he, rfl⟩, d, h2, h1, rfl⟩

/-- C112, decomposition.py: the emitted function returns a pointer to the canonical mapping in the line of the code point, ended by 0, and NULL
if there is none. -/
theorem datafile_decomposition (h : UnicodeData text es) (hs : Sound es) : ∃ f, decompText text = .ok f ∧
    (∀ e ∈ es, f e.cp = match e.dec with | some d => some (d ++ [0]) | none => none) ∧ ∀ cp, (∀ e ∈ es, e.cp ≠ cp) → f cp = none := by
  have hn : (((decompositions (es.map fun e => (e.cp, e.dec))).map fun r => (r.1, r.2 ++ [0])).map Prod.fst).Nodup := by
    have hsub : List.Sublist ((decompositions (es.map fun e => (e.cp, e.dec))).map Prod.fst) (es.map Entry.cp) := by
      clear h hs
      induction es with
      | nil => exact List.Sublist.slnil
      | cons e es ih =>
        rw [List.map_cons, decompositions, List.filterMap_cons, List.map_cons]
        cases e.dec with
        | none => exact ih.cons _
        | some d => exact ih.cons_cons _
    rw [List.map_map]
    exact hsub.nodup (cps_nodup hs.ascending)
  obtain ⟨f, h2, h3, h4⟩ := compile_distinct hn
  have huniq := cp_unique hs.ascending
  refine ⟨fun cp => if cp < 0x110000 then f cp else none, ?_, ?_, ?_⟩
  · rw [decompText, mapM_data (fun l e => parseDecomp_says) h]
    simp only [bind, Except.bind, h2]
  · intro e he
    simp only [if_pos (hs.bound e he)]
    cases hd : e.dec with
    | some d =>
      exact h3 (e.cp, d ++ [0]) (List.mem_map.2 ⟨(e.cp, d), mem_decompositions.2 ⟨e, he, rfl, hd⟩, rfl⟩)
    | none =>
      refine h4 e.cp ?_
      intro c hc hcc
      obtain ⟨⟨a, d⟩, hr, rfl⟩ := List.mem_map.1 hc
      obtain ⟨b, hb, h5, h6⟩ := mem_decompositions.1 hr
      have := huniq b hb e he (by simp_all)
      rw [this, hd] at h6
      cases h6
  · intro cp hcp
    dsimp only
    split
    · refine h4 cp ?_
      intro c hc hcc
      obtain ⟨⟨a, d⟩, hr, rfl⟩ := List.mem_map.1 hc
      obtain ⟨b, hb, h5, h6⟩ := mem_decompositions.1 hr
      exact hcp b hb (by simp_all)
    · rfl

/-- C112, recomposition.py: if no canonical mapping is longer than two, the emitted function returns the code point of the last line whose mapping
is the pair and which is not among the exclusions, and -1 if there is none. -/
theorem datafile_composite {xtext : Str} {xs : List Str} {ns : List Nat} (h : UnicodeData text es) (hx : Lines xtext xs) (hxs : Exclusions xs ns)
    (h2 : ∀ e ∈ es, ∀ d, e.dec = some d → d.length ≤ 2) : ∃ f, recompText text xtext = .ok f ∧ ∀ s c p, f s c = some p ↔
      ∃ before e after, es = before ++ e :: after ∧ e.cp = p ∧ e.dec = some [s, c] ∧ p ∉ ns ∧ ∀ x ∈ after, ¬ (x.dec = some [s, c] ∧ x.cp ∉ ns) := by
  obtain ⟨ex, h3, h4⟩ := exclusions_says hxs
  obtain ⟨ps, h5, h6⟩ := pairsOf_spec ns (ds := decompositions (es.map fun e => (e.cp, e.dec))) (by
    rintro ⟨a, d⟩ hd
    obtain ⟨e, he, _, h7⟩ := mem_decompositions.1 hd
    exact h2 e he d h7)
  refine ⟨fun starter cc => (ps.reverse.find? fun p => p.1 == (starter, cc)).map Prod.snd, ?_, ?_⟩
  · rw [recompText, lines_text hx, h3, mapM_data (fun l e => parseDecomp_says) h]
    simp only [bind, Except.bind, h4, h5]
  · intro s c p
    simp only [h6]
    have key : ((decompositions (es.map fun e => (e.cp, e.dec))).reverse.find? fun d => d.2 == [s, c] && !ns.contains d.1).map Prod.fst =
        (es.reverse.find? fun e => decide (e.dec = some [s, c] ∧ e.cp ∉ ns)).map Entry.cp := by
      clear h h2 h5 h6
      induction es with
      | nil => rfl
      | cons e es ih =>
        rw [List.map_cons, decompositions, List.filterMap_cons, List.reverse_cons, List.find?_append]
        cases hd : e.dec with
        | none =>
          simp only [Option.map_none]
          rw [← decompositions, ih, List.find?_cons_of_neg (by simp [hd]), List.find?_nil, Option.or_none]
        | some d =>
          simp only [Option.map_some, List.reverse_cons, List.find?_append]
          rw [← decompositions]
          generalize (decompositions (es.map fun e => (e.cp, e.dec))).reverse.find? (fun d => d.2 == [s, c] && !ns.contains d.1) = x at ih ⊢
          generalize es.reverse.find? (fun e => decide (e.dec = some [s, c] ∧ e.cp ∉ ns)) = y at ih ⊢
          cases x with
          | some x => cases y with
            | some y => simpa using ih
            | none => cases ih
          | none => cases y with
            | some y => cases ih
            | none =>
              by_cases h5 : d = [s, c] ∧ e.cp ∉ ns
              · simp [h5, hd]
              · rw [Option.none_or, Option.none_or, List.find?_cons_of_neg (by simpa using h5), List.find?_cons_of_neg (by simpa [hd] using h5)]
                rfl
    rw [key, Option.map_eq_some_iff]
    constructor
    · rintro ⟨e, he, rfl⟩
      obtain ⟨g1, as, bs, g2, g3⟩ := List.find?_eq_some_iff_append.1 he
      rw [decide_eq_true_eq] at g1
      refine ⟨bs.reverse, e, as.reverse, ?_, rfl, g1.1, g1.2, fun x hx => ?_⟩
      · have := congrArg List.reverse g2
        simpa using this
      · have := g3 x (List.mem_reverse.1 hx)
        rw [Bool.not_eq_true', decide_eq_false_iff_not] at this
        exact this
    · rintro ⟨b, e, a, g1, rfl, g2, g3, g4⟩
      refine ⟨e, ?_, rfl⟩
      have : (a.reverse.find? fun e => decide (e.dec = some [s, c] ∧ e.cp ∉ ns)) = none := by
        rw [List.find?_eq_none]
        intro x hx
        rw [decide_eq_true_eq]
        exact g4 x (List.mem_reverse.1 hx)
      rw [g1, List.reverse_append, List.reverse_cons, List.append_assoc, List.find?_append, this, Option.none_or, List.singleton_append, List.find?_cons_of_pos (by simp [g2, g3])]

/-- C112, allowed_in_normal_form.py: the emitted function returns the flags for the values of the four properties. -/
theorem datafile_quick {ls : List Str} {qs : List Quick} (h : Lines text ls) (hq : Checking ls qs) (hb : ∀ q ∈ qs, q.hi < 0x110000) :
    ∃ f, qcText 0x110000 text = .ok f ∧ (∀ cp, 0x110000 ≤ cp → f cp = 0) ∧
      ∀ cp v1 v2 v3 v4, cp < 0x110000 → HasValue qs .nfc cp v1 → HasValue qs .nfd cp v2 → HasValue qs .nfkc cp v3 → HasValue qs .nfkd cp v4 →
        f cp = flag .nfc v1 ||| flag .nfd v2 ||| flag .nfkc v3 ||| flag .nfkd v4 := by
  obtain ⟨xs, h1, h2⟩ := checking_says hq hb
  refine ⟨fun cp => ((List.range 0x110000).map fun cp =>
      flag .nfc (valueOf qs .nfc cp) ||| flag .nfd (valueOf qs .nfd cp) ||| flag .nfkc (valueOf qs .nfkc cp) ||| flag .nfkd (valueOf qs .nfkd cp)).getD cp 0, ?_, ?_, ?_⟩
  · rw [qcText, lines_text h, h1]
    simp only [bind, Except.bind, h2, mapM_total (qcFlags_of qs)]
  · intro cp hcp
    dsimp only
    rw [List.getD_eq_getElem?_getD, List.getElem?_eq_none (by simpa using hcp)]
    rfl
  · intro cp v1 v2 v3 v4 hcp g1 g2 g3 g4
    rw [valueOf_iff] at g1 g2 g3 g4
    dsimp only
    rw [List.getD_eq_getElem?_getD, List.getElem?_map, List.getElem?_range hcp]
    simp [g1, g2, g3, g4]

/-! ### Lines of the files -/

/-- The value of a number. -/
def numberCheck (base : Nat) : Str → Option Nat
  | [] => some 0
  | c :: s => match numberCheck base s, digitValue c with
    | some v, some d => if d < base then some (v + d * base ^ s.length) else none
    | _, _ => none

theorem number_cons {base : Nat} {s : Str} {v : Nat} (h : Number base s v) {c : Char} {d : Nat} (hc : digitValue c = some d) (hd : d < base) :
    Number base (c :: s) (v + d * base ^ s.length) := by
  induction h with
  | one x e hx he =>
    have := Number.more [c] d x e (.one c d hc hd) hx he
    simpa [Nat.add_comm, Nat.mul_comm] using this
  | more s v x e hs hx he ih =>
    have := Number.more (c :: s) _ x e ih hx he
    rw [List.cons_append] at this
    convert this using 1
    rw [List.length_append, List.length_singleton, pow_succ]
    ring

theorem number_check {base : Nat} {s : Str} {v : Nat} (h : numberCheck base s = some v) (hne : s ≠ []) : Number base s v := by
  induction s generalizing v with
  | nil => exact absurd rfl hne
  | cons c s ih =>
    rw [numberCheck] at h
    split at h
    · rename_i w d hw hd
      split at h
      · rename_i hlt
        cases h
        cases s with
        | nil =>
          cases hw
          simpa using Number.one c d hd hlt
        | cons x s => exact number_cons (ih hw (by simp)) hd hlt
      · cases h
    · cases h

/-- Lines of UnicodeData.txt. -/
def sampleLines : List Str :=
  ["0041;LATIN CAPITAL LETTER A;Lu;0;L;;;;;N;;;;0061;".toList,
   "00A8;DIAERESIS;Sk;0;ON;<compat> 0020 0308;;;;N;SPACING DIAERESIS;;;;".toList,
   "00E0;LATIN SMALL LETTER A WITH GRAVE;Ll;0;L;0061 0300;;;;N;LATIN SMALL LETTER A GRAVE;;00C0;;00C0".toList,
   "0300;COMBINING GRAVE ACCENT;Mn;230;NSM;;;;;N;NON-SPACING GRAVE;;;;".toList,
   "4E00;<CJK Ideograph, First>;Lo;0;L;;;;;N;;;;;".toList,
   "9FFC;<CJK Ideograph, Last>;Lo;0;L;;;;;N;;;;;".toList]

/-- What they say. -/
def sampleEntries : List Entry :=
  [⟨0x41, "LATIN CAPITAL LETTER A".toList, ['L', 'u'], 0, none, none, some 0x61⟩,
   ⟨0xA8, "DIAERESIS".toList, ['S', 'k'], 0, none, none, none⟩,
   ⟨0xE0, "LATIN SMALL LETTER A WITH GRAVE".toList, ['L', 'l'], 0, some [0x61, 0x300], some 0xC0, none⟩,
   ⟨0x300, "COMBINING GRAVE ACCENT".toList, ['M', 'n'], 230, none, none, none⟩,
   ⟨0x4E00, "<CJK Ideograph, First>".toList, ['L', 'o'], 0, none, none, none⟩,
   ⟨0x9FFC, "<CJK Ideograph, Last>".toList, ['L', 'o'], 0, none, none, none⟩]

/-- A sufficient check for `Says`. -/
def saysCheck (line : Str) (e : Entry) : Bool :=
  match split ';' line with
  | [f0, f1, f2, f3, _, f5, _, _, _, _, _, _, f12, f13, _] =>
    f0 != [] && numberCheck 16 f0 == some e.cp && f1 == e.name && f2 == e.cat && f3 != [] && numberCheck 10 f3 == some e.ccc &&
    (match e.dec with
      | none => f5 == [] || f5.head? == some '<'
      | some ns => f5 != [] && split ' ' f5 != [] && (split ' ' f5).all (· != []) && (split ' ' f5).map (numberCheck 16) == ns.map some) &&
    (match e.upper with
      | none => f12 == []
      | some n => f12 != [] && numberCheck 16 f12 == some n) &&
    match e.lower with
      | none => f13 == []
      | some n => f13 != [] && numberCheck 16 f13 == some n
  | _ => false

theorem optional_check {s : Str} {v : Option Nat} (h : (match v with
      | none => s == []
      | some n => s != [] && numberCheck 16 s == some n) = true) : Optional s v := by
  cases v with
  | none => exact Or.inl ⟨by simpa using h, rfl⟩
  | some n =>
    simp only [Bool.and_eq_true, bne_iff_ne, ne_eq, beq_iff_eq] at h
    exact Or.inr ⟨n, rfl, number_check h.2 h.1⟩

theorem says_check {line : Str} {e : Entry} (h : saysCheck line e = true) : Says line e := by
  rw [saysCheck] at h
  split at h
  · rename_i f0 f1 f2 f3 f4 f5 f6 f7 f8 f9 f10 f11 f12 f13 f14 hs
    simp only [Bool.and_eq_true, bne_iff_ne, ne_eq, beq_iff_eq] at h
    obtain ⟨⟨⟨⟨⟨⟨⟨⟨h1, h2⟩, h3⟩, h4⟩, h5⟩, h6⟩, h7⟩, h8⟩, h9⟩ := h
    have hj := join_split ';' line
    rw [hs] at hj
    refine ⟨f0, f3, f4, f5, f6, f7, f8, f9, f10, f11, f12, f13, f14, ⟨by simp, fun f hf => split_pieces (s := line) (by rw [hs, h3, h4]; exact hf), ?_⟩,
      number_check h2 h1, number_check h6 h5, ?_, optional_check ?_, optional_check ?_⟩
    · rw [← h3, ← h4, hj]
    · cases hd : e.dec with
      | none =>
        rw [hd] at h7
        simp only [Bool.or_eq_true, beq_iff_eq] at h7
        obtain h7 | h7 := h7
        · exact Or.inl ⟨h7, rfl⟩
        · obtain ⟨t, ht⟩ := List.head?_eq_some_iff.1 h7
          exact Or.inr (Or.inl ⟨t, ht, rfl⟩)
      | some ns =>
        rw [hd] at h7
        simp only [Bool.and_eq_true, bne_iff_ne, ne_eq, beq_iff_eq, List.all_eq_true] at h7
        obtain ⟨⟨⟨_, g2⟩, g3⟩, g4⟩ := h7
        refine Or.inr (Or.inr ⟨split ' ' f5, ns, g2, ?_, (join_split ' ' f5).symm, rfl⟩)
        have : List.Forall₂ (fun a b => numberCheck 16 a = some b ∧ a ≠ []) (split ' ' f5) ns := by
          clear g2 hd
          generalize split ' ' f5 = ws at g3 g4
          induction ws generalizing ns with
          | nil => cases ns with
            | nil => exact .nil
            | cons => simp at g4
          | cons w ws ih => cases ns with
            | nil => simp at g4
            | cons n ns =>
              simp only [List.map_cons, List.cons.injEq] at g4
              exact .cons ⟨g4.1, g3 w (by simp)⟩ (ih ns (fun x hx => g3 x (List.mem_cons_of_mem _ hx)) g4.2)
        exact this.imp fun a b h => number_check h.1 h.2
    · simpa using h8
    · simpa using h9
  · cases h

theorem sample_says : List.Forall₂ Says sampleLines sampleEntries := by
  refine .cons (says_check ?_) (.cons (says_check ?_) (.cons (says_check ?_) (.cons (says_check ?_) (.cons (says_check ?_) (.cons (says_check ?_) .nil)))))
  all_goals decide +kernel

/-- The lines as a file. -/
def sampleText : Str := sampleLines.flatMap fun l => l ++ ['\n']

theorem sample_data : UnicodeData sampleText sampleEntries := ⟨sampleLines, ⟨by decide +kernel, rfl⟩, sample_says⟩

theorem first_check {e : Entry} : e.First ↔ kindOf e = .first := kind_first.symm

theorem sample_sound : Sound sampleEntries where
  ne := by simp [sampleEntries]
  ascending := by simp [Ascending, sampleEntries]
  ranged := by
    have hk : sampleEntries.map kindOf = [.plain, .plain, .plain, .plain, .first, .last] := by decide +kernel
    simp only [sampleEntries, List.map_cons, List.map_nil, List.cons.injEq, kind_plain, kind_first, kind_last, and_true] at hk
    obtain ⟨h1, h2, h3, h4, h5, h6⟩ := hk
    exact .single _ _ h1.1 h1.2 (.single _ _ h2.1 h2.2 (.single _ _ h3.1 h3.2 (.single _ _ h4.1 h4.2 (.range _ _ _ h5 h6 rfl .nil))))
  bound := by simp [sampleEntries]

/-- The emitted functions for these lines: U+5000 is in the range, U+00E0 is the composite of its two characters. -/
example : (∃ code, categorizeText 0x110000 sampleText = .ok code ∧ category ['C', 'n'] code 0x5000 = ['L', 'o']) ∧
    (∃ f, lowerText sampleText = .ok f ∧ f 0x41 = 0x61 ∧ f 0x42 = 0x42) ∧ (∃ f, upperText sampleText = .ok f ∧ f 0xE0 = 0xC0) ∧
    (∃ f, cccText sampleText = .ok f ∧ f 0x300 = 230) ∧
    (∃ f, decompText sampleText = .ok f ∧ f 0xE0 = some [0x61, 0x300, 0] ∧ f 0xA8 = none) := by
  refine ⟨?_, ?_, ?_, ?_, ?_⟩
  · obtain ⟨code, h1, h2⟩ := datafile_category_partial sample_data sample_sound
    refine ⟨code, h1, h2 _ _ (Or.inr ⟨⟨0x4E00, "<CJK Ideograph, First>".toList, ['L', 'o'], 0, none, none, none⟩,
      ⟨0x9FFC, "<CJK Ideograph, Last>".toList, ['L', 'o'], 0, none, none, none⟩, ⟨sampleEntries.take 4, [], rfl⟩, ?_, ?_, by decide, by decide, rfl⟩)⟩
    · rw [← kind_first]; decide +kernel
    · rw [← kind_last]; decide +kernel
  · obtain ⟨f, h1, h2, h3⟩ := datafile_lower sample_data sample_sound
    exact ⟨f, h1, h2 ⟨0x41, "LATIN CAPITAL LETTER A".toList, ['L', 'u'], 0, none, none, some 0x61⟩ (by simp [sampleEntries]), h3 _ (by simp [sampleEntries])⟩
  · obtain ⟨f, h1, h2, _⟩ := datafile_upper sample_data sample_sound
    exact ⟨f, h1, h2 ⟨0xE0, "LATIN SMALL LETTER A WITH GRAVE".toList, ['L', 'l'], 0, some [0x61, 0x300], some 0xC0, none⟩ (by simp [sampleEntries])⟩
  · obtain ⟨f, h1, h2, _⟩ := datafile_ccc sample_data sample_sound
    exact ⟨f, h1, h2 ⟨0x300, "COMBINING GRAVE ACCENT".toList, ['M', 'n'], 230, none, none, none⟩ (by simp [sampleEntries])⟩
  · obtain ⟨f, h1, h2, _⟩ := datafile_decomposition sample_data sample_sound
    exact ⟨f, h1, h2 ⟨0xE0, "LATIN SMALL LETTER A WITH GRAVE".toList, ['L', 'l'], 0, some [0x61, 0x300], some 0xC0, none⟩ (by simp [sampleEntries]),
      h2 ⟨0xA8, "DIAERESIS".toList, ['S', 'k'], 0, none, none, none⟩ (by simp [sampleEntries])⟩

/-- C112 fails for categorize.py: U+0050 is not in this file, and yet the emitted function returns the category of the line for U+00A8. -/
theorem datafile_category_violated : ∃ code, categorizeText 0x110000 sampleText = .ok code ∧ (∀ c, ¬ HasCategory sampleEntries 0x50 c) ∧
    category ['C', 'n'] code 0x50 = ['S', 'k'] := by
  obtain ⟨code, h, _⟩ := datafile_category_partial sample_data sample_sound
  have hk : sampleEntries.map kindOf = [.plain, .plain, .plain, .plain, .first, .last] := by decide +kernel
  simp only [sampleEntries, List.map_cons, List.map_nil, List.cons.injEq, kind_plain, kind_first, kind_last, and_true] at hk
  obtain ⟨h1, h2, h3, h4, -, -⟩ := hk
  have hrange : ∀ a b, [a, b] <:+: sampleEntries → a.First → 0x4E00 ≤ a.cp := by
    intro a b hab hf
    have hm : a ∈ sampleEntries := hab.subset (by simp)
    simp only [sampleEntries, List.mem_cons, List.not_mem_nil, or_false] at hm
    obtain rfl | rfl | rfl | rfl | rfl | rfl := hm
    · exact absurd hf h1.1
    · exact absurd hf h2.1
    · exact absurd hf h3.1
    · exact absurd hf h4.1
    · simp
    · simp
  have hu : ∀ x : Int, x < 0x4E00 → ∀ c, HasCategory sampleEntries x c → x ∈ [(0x41 : Int), 0xA8, 0xE0, 0x300] ∧ (x = 0xA8 → c = ['S', 'k']) := by
    rintro x hx c (⟨e, he, rfl, rfl⟩ | ⟨a, b, hab, hf, _, h5, _⟩)
    · simp only [sampleEntries, List.mem_cons, List.not_mem_nil, or_false] at he
      obtain rfl | rfl | rfl | rfl | rfl | rfl := he <;> simp_all
    · have := hrange a b hab hf; omega
  have hq0 : HasCategory sampleEntries 0xA8 ['S', 'k'] :=
    Or.inl ⟨⟨0xA8, "DIAERESIS".toList, ['S', 'k'], 0, none, none, none⟩, by simp [sampleEntries], rfl, rfl⟩
  have hna : ∀ c, ¬ HasCategory sampleEntries 0x50 c := fun c hc => by simpa using (hu _ (by omega) c hc).1
  refine ⟨code, h, hna, ?_⟩
  obtain ⟨_, g⟩ | ⟨q, c, g1, g2, g3, g4, _⟩ := datafile_category_other sample_data sample_sound h 0x50 hna
  · have hgap : ∀ (x : Int) (d : Str), 0x50 < x → x < 0xA8 → ¬ HasCategory sampleEntries x d := by
      intro x d hx1 hx2 hx
      have := (hu x (by omega) d hx).1
      simp only [List.mem_cons, List.not_mem_nil, or_false] at this
      omega
    exact absurd (hu _ (by omega) _ (g 0xA8 _ hq0 (by omega) hgap)).1 (by simp)
  · have hle : q ≤ 0xA8 := by
      by_contra hlt
      exact g4 0xA8 _ (by omega) (by omega) hq0
    obtain ⟨hm, hs⟩ := hu q (by omega) c g3
    simp only [List.mem_cons, List.not_mem_nil, or_false] at hm
    rw [g1]
    exact hs (by omega)

/-- Lines of CompositionExclusions.txt. -/
def sampleExclusions : List Str := ["# Total code points: 1".toList, [], "0958    #  DEVANAGARI LETTER QA".toList]

theorem sample_exclusions : Exclusions sampleExclusions [0x958] := by
  refine .quiet _ _ _ ⟨[], _, rfl, by simp, by decide +kernel⟩ (.quiet _ _ _ ⟨[], [], rfl, by simp, by simp⟩ (.line _ _ _ _ ?_ .nil))
  refine ⟨[], ['0', '9', '5', '8'], "    #  DEVANAGARI LETTER QA".toList, by decide +kernel, by simp, number_check (by decide) (by simp), ?_⟩
  intro c hc
  have : "    #  DEVANAGARI LETTER QA".toList.head? = some ' ' := by decide +kernel
  rw [this] at hc
  exact Or.inl (by simpa using hc.symm)

/-- The pair of U+00E0. -/
example : ∃ f, recompText sampleText (sampleExclusions.flatMap fun l => l ++ ['\n']) = .ok f ∧ f 0x61 0x300 = some 0xE0 := by
  obtain ⟨f, h1, h2⟩ := datafile_composite sample_data (xs := sampleExclusions) ⟨by decide +kernel, rfl⟩ sample_exclusions (by simp [sampleEntries])
  refine ⟨f, h1, (h2 _ _ _).2 ⟨sampleEntries.take 2, _, sampleEntries.drop 3, rfl, rfl, rfl, by simp, ?_⟩⟩
  intro x hx
  simp only [sampleEntries, List.drop_succ_cons, List.drop_zero, List.mem_cons, List.not_mem_nil, or_false] at hx
  obtain rfl | rfl | rfl := hx <;> simp

/-- Lines of DerivedNormalizationProps.txt. -/
def sampleProps : List Str :=
  ["# @missing: 0000..10FFFF; NFC_QC; Yes".toList, "0340..0341    ; Full_Composition_Exclusion # Mn   [2] COMBINING GRAVE TONE MARK".toList,
   "0340..0341    ; NFD_QC; N # Mn   [2] COMBINING GRAVE TONE MARK".toList, "0338          ; NFC_QC; M # Mn".toList]

theorem sample_checks : Checking sampleProps [⟨0x340, 0x341, .nfd, .no⟩, ⟨0x338, 0x338, .nfc, .maybe⟩] := by
  have blank : ∀ s : Str, (s.all fun c => c == ' ') = true → ∀ c ∈ s, Blank c := by
    intro s h c hc
    exact Or.inl (by simpa using List.all_eq_true.1 h c hc)
  refine .other _ _ _ ⟨[], [[]], ⟨_, rfl, by simp, by decide +kernel⟩, ⟨by simp, by simp, rfl⟩, by simp⟩ ?_
  refine .other _ _ _ ⟨"0340..0341    ; Full_Composition_Exclusion ".toList, ["0340..0341    ".toList, " Full_Composition_Exclusion ".toList],
    ⟨"# Mn   [2] COMBINING GRAVE TONE MARK".toList, by decide +kernel, by decide +kernel, by decide +kernel⟩,
    ⟨by simp, by decide +kernel, by decide +kernel⟩, ?_⟩ ?_
  · intro p hp
    simp only [List.getElem?_cons_succ, List.getElem?_cons_zero, Option.some.injEq] at hp
    subst hp
    refine ⟨"Full_Composition_Exclusion".toList, ⟨[' '], [' '], by decide +kernel, blank _ rfl, blank _ rfl⟩, by decide +kernel, by decide +kernel, ?_⟩
    intro x
    cases x <;> decide +kernel
  refine .line _ _ _ _ ⟨"0340..0341    ; NFD_QC; N ".toList, "0340..0341    ".toList, " NFD_QC".toList, " N ".toList,
    ⟨"# Mn   [2] COMBINING GRAVE TONE MARK".toList, by decide +kernel, by decide +kernel, by decide +kernel⟩, ⟨by simp, by decide +kernel, by decide +kernel⟩,
    ⟨"0340..0341".toList, ⟨[], "    ".toList, by decide +kernel, by simp, blank _ (by decide +kernel)⟩, Or.inr ⟨['0', '3', '4', '0'], ['0', '3', '4', '1'],
      by decide +kernel, number_check (by decide) (by simp), number_check (by decide) (by simp)⟩⟩,
    ⟨[' '], [], by decide +kernel, blank _ rfl, by simp⟩, ⟨[' '], [' '], by decide +kernel, blank _ rfl, blank _ rfl⟩⟩ ?_
  exact .line _ _ _ _ ⟨"0338          ; NFC_QC; M ".toList, "0338          ".toList, " NFC_QC".toList, " M ".toList,
    ⟨"# Mn".toList, by decide +kernel, by decide +kernel, by decide +kernel⟩, ⟨by simp, by decide +kernel, by decide +kernel⟩,
    ⟨"0338".toList, ⟨[], "          ".toList, by decide +kernel, by simp, blank _ (by decide +kernel)⟩,
      Or.inl ⟨number_check (by decide +kernel) (by simp), rfl⟩⟩,
    ⟨[' '], [], by decide +kernel, blank _ rfl, by simp⟩, ⟨[' '], [' '], by decide +kernel, blank _ rfl, blank _ rfl⟩⟩ .nil

/-- The flags of U+0341. -/
example : ∃ f, qcText 0x110000 (sampleProps.flatMap fun l => l ++ ['\n']) = .ok f ∧ f 0x341 = 0x04 := by
  obtain ⟨f, h1, _, h2⟩ := datafile_quick (ls := sampleProps) ⟨by decide +kernel, rfl⟩ sample_checks (by simp)
  refine ⟨f, h1, h2 0x341 .yes .no .yes .yes (by decide) ?_ ?_ ?_ ?_⟩ <;> rw [valueOf_iff] <;> decide

end Verif.PyGen
