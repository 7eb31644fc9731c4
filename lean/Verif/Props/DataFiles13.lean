import Verif.Props.DataFiles
import Verif.Props.Category13
import Verif.Proofs.Unicode13

/-!
# C112 with the data of Unicode 13

For every text of the data files that says what the tables in `Verif/Data` record, the scripts emit the functions that the rest of the
development is about: `code13`, `lowerMain caseLines13`, `upperMain caseLines13` and `unicode13`.
-/

set_option autoImplicit false

namespace Verif.PyGen
open Verif.Py Verif.Unidata Verif.UniGen
open Verif.Categorize hiding Entry
open Verif.Spec.DataFiles hiding Str Range

/-- The name of a category in the file. -/
def catName : Cat → Str
  | .Cn => ['C', 'n'] | .Cc => ['C', 'c'] | .Cf => ['C', 'f'] | .Co => ['C', 'o'] | .Cs => ['C', 's']
  | .Ll => ['L', 'l'] | .Lm => ['L', 'm'] | .Lo => ['L', 'o'] | .Lt => ['L', 't'] | .Lu => ['L', 'u']
  | .Mc => ['M', 'c'] | .Me => ['M', 'e'] | .Mn => ['M', 'n'] | .Nd => ['N', 'd'] | .Nl => ['N', 'l'] | .No => ['N', 'o']
  | .Pc => ['P', 'c'] | .Pd => ['P', 'd'] | .Pe => ['P', 'e'] | .Pf => ['P', 'f'] | .Pi => ['P', 'i'] | .Po => ['P', 'o'] | .Ps => ['P', 's']
  | .Sc => ['S', 'c'] | .Sk => ['S', 'k'] | .Sm => ['S', 'm'] | .So => ['S', 'o'] | .Zl => ['Z', 'l'] | .Zp => ['Z', 'p'] | .Zs => ['Z', 's']

theorem catName_inj {a b : Cat} (h : catName a = catName b) : a = b := by
  revert h
  cases a <;> cases b <;> decide

/-- The entries of UnicodeData.txt are those of the tables. -/
structure Unicode13 (es : List Entry) : Prop where
  lines : List.Forall₂ (fun e r => e.cp = r.cp ∧ e.cat = catName r.cat ∧ (e.First ↔ r.kind = .first) ∧ (e.Last ↔ r.kind = .last)) es lines13
  case : ∀ e ∈ es, e.lower = lowerTable.lookup e.cp ∧ e.upper = upperTable.lookup e.cp
  row : ∀ e ∈ es, (e.ccc, e.dec.getD []) = (unicodeData.lookup e.cp).getD (0, []) ∧ e.dec ≠ some []
  all : ∀ r ∈ rows, ∃ e ∈ es, e.cp = r.cp

/-- The record with the name of its category. -/
def named (r : Rec Cat) : Rec Str := ⟨r.cp, r.kind, catName r.cat⟩

variable {text : Str} {es : List Entry}

theorem recs13 (h : Unicode13 es) : es.map recOf = lines13.map named := by
  have := h.lines
  clear h
  generalize lines13 = ls at this
  induction this with
  | nil => rfl
  | cons hab _ ih =>
    rename_i a b as bs _
    obtain ⟨h1, h2, h3, h4⟩ := hab
    rw [List.map_cons, List.map_cons, ih]
    congr 1
    rw [recOf, named, h1, h2]
    congr 1
    rw [← kind_first] at h3
    rw [← kind_last] at h4
    cases h5 : kindOf a <;> cases h6 : b.kind <;> simp_all

theorem ranged_of : ∀ (n : Nat) (es : List Entry), es.length ≤ n → Paired (es.map recOf) → Ranged es := by
  intro n
  induction n with
  | zero =>
    intro es h _
    have : es = [] := by simpa using h
    subst this
    exact .nil
  | succ n ih =>
    intro es hlen hp
    match es with
    | [] => exact .nil
    | [e] =>
      have := kind_plain.1 (show kindOf e = .plain from hp)
      exact .single _ _ this.1 this.2 .nil
    | a :: b :: rest =>
      obtain ⟨hk, hp⟩ | ⟨hk, hkl, hc, hp⟩ := hp
      · have := kind_plain.1 (show kindOf a = .plain from hk)
        exact .single _ _ this.1 this.2 (ih _ (by simpa using hlen) hp)
      · exact .range _ _ _ (kind_first.1 hk) (kind_last.1 hkl) hc (ih _ (by simp at hlen; omega) hp)

theorem paired_named : ∀ (n : Nat) (rs : List (Rec Cat)), rs.length ≤ n → Paired rs → Paired (rs.map named) := by
  intro n
  induction n with
  | zero =>
    intro rs h _
    have : rs = [] := by simpa using h
    subst this
    trivial
  | succ n ih =>
    intro rs hlen hp
    match rs with
    | [] => trivial
    | [r] => exact hp
    | a :: b :: rest =>
      obtain ⟨hk, hp⟩ | ⟨hk, hkl, hc, hp⟩ := hp
      · exact Or.inl ⟨hk, ih (b :: rest) (by simpa using hlen) hp⟩
      · exact Or.inr ⟨hk, hkl, congrArg catName hc, ih _ (by simp at hlen; omega) hp⟩

theorem mem_recs13 (h : Unicode13 es) {e : Entry} (he : e ∈ es) : ∃ r ∈ lines13, recOf e = named r := by
  have : recOf e ∈ lines13.map named := recs13 h ▸ List.mem_map_of_mem he
  obtain ⟨r, hr, h1⟩ := List.mem_map.1 this
  exact ⟨r, hr, h1.symm⟩

/-- The entries meet the conditions of the theorems about all files. -/
theorem datafile13_sound (h : Unicode13 es) : Sound es where
  ne := by
    rintro rfl
    have := recs13 h
    simp only [List.map_nil] at this
    exact lines13_ne (List.map_eq_nil_iff.1 this.symm)
  ascending := by
    have h1 : Ordered (lines13.map named) := by
      rw [Ordered, List.pairwise_map]
      exact lines13_ordered
    rw [← recs13 h, Ordered, List.pairwise_map] at h1
    exact h1
  ranged := ranged_of _ _ (le_refl _) (by rw [recs13 h]; exact paired_named _ _ (le_refl _) lines13_paired)
  bound := by
    intro e he
    obtain ⟨r, hr, h1⟩ := mem_recs13 h he
    have := (lines_bounds entries_chain r hr).2
    have h2 : e.cp = r.cp := congrArg Rec.cp h1
    omega

theorem assigned_named (lines : List (Rec Cat)) (cp : Int) (c : Cat) : Assigned (lines.map named) cp (catName c) ↔ Assigned lines cp c := by
  rw [Assigned, Assigned]
  refine or_congr ⟨?_, ?_⟩ ⟨?_, ?_⟩
  · rintro ⟨_, hr, h1, h2⟩
    obtain ⟨r, hm, rfl⟩ := List.mem_map.1 hr
    exact ⟨r, hm, h1, catName_inj h2⟩
  · rintro ⟨r, hr, h1, h2⟩
    exact ⟨named r, List.mem_map_of_mem hr, h1, congrArg catName h2⟩
  · rintro ⟨f, l, ⟨s, t, h⟩, h1, h2, h3, h4, h5⟩
    rw [List.append_assoc, eq_comm, List.map_eq_append_iff] at h
    obtain ⟨x, y, rfl, _, h⟩ := h
    rw [List.map_eq_append_iff] at h
    obtain ⟨z, w, rfl, h, _⟩ := h
    match z, h with
    | [a, b], h =>
      simp only [List.map_cons, List.map_nil, List.cons.injEq, and_true] at h
      obtain ⟨rfl, rfl⟩ := h
      exact ⟨a, b, ⟨x, w, by simp⟩, h1, h2, h3, h4, catName_inj h5⟩
  · rintro ⟨a, b, ⟨s, t, h⟩, h1, h2, h3, h4, h5⟩
    exact ⟨named a, named b, ⟨s.map named, t.map named, by rw [← h]; simp⟩, h1, h2, h3, h4, congrArg catName h5⟩

theorem assigned_name {lines : List (Rec Cat)} {cp : Int} {s : Str} (h : Assigned (lines.map named) cp s) : ∃ c, s = catName c := by
  obtain ⟨r, hr, _, rfl⟩ | ⟨f, l, hi, _, _, _, _, rfl⟩ := h
  · obtain ⟨r, hr, rfl⟩ := List.mem_map.1 hr
    exact ⟨_, rfl⟩
  · have : l ∈ lines.map named := hi.subset (by simp)
    obtain ⟨r, hr, rfl⟩ := List.mem_map.1 this
    exact ⟨_, rfl⟩

/-- categorize.py run on the text emits the function of C68: the same category, by name, for every integer. -/
theorem datafile13_category (h : UnicodeData text es) (h13 : Unicode13 es) {code : Code Cat} (hc : code13 = .ok code) :
    ∃ code', categorizeText 0x110000 text = .ok code' ∧ ∀ cp, category ['C', 'n'] code' cp = catName (category .Cn code cp) := by
  obtain ⟨code', h1, _⟩ := datafile_category_partial h (datafile13_sound h13)
  refine ⟨code', h1, fun cp => ?_⟩
  rw [categorize_data _ h, recs13 h13] at h1
  have ho : Ordered (lines13.map named) := by
    rw [Ordered, List.pairwise_map]
    exact lines13_ordered
  by_cases ha : ∃ c, Assigned lines13 cp c
  · obtain ⟨c, ha⟩ := ha
    rw [category_exact_assigned lines13_ordered hc .Cn cp c ha]
    exact category_exact_assigned ho h1 _ cp _ ((assigned_named _ _ _).2 ha)
  · have hu : ∀ c, ¬ Assigned lines13 cp c := fun c h => ha ⟨c, h⟩
    have hu' : ∀ s, ¬ Assigned (lines13.map named) cp s := by
      intro s hs
      obtain ⟨c, rfl⟩ := assigned_name hs
      exact hu c ((assigned_named _ _ _).1 hs)
    have gap : ∀ q : Int, (∀ x d, cp < x → x < q → ¬ Assigned lines13 x d) ↔ (∀ x d, cp < x → x < q → ¬ Assigned (lines13.map named) x d) := by
      intro q
      constructor
      · intro g x d hx1 hx2 hx
        obtain ⟨c, rfl⟩ := assigned_name hx
        exact g x c hx1 hx2 ((assigned_named _ _ _).1 hx)
      · intro g x d hx1 hx2 hx
        exact g x _ hx1 hx2 ((assigned_named _ _ _).2 hx)
    obtain ⟨g1, g2⟩ | ⟨q, c, g1, g2, g3, g4, g5⟩ := category_unassigned lines13_ordered hc .Cn cp hu
    · rw [g1]
      obtain ⟨k1, _⟩ | ⟨q, s, _, k2, k3, k4, k5⟩ := category_unassigned ho h1 ['C', 'n'] cp hu'
      · exact k1
      · obtain ⟨c, rfl⟩ := assigned_name k3
        rw [assigned_named] at k3 k5
        exact absurd (g2 q c k3 k2 ((gap q).2 k4)) k5
    · rw [g1]
      obtain ⟨_, k2⟩ | ⟨q', s, k1, k2, k3, k4, k5⟩ := category_unassigned ho h1 ['C', 'n'] cp hu'
      · have := k2 q (catName c) ((assigned_named _ _ _).2 g3) g2 ((gap q).1 g4)
        rw [assigned_named] at this
        exact absurd this g5
      · obtain ⟨c', rfl⟩ := assigned_name k3
        rw [assigned_named] at k3
        have hq : q = q' := by
          obtain h | h | h := lt_trichotomy q q'
          · exact absurd ((assigned_named _ _ _).2 g3) (k4 q _ g2 h)
          · exact h
          · exact absurd k3 (g4 q' _ k2 h)
        subst hq
        have e1 := category_exact_assigned lines13_ordered hc .Cn q c g3
        have e2 := category_exact_assigned lines13_ordered hc .Cn q c' k3
        rw [k1, ← e1, ← e2]

theorem entry_of (h13 : Unicode13 es) {r : Rec Cat} (hr : r ∈ lines13) : ∃ e ∈ es, recOf e = named r := by
  have : named r ∈ es.map recOf := recs13 h13 ▸ List.mem_map_of_mem hr
  obtain ⟨e, he, h⟩ := List.mem_map.1 this
  exact ⟨e, he, h⟩

theorem case_line (h13 : Unicode13 es) {e : Entry} (he : e ∈ es) : ∃ r ∈ caseLines13, e.cp = r.cp ∧ e.cat = catName r.cat ∧ r.lower = e.lower ∧ r.upper = e.upper := by
  obtain ⟨r, hr, h1⟩ := mem_recs13 h13 he
  have hcp : e.cp = r.cp := congrArg Rec.cp h1
  refine ⟨_, List.mem_map.2 ⟨r, hr, rfl⟩, hcp, congrArg Rec.cat h1, ?_, ?_⟩
  · rw [(h13.case e he).1, hcp]
  · rw [(h13.case e he).2, hcp]

theorem case_other (h13 : Unicode13 es) {c : Int} (hc : ∀ e ∈ es, (e.cp : Int) ≠ c) : ∀ r ∈ caseLines13, (r.cp : Int) ≠ c := by
  intro r hr
  rw [caseLines13, List.mem_map] at hr
  obtain ⟨q, hq, rfl⟩ := hr
  obtain ⟨e, he, h1⟩ := entry_of h13 hq
  have hcp : e.cp = q.cp := congrArg Rec.cp h1
  have := hc e he
  rw [hcp] at this
  exact this

theorem name_lu (c : Cat) : catName c = ['L', 'u'] ↔ c = .Lu := ⟨fun h => catName_inj h, fun h => h ▸ rfl⟩
theorem name_ll (c : Cat) : catName c = ['L', 'l'] ↔ c = .Ll := ⟨fun h => catName_inj h, fun h => h ▸ rfl⟩

/-- lower_case.py and upper_case.py run on the text emit the functions of C100 and C101. -/
theorem datafile13_case (h : UnicodeData text es) (h13 : Unicode13 es) {l u : List (Nat × Nat)} (hl : lowerMain caseLines13 = .ok l)
    (hu : upperMain caseLines13 = .ok u) : ∃ f g, lowerText text = .ok f ∧ upperText text = .ok g ∧ ∀ c, f c = switch l c ∧ g c = switch u c := by
  obtain ⟨f, f1, f2, f3⟩ := datafile_lower h (datafile13_sound h13)
  obtain ⟨g, g1, g2, g3⟩ := datafile_upper h (datafile13_sound h13)
  refine ⟨f, g, f1, g1, fun c => ?_⟩
  by_cases hc : ∃ e ∈ es, (e.cp : Int) = c
  · obtain ⟨e, he, rfl⟩ := hc
    obtain ⟨r, hr, r1, r2, r3, r4⟩ := case_line h13 he
    rw [f2 e he, g2 e he, r2, r1, (lcase13_exact hl).1 r hr, (ucase13_exact hu).1 r hr, r3, r4]
    simp only [name_lu, name_ll, and_self]
  · have hc : ∀ e ∈ es, (e.cp : Int) ≠ c := fun e he h => hc ⟨e, he, h⟩
    rw [f3 c hc, g3 c hc, (lcase13_exact hl).2 c (case_other h13 hc), (ucase13_exact hu).2 c (case_other h13 hc)]
    exact ⟨rfl, rfl⟩

theorem no_row (h13 : Unicode13 es) {cp : Nat} (hc : ∀ e ∈ es, e.cp ≠ cp) : unicodeData.lookup cp = none := by
  cases hl : unicodeData.lookup cp with
  | none => rfl
  | some v =>
    obtain ⟨k, d⟩ := v
    obtain ⟨e, he, h1⟩ := h13.all _ (lookup_row.1 hl)
    exact absurd h1 (hc e he)

theorem ccc_lookup (cp : Nat) : unicode13.ccc cp = ((unicodeData.lookup cp).getD (0, [])).1 := by
  rw [ccc_iff]
  cases hl : unicodeData.lookup cp with
  | none =>
    refine Or.inr ⟨rfl, ?_⟩
    rintro ⟨cp', k, d⟩ hr rfl
    rw [lookup_row.2 hr] at hl
    cases hl
  | some v => exact Or.inl ⟨v.2, lookup_row.1 hl⟩

theorem decomp_lookup (cp : Nat) (l : List Nat) : unicode13.decomp cp = some l ↔ l ≠ [] ∧ ((unicodeData.lookup cp).getD (0, [])).2 = l := by
  rw [decomp_iff, Spec.Unicode.Maps]
  refine and_congr_right fun hne => ?_
  constructor
  · rintro ⟨k, hk⟩
    rw [lookup_row.2 hk]
    rfl
  · intro h
    cases hl : unicodeData.lookup cp with
    | none =>
      rw [hl] at h
      exact absurd h.symm hne
    | some v =>
      rw [hl] at h
      subst h
      exact ⟨v.1, lookup_row.1 hl⟩

theorem rows_two : (unicodeData.every fun _ _ v => Nat.ble v.2.length 2) = true := by decide +kernel

theorem decomp_two (cp : Nat) (d : List Nat) (h : unicode13.decomp cp = some d) : d.length ≤ 2 := by
  obtain ⟨h1, h2⟩ := (decomp_lookup _ _).1 h
  cases hl : unicodeData.lookup cp with
  | none =>
    rw [hl] at h2
    exact absurd h2.symm h1
  | some v =>
    rw [hl] at h2
    obtain ⟨lo, hi, hm, _⟩ := (lookup_iff unicodeData_ok _ _).1 hl
    have := every_mem rows_two _ _ _ hm
    rw [Nat.ble_eq] at this
    subst h2
    exact this

/-- The values of the file. -/
def qcOf13 : Value → QC
  | .yes => .yes
  | .no => .no
  | .maybe => .maybe

/-- The table of a property. -/
def table13 : Prop4 → RTree QC
  | .nfc => nfcQC
  | .nfd => nfdQC
  | .nfkc => nfkcQC
  | .nfkd => nfkdQC

/-- The lines of DerivedNormalizationProps.txt are those of the tables, in any order. -/
def Props13 (qs : List Quick) : Prop :=
  ∀ p lo hi v, (∃ q ∈ qs, q.prop = p ∧ q.lo = lo ∧ q.hi = hi ∧ qcOf13 q.value = v) ↔ (lo, hi, v) ∈ (table13 p).toList

theorem table13_ok (p : Prop4) : (table13 p).ok 0 0x110000 = true := by
  cases p
  · exact nfcQC_ok
  · exact nfdQC_ok
  · exact nfkcQC_ok
  · exact nfkdQC_ok

theorem unicode13_flags_above {cp : Nat} (h : 0x110000 ≤ cp) : unicode13.flags cp = 0 := by
  have key : ∀ t : RTree QC, t.ok 0 0x110000 = true → genQC t.toList cp = .yes := by
    intro t ht
    rw [genQC_lookup ht]
    cases hl : t.lookup cp with
    | none => rfl
    | some v =>
      obtain ⟨lo, hi, hm, _, h2⟩ := (lookup_iff ht _ _).1 hl
      have := (ok_mem ht _ _ _ hm).2.2
      omega
  simp only [unicode13, genFlags, key _ nfcQC_ok, key _ nfdQC_ok, key _ nfkcQC_ok, key _ nfkdQC_ok]
  rfl

theorem value13 {qs : List Quick} (h : Props13 qs) (p : Prop4) (cp : Nat) : genQC (table13 p).toList cp = qcOf13 (valueOf qs p cp) := by
  rw [quick_iff (table13_ok p)]
  obtain ⟨b, q, a, h1, h2, h3, h4, h5, _⟩ | ⟨h1, h2⟩ := (valueOf_iff qs p cp _).2 rfl
  · exact Or.inl ⟨q.lo, q.hi, (h p _ _ _).1 ⟨q, by simp [h1], h2, rfl, rfl, by rw [h3]⟩, h4, h5⟩
  · refine Or.inr ⟨by rw [h1]; rfl, ?_⟩
    rintro ⟨lo, hi, v⟩ hm ⟨h3, h4⟩
    obtain ⟨q, hq, h5, rfl, rfl, _⟩ := (h p lo hi v).2 hm
    exact h2 q hq ⟨h5, h3, h4⟩

/-- canonical_combining_classes.py, decomposition.py, recomposition.py and allowed_in_normal_form.py run on the texts emit the functions of
`unicode13`. -/
theorem datafile13_functions {xtext ptext : Str} {xs ps : List Str} {qs : List Quick} (h : UnicodeData text es) (h13 : Unicode13 es)
    (hx : Lines xtext xs) (hxs : Exclusions xs exclusions) (hp : Lines ptext ps) (hps : Checking ps qs) (hq : Props13 qs) :
    ∃ ccc decomp comp flags, cccText text = .ok ccc ∧ decompText text = .ok decomp ∧ recompText text xtext = .ok comp ∧ qcText 0x110000 ptext = .ok flags ∧
      (∀ cp, ccc cp = unicode13.ccc cp) ∧ (∀ cp, decomp cp = (unicode13.decomp cp).map (· ++ [0])) ∧
      (∀ s c, comp s c = unicode13.composite s c) ∧ ∀ cp, flags cp = unicode13.flags cp := by
  have hs := datafile13_sound h13
  have hrow : ∀ e ∈ es, ∀ d, e.dec = some d ↔ unicode13.decomp e.cp = some d := by
    intro e he d
    obtain ⟨h1, h2⟩ := h13.row e he
    rw [decomp_lookup, ← h1]
    constructor
    · intro h
      refine ⟨?_, by rw [h]; rfl⟩
      rintro rfl
      exact h2 h
    · rintro ⟨h3, h4⟩
      cases hd : e.dec with
      | none => rw [hd] at h4; exact absurd h4.symm h3
      | some x => rw [hd] at h4; exact congrArg some h4
  have hnone : ∀ cp, (∀ e ∈ es, e.cp ≠ cp) → unicode13.decomp cp = none := by
    intro cp hcp
    cases hd : unicode13.decomp cp with
    | none => rfl
    | some d =>
      obtain ⟨h1, h2⟩ := (decomp_lookup _ _).1 hd
      rw [no_row h13 hcp] at h2
      exact absurd h2.symm h1
  obtain ⟨f, f1, f2, f3⟩ := datafile_ccc h hs
  obtain ⟨g, g1, g2, g3⟩ := datafile_decomposition h hs
  obtain ⟨c, c1, c2⟩ := datafile_composite h hx hxs (by
    intro e he d hd
    exact decomp_two e.cp d ((hrow e he d).1 hd))
  obtain ⟨q, q1, q2, q3⟩ := datafile_quick hp hps (by
    intro q hq'
    exact (ok_mem (table13_ok q.prop) _ _ _ ((hq q.prop _ _ _).1 ⟨q, hq', rfl, rfl, rfl, rfl⟩)).2.2)
  refine ⟨f, g, c, q, f1, g1, c1, q1, ?_, ?_, ?_, ?_⟩
  · intro cp
    rw [ccc_lookup]
    by_cases hcp : ∃ e ∈ es, e.cp = cp
    · obtain ⟨e, he, rfl⟩ := hcp
      rw [f2 e he, ← (h13.row e he).1]
    · have hcp : ∀ e ∈ es, e.cp ≠ cp := fun e he h => hcp ⟨e, he, h⟩
      rw [f3 cp hcp, no_row h13 hcp]
      rfl
  · intro cp
    by_cases hcp : ∃ e ∈ es, e.cp = cp
    · obtain ⟨e, he, rfl⟩ := hcp
      rw [g2 e he]
      have : unicode13.decomp e.cp = e.dec := by
        cases hd : e.dec with
        | some d => exact (hrow e he d).1 hd
        | none =>
          cases hu : unicode13.decomp e.cp with
          | none => rfl
          | some d => rw [(hrow e he d).2 hu] at hd; cases hd
      rw [this]
      cases e.dec <;> rfl
    · have hcp : ∀ e ∈ es, e.cp ≠ cp := fun e he h => hcp ⟨e, he, h⟩
      rw [g3 cp hcp, hnone cp hcp]
      rfl
  · intro s x
    have key : ∀ p, c s x = some p → unicode13.composite s x = some p := by
      intro p hp
      obtain ⟨b, e, a, rfl, rfl, h2, h3, _⟩ := (c2 s x p).1 hp
      exact (composite_iff13 _ _ _).2 ⟨(decomp_iff _ _).1 ((hrow e (by simp) _).1 h2), h3⟩
    cases hu : c s x with
    | some p => exact (key p hu).symm
    | none =>
      cases hc : unicode13.composite s x with
      | none => rfl
      | some p =>
        exfalso
        obtain ⟨h2, h3⟩ := (composite_iff13 _ _ _).1 hc
        have h2 := (decomp_iff _ _).2 h2
        have hex : ∃ e ∈ es, e.dec = some [s, x] ∧ e.cp ∉ exclusions := by
          by_contra hno
          have : ∀ e ∈ es, e.cp ≠ p := by
            rintro e he rfl
            exact hno ⟨e, he, (hrow e he _).2 h2, h3⟩
          rw [hnone p this] at h2
          cases h2
        obtain ⟨e, he, k1, k2⟩ := hex
        have : (es.reverse.find? fun e => decide (e.dec = some [s, x] ∧ e.cp ∉ exclusions)).isSome = true := by
          rw [List.find?_isSome]
          exact ⟨e, List.mem_reverse.2 he, by simp [k1, k2]⟩
        obtain ⟨e', he'⟩ := Option.isSome_iff_exists.1 this
        obtain ⟨m1, as, bs, m2, m3⟩ := List.find?_eq_some_iff_append.1 he'
        rw [decide_eq_true_eq] at m1
        have := (c2 s x e'.cp).2 ⟨bs.reverse, e', as.reverse, by have := congrArg List.reverse m2; simpa using this, rfl, m1.1, m1.2, fun y hy => by
          have := m3 y (List.mem_reverse.1 hy)
          rw [Bool.not_eq_true', decide_eq_false_iff_not] at this
          exact this⟩
        rw [hu] at this
        cases this
  · intro cp
    have hv := fun p => value13 hq p cp
    have v1 := hv .nfc
    have v2 := hv .nfd
    have v3 := hv .nfkc
    have v4 := hv .nfkd
    simp only [table13] at v1 v2 v3 v4
    have hf : unicode13.flags cp = flag .nfc (valueOf qs .nfc cp) ||| flag .nfd (valueOf qs .nfd cp) ||| flag .nfkc (valueOf qs .nfkc cp) ||| flag .nfkd (valueOf qs .nfkd cp) := by
      simp only [unicode13, genFlags, v1, v2, v3, v4]
      cases valueOf qs .nfc cp <;> cases valueOf qs .nfd cp <;> cases valueOf qs .nfkc cp <;> cases valueOf qs .nfkd cp <;> rfl
    by_cases hcp : cp < 0x110000
    · rw [hf]
      exact q3 cp _ _ _ _ hcp ((valueOf_iff _ _ _ _).2 rfl) ((valueOf_iff _ _ _ _).2 rfl) ((valueOf_iff _ _ _ _).2 rfl) ((valueOf_iff _ _ _ _).2 rfl)
    · rw [q2 cp (by omega), unicode13_flags_above (by omega)]

/-! ### There are such files -/

theorem number_exists (n : Nat) (base : Nat) (hb : 2 ≤ base ∧ base ≤ 16) : ∃ s, Number base s n := by
  have digit : ∀ d, d < base → ∃ c, digitValue c = some d := by
    intro d hd
    have : ∀ d : Fin 16, ∃ c ∈ ['0', '1', '2', '3', '4', '5', '6', '7', '8', '9', 'A', 'B', 'C', 'D', 'E', 'F'], digitValue c = some d.val := by decide
    obtain ⟨c, _, hc⟩ := this ⟨d, by omega⟩
    exact ⟨c, hc⟩
  induction n using Nat.strongRecOn with
  | _ n ih =>
    by_cases h : n < base
    · obtain ⟨c, hc⟩ := digit n h
      exact ⟨[c], .one c n hc h⟩
    · obtain ⟨s, hs⟩ := ih (n / base) (Nat.div_lt_self (by omega) (by omega))
      have hm : n % base < base := Nat.mod_lt _ (by omega)
      obtain ⟨c, hc⟩ := digit (n % base) hm
      refine ⟨s ++ [c], ?_⟩
      have := Number.more s _ c _ hs hc hm
      rwa [Nat.div_add_mod] at this

theorem digits_clean {s : Str} (h : Digits s) : ';' ∉ s ∧ '\n' ∉ s := by
  constructor <;> intro hc <;> obtain ⟨d, hd⟩ := h _ hc <;> cases hd

theorem optional_exists (v : Option Nat) : ∃ s, Optional s v ∧ ';' ∉ s ∧ '\n' ∉ s := by
  cases v with
  | none => exact ⟨[], Or.inl ⟨rfl, rfl⟩, by simp, by simp⟩
  | some n =>
    obtain ⟨s, hs⟩ := number_exists n 16 (by decide)
    exact ⟨s, Or.inr ⟨n, rfl, hs⟩, digits_clean (number_digits hs).1⟩

theorem mapping_exists (m : Option (List Nat)) (h : m ≠ some []) : ∃ s, Mapping s m ∧ ';' ∉ s ∧ '\n' ∉ s := by
  cases m with
  | none => exact ⟨[], Or.inl ⟨rfl, rfl⟩, by simp, by simp⟩
  | some ns =>
    have : ∃ ws, List.Forall₂ (Number 16) ws ns ∧ ∀ w ∈ ws, ';' ∉ w ∧ '\n' ∉ w := by
      clear h
      induction ns with
      | nil => exact ⟨[], .nil, by simp⟩
      | cons n ns ih =>
        obtain ⟨ws, h1, h2⟩ := ih
        obtain ⟨s, hs⟩ := number_exists n 16 (by decide)
        refine ⟨s :: ws, .cons hs h1, ?_⟩
        intro w hw
        rcases List.mem_cons.1 hw with rfl | hw
        · exact digits_clean (number_digits hs).1
        · exact h2 w hw
    obtain ⟨ws, h1, h2⟩ := this
    have hj : ∀ ws : List Str, (∀ w ∈ ws, ';' ∉ w ∧ '\n' ∉ w) → ';' ∉ List.intercalate [' '] ws ∧ '\n' ∉ List.intercalate [' '] ws := by
      intro ws
      induction ws with
      | nil => intro _; simp [List.intercalate]
      | cons w ws ih =>
        intro h
        cases ws with
        | nil => rw [intercalate_single]; exact h w (by simp)
        | cons x ws =>
          have := ih fun w hw => h w (List.mem_cons_of_mem _ hw)
          have hw := h w (by simp)
          rw [intercalate_cons]
          simp only [List.mem_append, List.mem_singleton, not_or]
          exact ⟨⟨hw.1, by decide, this.1⟩, ⟨hw.2, by decide, this.2⟩⟩
    refine ⟨List.intercalate [' '] ws, Or.inr (Or.inr ⟨ws, ns, ?_, h1, rfl, rfl⟩), hj ws h2⟩
    rintro rfl
    cases h1
    exact h rfl

/-- Every entry can be written down as a line. -/
theorem datafile_line_exists (e : Entry) (hn : ';' ∉ e.name ∧ '\n' ∉ e.name) (hc : ';' ∉ e.cat ∧ '\n' ∉ e.cat) (hd : e.dec ≠ some []) :
    ∃ line, Says line e ∧ '\n' ∉ line := by
  obtain ⟨f0, h0⟩ := number_exists e.cp 16 (by decide)
  obtain ⟨f3, h3⟩ := number_exists e.ccc 10 (by decide)
  obtain ⟨f5, h5, c5⟩ := mapping_exists e.dec hd
  obtain ⟨f12, h12, c12⟩ := optional_exists e.upper
  obtain ⟨f13, h13, c13⟩ := optional_exists e.lower
  have c0 := digits_clean (number_digits h0).1
  have c3 := digits_clean (number_digits h3).1
  refine ⟨_, ⟨f0, f3, [], f5, [], [], [], [], [], [], f12, f13, [], ⟨by simp, ?_, rfl⟩, h0, h3, h5, h12, h13⟩, ?_⟩
  · intro f hf
    simp only [List.mem_cons, List.not_mem_nil, or_false] at hf
    obtain rfl | rfl | rfl | rfl | rfl | rfl | rfl | rfl | rfl | rfl | rfl | rfl | rfl | rfl | rfl := hf
    all_goals first | exact c0.1 | exact hn.1 | exact hc.1 | exact c3.1 | exact c5.1 | exact c12.1 | exact c13.1 | simp
  · simp only [intercalate_cons, intercalate_single, List.mem_append, List.mem_singleton, not_or, List.not_mem_nil, not_false_eq_true, true_and, and_true]
    exact ⟨c0.2, by decide, hn.2, by decide, hc.2, by decide, c3.2, by decide, by decide, c5.2, by decide, by decide, by decide, by decide, by decide, by decide, by decide,
      c12.2, by decide, c13.2, by decide⟩

/-- The entry of a line of the tables. -/
def entry13 (r : Rec Cat) : Entry where
  cp := r.cp
  name := match r.kind with
    | .plain => ['x']
    | .first => [',', ' ', 'F', 'i', 'r', 's', 't', '>']
    | .last => [',', ' ', 'L', 'a', 's', 't', '>']
  cat := catName r.cat
  ccc := ((unicodeData.lookup r.cp).getD (0, [])).1
  dec := if ((unicodeData.lookup r.cp).getD (0, [])).2 = [] then none else some ((unicodeData.lookup r.cp).getD (0, [])).2
  upper := upperTable.lookup r.cp
  lower := lowerTable.lookup r.cp

theorem rows_lines : (unicodeData.every fun lo _ _ => (categoryTable.lookup lo).isSome) = true := by decide +kernel

theorem unicode13_entries : Unicode13 (lines13.map entry13) where
  lines := by
    rw [List.forall₂_map_left_iff, List.forall₂_same]
    intro r _
    refine ⟨rfl, rfl, ?_, ?_⟩
    · rw [← kind_first]
      cases hk : r.kind <;> simp only [entry13, kindOf, hk] <;> decide
    · rw [← kind_last]
      cases hk : r.kind <;> simp only [entry13, kindOf, hk] <;> decide
  case := by
    intro e he
    obtain ⟨r, _, rfl⟩ := List.mem_map.1 he
    exact ⟨rfl, rfl⟩
  row := by
    intro e he
    obtain ⟨r, _, rfl⟩ := List.mem_map.1 he
    simp only [entry13]
    generalize (unicodeData.lookup r.cp).getD (0, []) = x
    obtain ⟨k, d⟩ := x
    by_cases hd : d = []
    · simp [hd]
    · simp [hd]
  all := by
    rintro ⟨cp, k, d⟩ hr
    obtain ⟨lo, hi, hm, h1, h2⟩ := (lookup_iff unicodeData_ok _ _).1 (lookup_row.2 hr)
    have h3 := every_mem unicodeData_single _ _ _ hm
    simp only [beq_iff_eq] at h3
    have hlo : lo = cp := by omega
    subst hlo
    have := every_mem rows_lines _ _ _ hm
    obtain ⟨⟨k', c⟩, hc⟩ := Option.isSome_iff_exists.1 this
    exact ⟨entry13 ⟨lo, k', c⟩, List.mem_map_of_mem ((mem_lines13 _ _ _).2 hc), rfl⟩

theorem data_exists : ∃ text es, UnicodeData text es ∧ Unicode13 es := by
  have key : ∀ rs : List (Rec Cat), ∃ ls : List Str, (∀ l ∈ ls, '\n' ∉ l) ∧ List.Forall₂ Says ls (rs.map entry13) := by
    intro rs
    induction rs with
    | nil => exact ⟨[], by simp, .nil⟩
    | cons r rs ih =>
      obtain ⟨ls, h1, h2⟩ := ih
      obtain ⟨l, h3, h4⟩ := datafile_line_exists (entry13 r) (by cases hk : r.kind <;> simp [entry13, hk]) (by cases hk : r.cat <;> simp [entry13, hk, catName])
        (by simp only [entry13]; split <;> simp_all)
      refine ⟨l :: ls, ?_, .cons h3 h2⟩
      intro x hx
      rcases List.mem_cons.1 hx with rfl | hx
      · exact h4
      · exact h1 x hx
  obtain ⟨ls, h1, h2⟩ := key lines13
  exact ⟨_, _, ⟨ls, ⟨h1, rfl⟩, h2⟩, unicode13_entries⟩

theorem exclusions_exists (ns : List Nat) : ∃ xs, (∀ l ∈ xs, '\n' ∉ l) ∧ Exclusions xs ns := by
  induction ns with
  | nil => exact ⟨[], by simp, .nil⟩
  | cons n ns ih =>
    obtain ⟨xs, h1, h2⟩ := ih
    obtain ⟨s, hs⟩ := number_exists n 16 (by decide)
    refine ⟨s :: xs, ?_, .line _ _ _ _ ⟨[], s, [], by simp, by simp, hs, by simp⟩ h2⟩
    intro x hx
    rcases List.mem_cons.1 hx with rfl | hx
    · exact (digits_clean (number_digits hs).1).2
    · exact h1 x hx

theorem checks_exists (q : Quick) : ∃ l, '\n' ∉ l ∧ Checks l q := by
  obtain ⟨a, ha⟩ := number_exists q.lo 16 (by decide)
  obtain ⟨b, hb⟩ := number_exists q.hi 16 (by decide)
  have ca := digits_clean (number_digits ha).1
  have cb := digits_clean (number_digits hb).1
  have hash : ∀ s : Str, Digits s → '#' ∉ s := by
    intro s hs hc
    obtain ⟨d, hd⟩ := hs _ hc
    cases hd
  have ha' := hash a (number_digits ha).1
  have hb' := hash b (number_digits hb).1
  have hp : ';' ∉ q.prop.name ∧ '\n' ∉ q.prop.name ∧ '#' ∉ q.prop.name := by cases q.prop <;> decide
  have hv : ';' ∉ q.value.name ∧ '\n' ∉ q.value.name ∧ '#' ∉ q.value.name := by cases q.value <;> decide
  refine ⟨List.intercalate [';'] [a ++ ['.', '.'] ++ b, q.prop.name, q.value.name], ?_, _, _, _, _, ⟨[], by simp, ?_, by simp⟩, ⟨by simp, ?_, rfl⟩,
    ⟨_, padded_self _, Or.inr ⟨a, b, rfl, ha, hb⟩⟩, padded_self _, padded_self _⟩
  · simp [intercalate_cons, intercalate_single, ca, cb, hp, hv]
  · simp [intercalate_cons, intercalate_single, ha', hb', hp, hv]
  · intro f hf
    simp only [List.mem_cons, List.not_mem_nil, or_false] at hf
    obtain rfl | rfl | rfl := hf
    · simp [ca, cb]
    · exact hp.1
    · exact hv.1

theorem checking_exists (qs : List Quick) : ∃ ps, (∀ l ∈ ps, '\n' ∉ l) ∧ Checking ps qs := by
  induction qs with
  | nil => exact ⟨[], by simp, .nil⟩
  | cons q qs ih =>
    obtain ⟨ps, h1, h2⟩ := ih
    obtain ⟨l, h3, h4⟩ := checks_exists q
    refine ⟨l :: ps, ?_, .line _ _ _ _ h4 h2⟩
    intro x hx
    rcases List.mem_cons.1 hx with rfl | hx
    · exact h3
    · exact h1 x hx

/-- The value as the file has it. -/
def valueOf13 : QC → Value
  | .yes => .yes
  | .no => .no
  | .maybe => .maybe

theorem props_exists : ∃ qs, Props13 qs := by
  refine ⟨[Prop4.nfc, .nfd, .nfkc, .nfkd].flatMap fun p => (table13 p).toList.map fun l => ⟨l.1, l.2.1, p, valueOf13 l.2.2⟩, ?_⟩
  intro p lo hi v
  have hval : ∀ v, qcOf13 (valueOf13 v) = v := by
    intro v
    cases v <;> rfl
  constructor
  · rintro ⟨q, hq, h1, h2, h3, h4⟩
    obtain ⟨p', _, hq⟩ := List.mem_flatMap.1 hq
    obtain ⟨⟨a, b, w⟩, hm, rfl⟩ := List.mem_map.1 hq
    simp only [hval] at h1 h2 h3 h4
    subst h1 h2 h3 h4
    exact hm
  · intro hm
    refine ⟨⟨lo, hi, p, valueOf13 v⟩, List.mem_flatMap.2 ⟨p, ?_, List.mem_map.2 ⟨_, hm, rfl⟩⟩, rfl, rfl, rfl, hval v⟩
    cases p <;> simp

/-- There are texts that say what the tables record. -/
theorem datafile13_exists : ∃ text es xtext xs ptext ps qs, UnicodeData text es ∧ Unicode13 es ∧ Lines xtext xs ∧ Exclusions xs exclusions ∧ Lines ptext ps ∧
    Checking ps qs ∧ Props13 qs := by
  obtain ⟨text, es, h1, h2⟩ := data_exists
  obtain ⟨xs, h3, h4⟩ := exclusions_exists exclusions
  obtain ⟨qs, h5⟩ := props_exists
  obtain ⟨ps, h6, h7⟩ := checking_exists qs
  exact ⟨text, es, _, xs, _, ps, qs, h1, h2, ⟨h3, rfl⟩, h4, ⟨h6, rfl⟩, h7, h5⟩

end Verif.PyGen
