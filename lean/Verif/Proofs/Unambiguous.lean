import Verif.Proofs.PyGen
import Verif.Proofs.IdnaRead
import Verif.Props.Charstr

/-!
The formats of the data files (Spec/DataFiles.lean, Spec/IdnaTable.lean) are unambiguous: a text says one thing.
-/

set_option autoImplicit false

namespace Verif.PyGen
open Verif.Py
open Verif.Categorize hiding Entry
open Verif.Spec.DataFiles hiding Str Range

theorem number_unique {base : Nat} {s : Str} {v w : Nat} (h : Number base s v) (h' : Number base s w) : v = w :=
  Option.some.inj ((number_value h).symm.trans (number_value h'))

theorem numbers_unique {ws : List Str} {v w : List Nat} (h : List.Forall₂ (Number 16) ws v) (h' : List.Forall₂ (Number 16) ws w) : v = w := by
  induction h generalizing w with
  | nil => cases h'; rfl
  | cons hab _ ih =>
    cases h' with
    | cons hab' hr => rw [number_unique hab hab', ih hr]

theorem fields_unique {line : Str} {fs gs : List Str} (h : Fields line fs) (h' : Fields line gs) : fs = gs := by
  obtain ⟨h1, h2, h3⟩ := h
  obtain ⟨g1, g2, g3⟩ := h'
  rw [← split_fields h1 h2, ← split_fields g1 g2, ← h3, ← g3]

theorem lines_unique {text : Str} {ls ls' : List Str} (h : Lines text ls) (h' : Lines text ls') : ls = ls' := by
  have h1 := (lines_text h).symm.trans (lines_text h')
  exact List.map_injective_iff.2 (fun a b hab => List.append_cancel_right hab) h1

theorem optional_unique {s : Str} {v w : Option Nat} (h : Optional s v) (h' : Optional s w) : v = w := by
  obtain ⟨rfl, rfl⟩ | ⟨n, rfl, h1⟩ := h <;> obtain ⟨h2, rfl⟩ | ⟨m, rfl, h2⟩ := h'
  · rfl
  · exact absurd rfl (number_digits h2).2
  · exact absurd h2 (number_digits h1).2
  · rw [number_unique h1 h2]

/-- The code points of a mapping start with a digit, and the words are those between spaces. -/
theorem join_numbers {ws : List Str} {ns : List Nat} (h1 : ws ≠ []) (h2 : List.Forall₂ (Number 16) ws ns) :
    words (List.intercalate [' '] ws) = ws ∧ ∃ c s, List.intercalate [' '] ws = c :: s ∧ c ≠ '<' := by
  have hw : ∀ w ∈ ws, w ≠ [] ∧ Digits w := by
    intro w hw
    obtain ⟨i, hi, rfl⟩ := List.getElem_of_mem hw
    have := h2.get hi (by rw [← h2.length_eq]; exact hi)
    exact ⟨(number_digits this).2, (number_digits this).1⟩
  refine ⟨words_join (fun w h => ⟨(hw w h).1, digits_nospace (hw w h).2⟩) h1, ?_⟩
  obtain ⟨w, ws, rfl⟩ := List.exists_cons_of_ne_nil h1
  obtain ⟨g1, g2⟩ := hw w (by simp)
  obtain ⟨c, s, rfl⟩ := List.exists_cons_of_ne_nil g1
  refine ⟨c, s ++ (List.intercalate [' '] ([] :: ws)), ?_, ?_⟩
  · cases ws <;> simp [List.intercalate, List.intersperse]
  · rintro rfl
    obtain ⟨d, hd⟩ := g2 '<' (by simp)
    cases hd

theorem mapping_unique {s : Str} {v w : Option (List Nat)} (h : Mapping s v) (h' : Mapping s w) : v = w := by
  have key : ∀ {ws : List Str} {ns : List Nat}, ws ≠ [] → List.Forall₂ (Number 16) ws ns → s = List.intercalate [' '] ws → s ≠ [] ∧ ∀ t, s ≠ '<' :: t := by
    intro ws ns h1 h2 h3
    obtain ⟨_, c, r, h4, h5⟩ := join_numbers h1 h2
    rw [h3, h4]
    exact ⟨by simp, fun t ht => h5 (List.cons.inj ht).1⟩
  obtain ⟨h1, rfl⟩ | ⟨t, h1, rfl⟩ | ⟨ws, ns, h1, h2, h3, rfl⟩ := h <;> obtain ⟨g1, rfl⟩ | ⟨t', g1, rfl⟩ | ⟨ws', ns', g1, g2, g3, rfl⟩ := h'
  · rfl
  · rfl
  · exact absurd h1 (key g1 g2 g3).1
  · rfl
  · rfl
  · exact absurd h1 ((key g1 g2 g3).2 t)
  · exact absurd g1 (key h1 h2 h3).1
  · exact absurd g1 ((key h1 h2 h3).2 t')
  · have : ws = ws' := by rw [← (join_numbers h1 h2).1, ← (join_numbers g1 g2).1, ← h3, ← g3]
    subst this
    rw [numbers_unique h2 g2]

theorem says_unique {line : Str} {e e' : Entry} (h : Says line e) (h' : Says line e') : e = e' := by
  obtain ⟨f0, f3, f4, f5, f6, f7, f8, f9, f10, f11, f12, f13, f14, h1, h2, h3, h4, h5, h6⟩ := h
  obtain ⟨g0, g3, g4, g5, g6, g7, g8, g9, g10, g11, g12, g13, g14, k1, k2, k3, k4, k5, k6⟩ := h'
  have := fields_unique h1 k1
  simp only [List.cons.injEq, and_true] at this
  obtain ⟨rfl, hn, hc, rfl, rfl, rfl, rfl, rfl, rfl, rfl, rfl, rfl, rfl, rfl, rfl⟩ := this
  cases e
  cases e'
  simp only [Entry.mk.injEq]
  exact ⟨number_unique h2 k2, hn, hc, number_unique h3 k3, mapping_unique h4 k4, optional_unique h5 k5, optional_unique h6 k6⟩

/-- A text of UnicodeData.txt says one thing. -/
theorem unicodeData_unique {text : Str} {es es' : List Entry} (h : UnicodeData text es) (h' : UnicodeData text es') : es = es' := by
  obtain ⟨ls, h1, h2⟩ := h
  obtain ⟨ls', h3, h4⟩ := h'
  obtain rfl := lines_unique h1 h3
  clear h1 h3
  induction h2 generalizing es' with
  | nil => cases h4; rfl
  | cons hab _ ih =>
    cases h4 with
    | cons hab' hr => rw [says_unique hab hab', ih hr]

/-- Lines of CompositionExclusions.txt say one thing. -/
theorem exclusions_unique {ls : List Str} {ns ns' : List Nat} (h : Exclusions ls ns) (h' : Exclusions ls ns') : ns = ns' := by
  induction h generalizing ns' with
  | nil => cases h'; rfl
  | quiet l ls ns hl _ ih =>
    cases h' with
    | quiet _ _ _ _ hr => exact ih hr
    | line _ _ n _ hl' _ =>
      have h1 := (parseExclusion_quiet hl).symm.trans (parseExclusion_excludes hl')
      cases h1
  | line l ls n ns hl _ ih =>
    cases h' with
    | quiet _ _ _ hl' _ =>
      have h1 := (parseExclusion_quiet hl').symm.trans (parseExclusion_excludes hl)
      cases h1
    | line _ _ m _ hl' hr =>
      have h1 := (parseExclusion_excludes hl).symm.trans (parseExclusion_excludes hl')
      cases h1
      rw [ih hr]

theorem qcOf_inj {q q' : Quick} (h : qcOf q = qcOf q') : q = q' := by
  obtain ⟨lo, hi, p, v⟩ := q
  obtain ⟨lo', hi', p', v'⟩ := q'
  simp only [qcOf, QcLine.mk.injEq] at h
  obtain ⟨h1, rfl, rfl, h2⟩ := h
  have : p = p' := by revert h1; cases p <;> cases p' <;> decide
  have : v = v' := by revert h2; cases v <;> cases v' <;> decide
  simp_all

/-- Lines of DerivedNormalizationProps.txt say one thing. -/
theorem checking_unique {ls : List Str} {qs qs' : List Quick} (h : Checking ls qs) (h' : Checking ls qs') : qs = qs' := by
  induction h generalizing qs' with
  | nil => cases h'; rfl
  | other l ls qs hl _ ih =>
    cases h' with
    | other _ _ _ _ hr => exact ih hr
    | line _ _ q _ hl' _ => cases Except.ok.inj ((parseQc_elsewhere (q.hi + 1) hl).symm.trans (parseQc_checks hl' (Nat.lt_succ_self _)))
  | line l ls q qs hl _ ih =>
    cases h' with
    | other _ _ _ hl' _ => cases Except.ok.inj ((parseQc_elsewhere (q.hi + 1) hl').symm.trans (parseQc_checks hl (Nat.lt_succ_self _)))
    | line _ _ q' _ hl' hr =>
      rw [qcOf_inj (Option.some.inj (Except.ok.inj ((parseQc_checks (n := q.hi + q'.hi + 1) hl (by omega)).symm.trans (parseQc_checks hl' (by omega))))), ih hr]

end Verif.PyGen

/-! ### IdnaMappingTable.txt -/

namespace Verif.IdnaGen
open Verif.Spec.IdnaTable Verif.Spec.Charstr

theorem hex_unique {s : List UInt8} {v w : Nat} (h : Hex s v) (h' : Hex s w) : v = w := by
  have h1 := hexRun_append h [0]
  rw [hexRun_append h' [0]] at h1
  exact (Except.ok.inj h1).symm

theorem hexes_unique {ws : List (List UInt8)} {v w : List Nat} (h : List.Forall₂ Hex ws v) (h' : List.Forall₂ Hex ws w) : v = w := by
  induction h generalizing w with
  | nil => cases h'; rfl
  | cons hab _ ih =>
    cases h' with
    | cons hab' hr => rw [hex_unique hab hab', ih hr]

theorem before_unique {x : UInt8} {a b a' b' : List UInt8} (h : a ++ b = a' ++ b') (ha : x ∉ a) (ha' : x ∉ a') (hb : ∀ c ∈ b.head?, c = x)
    (hb' : ∀ c ∈ b'.head?, c = x) : a = a' ∧ b = b' := by
  have key : ∀ {a b : List UInt8}, x ∉ a → (∀ c ∈ b.head?, c = x) → (a ++ b).takeWhile (· != x) = a := by
    intro a b ha hb
    rw [List.takeWhile_append_of_pos (by intro c hc; simp only [bne_iff_ne]; rintro rfl; exact ha hc)]
    cases b with
    | nil => simp
    | cons c b => simp [hb c (by simp)]
  have : a = a' := by rw [← key ha hb, h, key ha' hb']
  subst this
  exact ⟨rfl, List.append_cancel_left h⟩

theorem hex_dot {s : List UInt8} {v : Nat} (h : Hex s v) : (46 : UInt8) ∉ s := fun h' => h.chars 46 h' (by decide)

theorem range_unique {s : List UInt8} {lo hi lo' hi' : Nat} (h : Range s lo hi) (h' : Range s lo' hi') : lo = lo' ∧ hi = hi' := by
  obtain ⟨r, h1, h2⟩ := h
  obtain ⟨r', h3, h4⟩ := h'
  obtain rfl := Charstr.stripped_unique _ _ _ _ h1 h3
  rcases h2 with ⟨h2, rfl⟩ | ⟨a, b, rfl, h5, h6⟩ <;> rcases h4 with ⟨h4, rfl⟩ | ⟨a', b', h7, h8, h9⟩
  · obtain rfl := hex_unique h2 h4
    exact ⟨rfl, rfl⟩
  · exact absurd (by rw [h7]; simp) (hex_dot h2)
  · exact absurd (by simp) (hex_dot h4)
  · rw [List.append_assoc, List.append_assoc] at h7
    obtain ⟨rfl, e⟩ := before_unique h7 (hex_dot h5) (hex_dot h8) (by simp) (by simp)
    obtain rfl := List.append_cancel_left e
    exact ⟨hex_unique h5 h8, hex_unique h6 h9⟩

theorem line_unique {line : List UInt8} {l l' : Line} (h : Says line l) (h' : Says line l') : l = l' := by
  obtain ⟨body, comment, range, status, fields, h1, h2, h3, _, h4, h5, _, h6, h7, _, h8⟩ := h
  obtain ⟨body', comment', range', status', fields', k1, k2, k3, _, k4, k5, _, k6, k7, _, k8⟩ := h'
  obtain ⟨rfl, rfl⟩ := before_unique (h1.symm.trans k1) h3 k3 h2 k2
  have e : range :: status :: fields = range' :: status' :: fields' := by
    rw [← List.splitOn_intercalate 59 h5 (by simp), ← List.splitOn_intercalate 59 k5 (by simp), ← h4, ← k4]
  simp only [List.cons.injEq] at e
  obtain ⟨rfl, rfl, rfl⟩ := e
  obtain ⟨lo, hi, st, m⟩ := l
  obtain ⟨lo', hi', st', m'⟩ := l'
  simp only at h6 h7 h8 k6 k7 k8
  obtain ⟨rfl, rfl⟩ := range_unique h6 k6
  obtain rfl := Charstr.stripped_unique _ _ _ _ h7 k7
  rcases h8 with ⟨rfl, rfl⟩ | ⟨f, fs, v, rfl, rfl, as, h8, h9⟩ <;> rcases k8 with ⟨k, rfl⟩ | ⟨f', fs', v', k, rfl, as', k8, k9⟩
  · rfl
  · cases k
  · cases k
  · cases k
    obtain rfl := (Charstr.atoms_unique _ _ _ _ h8 k8).1
    rw [hexes_unique h9 k9]

theorem silent_says {line : List UInt8} {l : Line} (h : Silent line) (h' : Says line l) : False := by
  obtain ⟨body, comment, h1, h2, h3, _, h4⟩ := h
  obtain ⟨body', comment', range, status, fields, k1, k2, k3, _, k4, _⟩ := h'
  obtain ⟨rfl, rfl⟩ := before_unique (h1.symm.trans k1) h3 k3 h2 k2
  exact h4 (by rw [k4]; simp [List.intercalate, List.intersperse])

/-- Lines of IdnaMappingTable.txt say one thing. -/
theorem file_unique {lines : List (List UInt8)} {ls ls' : List Line} (h : File lines ls) (h' : File lines ls') : ls = ls' := by
  induction h generalizing ls' with
  | nil => cases h'; rfl
  | silent _ _ _ hl _ ih =>
    cases h' with
    | silent _ _ _ _ hr => exact ih hr
    | line _ _ _ _ hl' _ => exact (silent_says hl hl').elim
  | line _ _ _ _ hl _ ih =>
    cases h' with
    | silent _ _ _ hl' _ => exact (silent_says hl' hl).elim
    | line _ _ _ _ hl' hr => rw [line_unique hl hl', ih hr]

end Verif.IdnaGen
