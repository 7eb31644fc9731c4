import Verif.Proofs.PyText
import Verif.Proofs.Case
import Verif.Model.PyGen

/-! The generators on the texts of data files. -/

set_option autoImplicit false

namespace Verif.PyGen
open Verif.Py
open Verif.Categorize hiding Entry
open Verif.Spec.DataFiles hiding Str Range

theorem mapM_ok {α β γ : Type} {R : α → β → Prop} {f : α → C γ} {g : β → γ} (h : ∀ a b, R a b → f a = .ok (g b)) {as : List α} {bs : List β}
    (hr : List.Forall₂ R as bs) : as.mapM f = .ok (bs.map g) := by
  induction hr with
  | nil => rfl
  | cons hab _ ih =>
    rw [List.mapM_cons, h _ _ hab, ih]
    rfl

/-- How the name of an entry ends. -/
def kindOf (e : Entry) : Kind := if endsWith e.name [',', ' ', 'L', 'a', 's', 't', '>'] then .last else if endsWith e.name [',', ' ', 'F', 'i', 'r', 's', 't', '>'] then .first else .plain

/-- The fields that `parse` finds. -/
def recOf (e : Entry) : Rec Str := ⟨e.cp, kindOf e, e.cat⟩

theorem kind_last {e : Entry} : kindOf e = .last ↔ e.Last := by
  rw [kindOf, Entry.Last]
  split <;> simp_all [endsWith]
  split <;> simp

theorem not_both {e : Entry} (h1 : e.First) (h2 : e.Last) : False := by
  obtain ⟨a, ha⟩ := h1
  obtain ⟨b, hb⟩ := h2
  rw [← hb] at ha
  have := congrArg (fun l => l.reverse.take 4) ha
  simp at this

theorem kind_first {e : Entry} : kindOf e = .first ↔ e.First := by
  by_cases h : e.Last
  · have h1 := kind_last.2 h
    rw [h1]
    exact ⟨fun h => (by cases h), fun h1 => (not_both h1 h).elim⟩
  · have h1 := mt kind_last.1 h
    rw [Entry.First]
    rw [kindOf] at h1 ⊢
    split
    · rename_i h2; rw [if_pos h2] at h1; exact absurd rfl h1
    · split <;> simp_all [endsWith]

theorem kind_plain {e : Entry} : kindOf e = .plain ↔ ¬ e.First ∧ ¬ e.Last := by
  rw [← kind_first, ← kind_last]
  cases kindOf e <;> simp

variable {line : Str} {e : Entry}

theorem parse_says (h : Says line e) : parse (line ++ ['\n']) = .ok (recOf e) := by
  obtain ⟨f0, f3, f4, f5, f6, f7, f8, f9, f10, f11, f12, f13, f14, ⟨_, h1, rfl⟩, h2, _⟩ := h
  obtain ⟨r, hr⟩ := splitMax_fields (t := ['\n']) h1
  rw [parse, hr]
  simp only [nat_number h2]
  rfl

theorem field_says {fs : List Str} (h : Fields line fs) {i : Nat} {f : Str} (hi : i + 1 < fs.length) (hf : fs[i]? = some f) :
    item (split ';' (line ++ ['\n'])) i = .ok f := by
  obtain ⟨_, h1, rfl⟩ := h
  rw [item, split_item h1 hi, hf]

theorem caseField_says {fs : List Str} (h : Fields line fs) {i : Nat} {f : Str} (hi : i + 1 < fs.length) (hf : fs[i]? = some f) {v : Option Nat}
    (hv : Optional f v) : caseField (line ++ ['\n']) i = .ok v := by
  rw [caseField, field_says h hi hf]
  obtain ⟨rfl, rfl⟩ | ⟨n, rfl, hn⟩ := hv
  · simp only [Except.bind, bind, int_empty]
  · simp only [Except.bind, bind, int_number hn]
    rfl

theorem parseLower_says (h : Says line e) :
    parseLower (line ++ ['\n']) = .ok ⟨recOf e, if e.cat = ['L', 'u'] then e.lower else none, none⟩ := by
  rw [parseLower, parse_says h]
  obtain ⟨f0, f3, f4, f5, f6, f7, f8, f9, f10, f11, f12, f13, f14, h1, _, _, _, _, h13⟩ := h
  have := caseField_says h1 (i := 13) (f := f13) (by simp) rfl h13
  simp only [bind, Except.bind, recOf]
  split <;> simp_all

theorem parseUpper_says (h : Says line e) :
    parseUpper (line ++ ['\n']) = .ok ⟨recOf e, none, if e.cat = ['L', 'l'] then e.upper else none⟩ := by
  rw [parseUpper, parse_says h]
  obtain ⟨f0, f3, f4, f5, f6, f7, f8, f9, f10, f11, f12, f13, f14, h1, _, _, _, h12, _⟩ := h
  have := caseField_says h1 (i := 12) (f := f12) (by simp) rfl h12
  simp only [bind, Except.bind, recOf]
  split <;> simp_all

theorem parseCcc_says (h : Says line e) : parseCcc (line ++ ['\n']) = .ok (recOf e, e.ccc) := by
  rw [parseCcc, parse_says h]
  obtain ⟨f0, f3, f4, f5, f6, f7, f8, f9, f10, f11, f12, f13, f14, h1, _, h3, _⟩ := h
  have := field_says h1 (i := 3) (f := f3) (by simp) rfl
  simp only [bind, Except.bind, this, nat_number h3]

theorem parseDecomp_says (h : Says line e) : parseDecomp (line ++ ['\n']) = .ok (e.cp, e.dec) := by
  obtain ⟨f0, f3, f4, f5, f6, f7, f8, f9, f10, f11, f12, f13, f14, h1, h0, _, h5, _⟩ := h
  have g0 := field_says h1 (i := 0) (f := f0) (by simp) rfl
  have g5 := field_says h1 (i := 5) (f := f5) (by simp) rfl
  simp only [parseDecomp, bind, Except.bind, g0, g5, nat_number h0]
  obtain ⟨rfl, hd⟩ | ⟨t, rfl, hd⟩ | ⟨ws, ns, h6, h7, rfl, hd⟩ := h5
  · simp only [hd]
  · simp only [hd]
  · have hw : ∀ w ∈ ws, w ≠ [] ∧ Digits w := by
      intro w hw
      obtain ⟨i, hi, rfl⟩ := List.getElem_of_mem hw
      have := h7.get hi (by rw [← h7.length_eq]; exact hi)
      exact ⟨(number_digits this).2, (number_digits this).1⟩
    have hj : words (List.intercalate [' '] ws) = ws := words_join (fun w h => ⟨(hw w h).1, digits_nospace (hw w h).2⟩) h6
    have hm : ws.mapM (fun w => nat w 16) = .ok (ns.map id) := mapM_ok (g := id) (fun a b h => nat_number h) h7
    have hhead : ∃ c s, List.intercalate [' '] ws = c :: s ∧ c ≠ '<' := by
      obtain ⟨w, ws, rfl⟩ := List.exists_cons_of_ne_nil h6
      obtain ⟨g1, g2⟩ := hw w (by simp)
      obtain ⟨c, s, rfl⟩ := List.exists_cons_of_ne_nil g1
      refine ⟨c, s ++ (List.intercalate [' '] ([] :: ws)), ?_, ?_⟩
      · cases ws <;> simp [List.intercalate, List.intersperse]
      · rintro rfl
        obtain ⟨d, hd⟩ := g2 '<' (by simp)
        cases hd
    obtain ⟨c, s, h8, h9⟩ := hhead
    rw [h8] at hj ⊢
    split
    · rename_i h10; cases h10
    · rename_i h10; cases h10; exact absurd rfl h9
    · rw [hj, hm]
      simp [hd]

variable {text : Str} {es : List Entry}

theorem mapM_data {γ : Type} {f : Str → C γ} {g : Entry → γ} (hf : ∀ l e, Says l e → f (l ++ ['\n']) = .ok (g e)) (h : UnicodeData text es) :
    (lines text).mapM f = .ok (es.map g) := by
  obtain ⟨ls, h1, h2⟩ := h
  rw [lines_text h1]
  have : List.Forall₂ (fun l e => ∃ k, l = k ++ ['\n'] ∧ Says k e) (ls.map (· ++ ['\n'])) es := by
    rw [List.forall₂_map_left_iff]
    exact h2.imp fun a b h => ⟨a, rfl, h⟩
  refine mapM_ok ?_ this
  rintro a b ⟨k, rfl, hk⟩
  exact hf k b hk

theorem paired_of (h : Ranged es) : Paired (es.map recOf) := by
  induction h with
  | nil => trivial
  | single e es h1 h2 h ih =>
    cases es with
    | nil => exact kind_plain.2 ⟨h1, h2⟩
    | cons a es => exact Or.inl ⟨kind_plain.2 ⟨h1, h2⟩, ih⟩
  | range a b es h1 h2 hc h ih => exact Or.inr ⟨kind_first.2 h1, kind_last.2 h2, hc, ih⟩

theorem ordered_of (h : Ascending es) : Ordered (es.map recOf) := by
  rw [Ordered, List.pairwise_map]
  exact h

theorem assigned_iff (cp : Int) (c : Str) : Assigned (es.map recOf) cp c ↔ HasCategory es cp c := by
  rw [Assigned, HasCategory]
  refine or_congr ?_ ⟨?_, ?_⟩
  · simp [recOf]
  · rintro ⟨f, l, ⟨s, t, h⟩, h1, h2, h3, h4, h5⟩
    rw [List.append_assoc, eq_comm, List.map_eq_append_iff] at h
    obtain ⟨x, y, rfl, _, h⟩ := h
    rw [List.map_eq_append_iff] at h
    obtain ⟨z, w, rfl, h, _⟩ := h
    match z, h with
    | [a, b], h =>
      simp only [List.map_cons, List.map_nil, List.cons.injEq, and_true] at h
      obtain ⟨rfl, rfl⟩ := h
      exact ⟨a, b, ⟨x, w, by simp⟩, kind_first.1 h1, kind_last.1 h2, h3, h4, h5⟩
  · rintro ⟨a, b, ⟨s, t, h⟩, h1, h2, h3, h4, h5⟩
    exact ⟨recOf a, recOf b, ⟨s.map recOf, t.map recOf, by rw [← h]; simp⟩, kind_first.2 h1, kind_last.2 h2, h3, h4, h5⟩

theorem categorize_data (n : Nat) (h : UnicodeData text es) : categorizeText n text = Categorize.main n (es.map recOf) := by
  rw [categorizeText, mapM_data (fun l e => parse_says) h]
  rfl

theorem compile_distinct {α : Type} {cases : List (Nat × α)} (h : (cases.map Prod.fst).Nodup) :
    ∃ f, compile cases = .ok f ∧ (∀ c ∈ cases, f c.1 = some c.2) ∧ ∀ n, (∀ c ∈ cases, c.1 ≠ n) → f n = none := by
  refine ⟨_, if_pos h, ?_, ?_⟩
  · intro c hc
    induction cases with
    | nil => cases hc
    | cons x cases ih =>
      rw [List.map_cons, List.nodup_cons] at h
      rcases List.mem_cons.1 hc with rfl | hc
      · simp
      · have hne : x.1 ≠ c.1 := by
          intro e
          exact h.1 (List.mem_map.2 ⟨c, hc, e.symm⟩)
        rw [List.find?_cons_of_neg (by simpa using hne)]
        exact ih h.2 hc
  · intro n hn
    rw [Option.map_eq_none_iff, List.find?_eq_none]
    intro x hx
    simpa using hn x hx

theorem cases_nodup {want : Str} {field : CaseRec Str → Option Nat} {g : Entry → CaseRec Str} (hg : ∀ e, (g e).cp = e.cp) (h : Ascending es) :
    (((es.map g).filterMap (caseOf want field)).map Prod.fst).Nodup := by
  have hs : List.Sublist ((((es.map g).filterMap (caseOf want field)).map Prod.fst)) (es.map Entry.cp) := by
    clear h
    induction es with
    | nil => exact List.Sublist.slnil
    | cons e es ih =>
      rw [List.map_cons, List.filterMap_cons, List.map_cons]
      split
      · exact ih.cons _
      · rename_i b hb
        rw [caseOf] at hb
        split at hb
        · rw [Option.map_eq_some_iff] at hb
          obtain ⟨a, _, rfl⟩ := hb
          rw [List.map_cons, hg]
          exact ih.cons_cons _
        · cases hb
  refine hs.nodup ?_
  rw [List.Nodup, List.pairwise_map]
  exact h.imp fun h => by omega

theorem cccLoop_spec : ∀ (n : Nat) (rs : List (Rec Str × Nat)), rs.length ≤ n → Paired (rs.map Prod.fst) →
    cccLoop rs none = .ok (rs.map fun r => (r.1.cp, r.2)) := by
  intro n
  induction n with
  | zero =>
    intro rs h _
    have : rs = [] := by simpa using h
    subst this
    rfl
  | succ n ih =>
    intro rs hlen hp
    match rs with
    | [] => rfl
    | [(r, k)] =>
      have hk : r.kind = .plain := hp
      simp [cccLoop, hk]
    | (r, k) :: (l, k') :: rest =>
      obtain ⟨hk, hp⟩ | ⟨hk, hkl, hc, hp⟩ := hp
      · have := ih ((l, k') :: rest) (by simpa using hlen) hp
        dsimp only at hk
        rw [cccLoop]
        simp [hk, this]
      · have := ih rest (by simp at hlen; omega) hp
        dsimp only at hk hkl hc
        rw [cccLoop, cccLoop]
        simp [hk, hkl, hc, this]

/-! ## CompositionExclusions.txt -/

theorem parseExclusion_excludes {n : Nat} (h : Excludes line n) : parseExclusion (line ++ ['\n']) = .ok (some n) := by
  obtain ⟨pre, w, post, rfl, h1, h2, h3⟩ := h
  obtain ⟨h4, h5⟩ := number_digits h2
  obtain ⟨p, ⟨q, hq⟩, hs⟩ := strip_front (post := post ++ ['\n']) h5 (digits_nospace h4) (fun c hc => blank_space (h1 c hc))
  rw [← List.append_assoc] at hs
  have hp : ∀ c ∈ p.head?, isSpace c = true := by
    intro c hc
    cases p with
    | nil => cases hc
    | cons x p =>
      rw [List.head?_cons, Option.mem_some] at hc
      subst hc
      cases post with
      | nil =>
        rw [List.cons_append, List.nil_append, List.cons.injEq] at hq
        rw [hq.1]
        decide
      | cons y post =>
        rw [List.cons_append, List.cons_append, List.cons.injEq] at hq
        rw [hq.1]
        exact blank_space (h3 y (by simp))
  obtain ⟨ws, hw⟩ := words_first (digits_nospace h4) h5 hp
  obtain ⟨x, w', rfl⟩ := List.exists_cons_of_ne_nil h5
  have hx : x ≠ '#' := by
    rintro rfl
    obtain ⟨d, hd⟩ := h4 '#' (by simp)
    cases hd
  rw [parseExclusion, hs]
  split
  · rename_i h; simp at h
  · rename_i h; rw [List.cons_append, List.cons.injEq] at h; exact absurd h.1 hx
  · rw [hw]
    simp [item, nat_number h2, bind, Except.bind]

theorem parseExclusion_quiet (h : Quiet line) : parseExclusion (line ++ ['\n']) = .ok none := by
  obtain ⟨pre, post, rfl, h1, h2⟩ := h
  cases post with
  | nil =>
    have := strip_ends (s := []) (pre := pre) (post := ['\n']) (by simp) (by simp) (fun c hc => blank_space (h1 c hc)) (by decide)
    rw [parseExclusion, this]
  | cons x post =>
    have hx : x = '#' := h2 x (by simp)
    subst hx
    obtain ⟨p, _, hs⟩ := strip_front (w := ['#']) (post := post ++ ['\n']) (by simp) (by decide) (fun c hc => blank_space (h1 c hc))
    rw [parseExclusion, show pre ++ '#' :: post ++ ['\n'] = pre ++ ['#'] ++ (post ++ ['\n']) by simp, hs]
    rfl

theorem exclusions_says {ls : List Str} {ns : List Nat} (h : Exclusions ls ns) :
    ∃ ex, (ls.map (· ++ ['\n'])).mapM parseExclusion = .ok ex ∧ ex.filterMap id = ns := by
  induction h with
  | nil => exact ⟨[], rfl, rfl⟩
  | quiet l ls ns h _ ih =>
    obtain ⟨ex, h1, h2⟩ := ih
    exact ⟨none :: ex, by rw [List.map_cons, List.mapM_cons, parseExclusion_quiet h, h1]; rfl, by simpa using h2⟩
  | line l ls n ns h _ ih =>
    obtain ⟨ex, h1, h2⟩ := ih
    exact ⟨some n :: ex, by rw [List.map_cons, List.mapM_cons, parseExclusion_excludes h, h1]; rfl, by simpa using h2⟩

theorem pairsOf_spec (ex : List Nat) {ds : List (Nat × List Nat)} (h : ∀ d ∈ ds, d.2.length ≤ 2) :
    ∃ ps, pairsOf ex ds = .ok ps ∧ ∀ s c, (ps.reverse.find? fun p => p.1 == (s, c)).map Prod.snd =
      (ds.reverse.find? fun d => d.2 == [s, c] && !ex.contains d.1).map Prod.fst := by
  induction ds with
  | nil => exact ⟨[], rfl, fun _ _ => rfl⟩
  | cons d ds ih =>
    obtain ⟨ps, h1, h2⟩ := ih fun d hd => h d (List.mem_cons_of_mem _ hd)
    have hl := h d (by simp)
    obtain ⟨cp, d⟩ := d
    dsimp only at hl
    by_cases h3 : d.length < 2
    · have hp : pairsOf ex ((cp, d) :: ds) = .ok ps := by
        match d, h3 with
        | [], _ => simp [pairsOf, h1]
        | [_], _ => simp [pairsOf, h1]
      refine ⟨ps, hp, fun s c => ?_⟩
      rw [h2, List.reverse_cons, List.find?_append]
      have : (d == [s, c]) = false := by
        rw [beq_eq_false_iff_ne]
        rintro rfl
        simp at h3
      simp [this]
    · match d, hl, h3 with
      | [], _, h3 => simp at h3
      | [_], _, h3 => simp at h3
      | [a, b], _, _ =>
        by_cases h4 : cp ∈ ex
        · refine ⟨ps, by rw [pairsOf, if_neg (by simp), h1]; simp [h4, bind, Except.bind], fun s c => ?_⟩
          rw [h2, List.reverse_cons, List.find?_append]
          simp [h4]
        · refine ⟨((a, b), cp) :: ps, by rw [pairsOf, if_neg (by simp), h1]; simp [h4, bind, Except.bind], fun s c => ?_⟩
          have := h2 s c
          rw [List.reverse_cons, List.find?_append, List.reverse_cons, List.find?_append]
          generalize ps.reverse.find? (fun p => p.1 == (s, c)) = x at this ⊢
          generalize ds.reverse.find? (fun d => d.2 == [s, c] && !ex.contains d.1) = y at this ⊢
          cases x with
          | some x => cases y with
            | some y => simpa using this
            | none => cases this
          | none => cases y with
            | some y => cases this
            | none =>
              by_cases h5 : a = s ∧ b = c <;> simp [h4, h5]

/-! ## DerivedNormalizationProps.txt -/

/-- The index of a property in `qcTypes`. -/
def index : Prop4 → Nat
  | .nfc => 0
  | .nfd => 1
  | .nfkc => 2
  | .nfkd => 3

/-- The line that `parseQc` finds. -/
def qcOf (q : Quick) : QcLine := ⟨index q.prop, q.lo, q.hi, q.value.name⟩

theorem body_says {body : Str} (h : Body line body) : ∃ t, (∀ c ∈ t, c = '\n') ∧
    (if '#' ∈ line ++ ['\n'] then (line ++ ['\n']).takeWhile (· ≠ '#') else line ++ ['\n']) = body ++ t := by
  obtain ⟨comment, rfl, h1, h2⟩ := h
  cases comment with
  | nil => exact ⟨['\n'], by simp, by rw [if_neg (by simpa using h1), List.append_nil]⟩
  | cons x comment =>
    have hx : x = '#' := h2 x (by simp)
    subst hx
    refine ⟨[], by simp, ?_⟩
    rw [if_pos (by simp), List.append_assoc, List.takeWhile_append_of_pos]
    · simp
    · intro c hc
      rw [decide_eq_true_eq]
      rintro rfl
      exact h1 hc

theorem alpha_nospace {c : Char} (h : c.isAlpha = true) : isSpace c = false := by
  simp only [Char.isAlpha, Char.isUpper, Char.isLower, Bool.or_eq_true, Bool.and_eq_true, decide_eq_true_eq, UInt32.le_iff_toNat_le, ge_iff_le] at h
  have e : c.val.toNat = c.toNat := rfl
  rw [e] at h
  simp only [show ('A'.val.toNat : Nat) = 65 from rfl, show ('Z'.val.toNat : Nat) = 90 from rfl, show ('a'.val.toNat : Nat) = 97 from rfl,
    show ('z'.val.toNat : Nat) = 122 from rfl] at h
  simp only [isSpace, Bool.or_eq_false_iff, Bool.and_eq_false_iff, decide_eq_false_iff_not, beq_eq_false_iff_ne]
  omega

theorem strip_padded {s t : Str} (h : Padded s t) (h1 : ∀ c ∈ t.head?, isSpace c = false) (h2 : ∀ c ∈ t.getLast?, isSpace c = false) : strip s = t := by
  obtain ⟨pre, post, rfl, h3, h4⟩ := h
  exact strip_ends h1 h2 (fun c hc => blank_space (h3 c hc)) (fun c hc => blank_space (h4 c hc))

theorem name_mem (p : Prop4) : p.name ∈ qcTypes ∧ qcTypes.idxOf p.name = index p := by
  cases p <;> decide

theorem mem_types {s : Str} (h : s ∈ qcTypes) : ∃ p : Prop4, s = p.name := by
  simp only [qcTypes, List.mem_cons, List.not_mem_nil, or_false] at h
  obtain h | h | h | h := h
  · exact ⟨.nfc, h⟩
  · exact ⟨.nfd, h⟩
  · exact ⟨.nfkc, h⟩
  · exact ⟨.nfkd, h⟩

theorem parseQc_elsewhere (n : Nat) (h : Elsewhere line) : parseQc n (line ++ ['\n']) = .ok none := by
  obtain ⟨body, fs, h1, ⟨hne, h2, rfl⟩, h3⟩ := h
  obtain ⟨t, ht, hb⟩ := body_says h1
  rw [parseQc, hb]
  split
  · rename_i u k v huv
    rw [if_neg]
    intro hk
    obtain ⟨pre, post, hs, hpre, hpost⟩ := strip_decomp (List.intercalate [';'] fs ++ t)
    have hj := join_split ';' (strip (List.intercalate [';'] fs ++ t))
    rw [huv] at hj
    have hp : ∀ x ∈ [u, k, v], ';' ∉ x := fun x hx => split_pieces (huv ▸ hx)
    have hspace : ∀ s : Str, (∀ c ∈ s, isSpace c = true) → ';' ∉ s := by
      intro s hs hc
      have := hs _ hc
      revert this
      decide
    have hall : List.intercalate [';'] fs ++ t = List.intercalate [';'] [pre ++ u, k, v ++ post] := by
      rw [hs, ← hj]
      simp [intercalate_cons, intercalate_single]
    have hall := congrArg (split ';') hall
    rw [split_fields (by simp)] at hall
    · have htn : ';' ∉ t := by
        intro hc
        have := ht _ hc
        revert this
        decide
      match fs, hne, h2, h3, hall with
      | [a], _, h2, _, hall =>
        rw [intercalate_single, split_none (by simpa [htn] using h2)] at hall
        simp at hall
      | [a, b], _, h2, _, hall =>
        simp only [intercalate_cons, intercalate_single, List.append_assoc, List.cons_append, List.nil_append] at hall
        rw [split_cons (h2 a (by simp)), split_none (by simpa [htn] using h2 b (by simp))] at hall
        simp at hall
      | [a, b, c], _, h2, h3, hall =>
        simp only [intercalate_cons, intercalate_single, List.append_assoc, List.cons_append, List.nil_append] at hall
        rw [split_cons (h2 a (by simp)), split_cons (h2 b (by simp)), split_none (by simpa [htn] using h2 c (by simp))] at hall
        simp only [List.cons.injEq, and_true] at hall
        obtain ⟨q, h4, h5, h6, h7⟩ := h3 b rfl
        rw [← hall.2.1, strip_padded h4 (fun c hc => alpha_nospace (h5 c hc)) (fun c hc => alpha_nospace (h6 c hc))] at hk
        obtain ⟨p, hp⟩ := mem_types hk
        exact h7 p hp
      | a :: b :: c :: d :: fs, _, h2, _, hall =>
        simp only [intercalate_cons, List.append_assoc, List.cons_append, List.nil_append] at hall
        rw [split_cons (h2 a (by simp)), split_cons (h2 b (by simp)), split_cons (h2 c (by simp))] at hall
        simp only [List.cons.injEq] at hall
        exact split_ne_nil _ _ hall.2.2.2
    · intro x hx
      simp only [List.mem_cons, List.not_mem_nil, or_false] at hx
      obtain rfl | rfl | rfl := hx
      · simpa [hspace pre hpre] using hp u (by simp)
      · exact hp _ (by simp)
      · simpa [hspace post hpost] using hp v (by simp)
  · rfl

theorem parseQc_checks {n : Nat} {q : Quick} (h : Checks line q) (hn : q.hi < n) : parseQc n (line ++ ['\n']) = .ok (some (qcOf q)) := by
  obtain ⟨body, r, p, v, h1, ⟨_, h2, rfl⟩, ⟨core, ⟨pre, post, rfl, h3, h4⟩, h5⟩, h6, ⟨vpre, vpost, rfl, h7, h8⟩⟩ := h
  obtain ⟨t, ht, hb⟩ := body_says h1
  have hcore : ∀ c ∈ core.head?, isSpace c = false := by
    intro c hc
    obtain ⟨h5, _⟩ | ⟨a, b, rfl, h5, _⟩ := h5
    · exact digits_nospace (number_digits h5).1 c (List.mem_of_mem_head? hc)
    · obtain ⟨g1, g2⟩ := number_digits h5
      obtain ⟨x, a, rfl⟩ := List.exists_cons_of_ne_nil g2
      simp only [List.cons_append, List.head?_cons, Option.mem_some] at hc
      exact digits_nospace g1 c (by simp [hc])
  have hne : core ≠ [] := by
    rintro rfl
    obtain ⟨h5, _⟩ | ⟨a, b, h5, _⟩ := h5
    · exact (number_digits h5).2 rfl
    · simp at h5
  have hstrip : strip (List.intercalate [';'] [pre ++ core ++ post, p, vpre ++ q.value.name ++ vpost] ++ t) =
      List.intercalate [';'] [core ++ post, p, vpre ++ q.value.name] := by
    have : List.intercalate [';'] [pre ++ core ++ post, p, vpre ++ q.value.name ++ vpost] ++ t =
        pre ++ List.intercalate [';'] [core ++ post, p, vpre ++ q.value.name] ++ (vpost ++ t) := by
      simp [intercalate_cons, intercalate_single]
    rw [this]
    refine strip_ends ?_ ?_ (fun c hc => blank_space (h3 c hc)) ?_
    · intro c hc
      obtain ⟨x, core, rfl⟩ := List.exists_cons_of_ne_nil hne
      simp only [intercalate_cons, List.cons_append, List.head?_cons, Option.mem_some] at hc
      exact hcore c (by simp [hc])
    · intro c hc
      have hv : q.value.name ≠ [] := by cases q.value <;> simp [Value.name]
      simp only [intercalate_cons, intercalate_single, ← List.append_assoc] at hc
      rw [List.getLast?_append_of_ne_nil _ hv] at hc
      cases hq : q.value <;> rw [hq] at hc <;> simp [Value.name] at hc <;> subst hc <;> decide
    · intro c hc
      obtain hc | hc := List.mem_append.1 hc
      · exact blank_space (h8 c hc)
      · rw [ht c hc]; decide
  have hsplit : split ';' (List.intercalate [';'] [core ++ post, p, vpre ++ q.value.name]) = [core ++ post, p, vpre ++ q.value.name] := by
    refine split_fields (by simp) ?_
    intro x hx
    simp only [List.mem_cons, List.not_mem_nil, or_false] at hx
    have g1 := h2 (pre ++ core ++ post) (by simp)
    have g2 := h2 p (by simp)
    have g3 := h2 (vpre ++ q.value.name ++ vpost) (by simp)
    simp only [List.mem_append, not_or] at g1 g3
    obtain rfl | rfl | rfl := hx
    · simp [g1]
    · exact g2
    · simp [g3]
  have hname : strip p = q.prop.name := by
    refine strip_padded h6 ?_ ?_ <;> cases q.prop <;> decide
  have hval : strip (vpre ++ q.value.name) = q.value.name := by
    refine strip_padded ⟨vpre, [], by simp, h7, by simp⟩ ?_ ?_ <;> cases q.value <;> decide
  have hdot : ∀ s : Str, Digits s → '.' ∉ s := by
    intro s hs hc
    obtain ⟨d, hd⟩ := hs _ hc
    cases hd
  have hdotb : '.' ∉ post := by
    intro hc
    obtain h | h := h4 _ hc <;> revert h <;> decide
  rw [parseQc, hb, hstrip, hsplit]
  dsimp only
  rw [if_pos (hname ▸ (name_mem q.prop).1), hname, (name_mem q.prop).2, hval]
  obtain ⟨h5, h9⟩ | ⟨a, b, rfl, h5, h9⟩ := h5
  · have hd := splitDots_none (s := core ++ post) (by simp [hdot _ (number_digits h5).1, hdotb])
    rw [hd.2]
    have := nat_padded h5 (t := core ++ post) ⟨[], post, by simp, by simp, h4⟩
    simp only [Bool.false_eq_true, if_false, this, bind, Except.bind]
    rw [if_neg (by omega), qcOf, h9]
  · have hd := splitDots_two (a := a) (b := b ++ post) (hdot _ (number_digits h5).1) (by simp [hdot _ (number_digits h9).1, hdotb])
    rw [← List.append_assoc] at hd
    have e1 := nat_number h5
    have e2 := nat_padded h9 (t := b ++ post) ⟨[], post, by simp, by simp, h4⟩
    rw [hd.2, hd.1]
    simp only [if_true, e1, e2, bind, Except.bind]
    rw [if_neg (by omega), qcOf]

theorem checking_says {n : Nat} {ls : List Str} {qs : List Quick} (h : Checking ls qs) (hn : ∀ q ∈ qs, q.hi < n) :
    ∃ xs, (ls.map (· ++ ['\n'])).mapM (parseQc n) = .ok xs ∧ xs.filterMap id = qs.map qcOf := by
  induction h with
  | nil => exact ⟨[], rfl, rfl⟩
  | other l ls ns h _ ih =>
    obtain ⟨ex, h1, h2⟩ := ih hn
    exact ⟨none :: ex, by rw [List.map_cons, List.mapM_cons, parseQc_elsewhere n h, h1]; rfl, by simpa using h2⟩
  | line l ls q qs h _ ih =>
    obtain ⟨ex, h1, h2⟩ := ih fun q hq => hn q (List.mem_cons_of_mem _ hq)
    exact ⟨some (qcOf q) :: ex, by rw [List.map_cons, List.mapM_cons, parseQc_checks h (hn q (by simp)), h1]; rfl, by simpa using h2⟩

theorem index_inj {p q : Prop4} : index p = index q ↔ p = q := by
  cases p <;> cases q <;> decide

/-- The value of a property. -/
def valueOf (qs : List Quick) (p : Prop4) (cp : Nat) : Value :=
  match qs.reverse.find? fun q => decide (q.prop = p ∧ q.lo ≤ cp ∧ cp ≤ q.hi) with
  | none => .yes
  | some q => q.value

theorem valueOf_iff (qs : List Quick) (p : Prop4) (cp : Nat) (v : Value) : HasValue qs p cp v ↔ valueOf qs p cp = v := by
  have key : HasValue qs p cp (valueOf qs p cp) := by
    rw [valueOf]
    split
    · rename_i h
      right
      refine ⟨rfl, fun x hx => ?_⟩
      have := List.find?_eq_none.1 h x (List.mem_reverse.2 hx)
      simpa using this
    · rename_i q h
      left
      obtain ⟨h1, as, bs, h2, h3⟩ := List.find?_eq_some_iff_append.1 h
      rw [decide_eq_true_eq] at h1
      refine ⟨bs.reverse, q, as.reverse, ?_, h1.1, rfl, h1.2.1, h1.2.2, fun x hx => ?_⟩
      · have := congrArg List.reverse h2
        simpa using this
      · have := h3 x (List.mem_reverse.1 hx)
        rw [Bool.not_eq_true', decide_eq_false_iff_not] at this
        exact this
  refine ⟨fun h => ?_, fun h => h ▸ key⟩
  obtain ⟨b1, q1, a1, h1, p1, v1, l1, u1, r1⟩ | ⟨rfl, h⟩ := h
  · rw [valueOf, h1]
    have : (a1.reverse.find? fun q => decide (q.prop = p ∧ q.lo ≤ cp ∧ cp ≤ q.hi)) = none := by
      rw [List.find?_eq_none]
      intro x hx
      simpa using r1 x (List.mem_reverse.1 hx)
    rw [List.reverse_append, List.reverse_cons, List.append_assoc, List.find?_append, this, Option.none_or, List.singleton_append, List.find?_cons_of_pos (by simp [p1, l1, u1])]
    exact v1
  · rw [valueOf]
    have : (qs.reverse.find? fun q => decide (q.prop = p ∧ q.lo ≤ cp ∧ cp ≤ q.hi)) = none := by
      rw [List.find?_eq_none]
      intro x hx
      simpa using h x (List.mem_reverse.1 hx)
    rw [this]

theorem qcValue_of (qs : List Quick) (p : Prop4) (cp : Nat) : qcValue (qs.map qcOf) (index p) cp = (valueOf qs p cp).name := by
  rw [qcValue, valueOf, ← List.map_reverse, List.find?_map]
  have : ((fun l : QcLine => l.kind == index p && decide (l.lo ≤ cp) && decide (cp ≤ l.hi)) ∘ qcOf) = fun q => decide (q.prop = p ∧ q.lo ≤ cp ∧ cp ≤ q.hi) := by
    funext q
    rw [Bool.eq_iff_iff, decide_eq_true_eq]
    simp only [Function.comp_apply, qcOf, Bool.and_eq_true, beq_iff_eq, index_inj, and_assoc]
    refine and_congr Iff.rfl (and_congr ?_ ?_)
    · exact decide_eq_true_iff
    · exact decide_eq_true_iff
  rw [this]
  cases qs.reverse.find? fun q => decide (q.prop = p ∧ q.lo ≤ cp ∧ cp ≤ q.hi) <;> rfl

theorem qcBits_of (p : Prop4) (v : Value) : qcBits v.name (index p) = .ok (flag p v) := by
  cases p <;> cases v <;> decide

theorem qcFlags_of (qs : List Quick) (cp : Nat) : qcFlags (qs.map qcOf) cp =
    .ok (flag .nfc (valueOf qs .nfc cp) ||| flag .nfd (valueOf qs .nfd cp) ||| flag .nfkc (valueOf qs .nfkc cp) ||| flag .nfkd (valueOf qs .nfkd cp)) := by
  have h := fun p => qcValue_of qs p cp
  have h0 := h .nfc
  have h1 := h .nfd
  have h2 := h .nfkc
  have h3 := h .nfkd
  simp only [index] at h0 h1 h2 h3
  have g0 := qcBits_of .nfc (valueOf qs .nfc cp)
  have g1 := qcBits_of .nfd (valueOf qs .nfd cp)
  have g2 := qcBits_of .nfkc (valueOf qs .nfkc cp)
  have g3 := qcBits_of .nfkd (valueOf qs .nfkd cp)
  simp only [index] at g0 g1 g2 g3
  simp only [qcFlags, h0, h1, h2, h3, g0, g1, g2, g3, bind, Except.bind]

theorem mapM_total {α β : Type} {f : α → C β} {g : α → β} (h : ∀ a, f a = .ok (g a)) (as : List α) : as.mapM f = .ok (as.map g) := by
  induction as with
  | nil => rfl
  | cons a as ih => rw [List.mapM_cons, h, ih]; rfl

end Verif.PyGen
