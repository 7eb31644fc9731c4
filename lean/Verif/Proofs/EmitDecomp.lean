import Verif.Proofs.EmitCase

/-! The file that decomposition.py writes. -/

set_option autoImplicit false

namespace Verif.Emit
open Verif.Spec.CText hiding Str
open Verif.Py (Str)

/-- The name of an array. -/
def arrayName (cp : Nat) : Str := c!"decompose_" ++ fmt 16 cp

theorem fmt_inj {b a c : Nat} (hb : 1 < b) (hb' : b ≤ 16) (h : fmt b a = fmt b c) : a = c := by
  have h1 := number_fmt (n := a) hb hb'
  rw [h, number_fmt hb hb'] at h1
  exact (Option.some.inj h1).symm

theorem arrayName_inj {a c : Nat} (h : arrayName a = arrayName c) : a = c :=
  fmt_inj (by decide) (by decide) (List.append_cancel_left h)

theorem word_cons {c : Char} {w : Str} (hd : isDigit c = false) (hk : keyword (c :: w) = none) : word (c :: w) = some (.ident (c :: w)) := by
  simp [word, hd, hk]

theorem word_array (cp : Nat) : word (arrayName cp) = some (.ident (arrayName cp)) := by
  refine word_cons rfl ?_
  simp [keyword]

theorem array_word (cp : Nat) : ∀ c ∈ arrayName cp, isWord c = true := by
  intro c hc
  rcases List.mem_append.1 hc with h | h
  · clear hc; revert h c; decide
  · exact fmt_word (by decide) (by decide) c h

/-- The tokens of the elements up to the closing brace. -/
def elemToks (d : List Nat) : List Tok := d.flatMap (fun x => [.num x, .sym .comma]) ++ [.num 0, .sym .rbrace]

theorem lex_elems {cs : Str} {ts : List Tok} {s : At} (h : feed .free cs = some (ts, s)) : ∀ d : List Nat,
    feed .free (d.flatMap (fun x => c!" 0x" ++ (fmt 16 x ++ c!",")) ++ (c!" 0 };\n" ++ cs)) = some (elemToks d ++ .sym .semi :: ts, s)
  | [] => lex_lit (a := c!" 0 };\n") (ts := [.num 0, .sym .rbrace, .sym .semi]) rfl h
  | x :: d => by
    have ih := lex_elems h d
    have h1 := lex_lit (a := c!",") (ts := [.sym .comma]) rfl ih
    have h2 := lex_lit (a := c!" ") (ts := []) rfl (lex_word (p := '0' :: 'x' :: fmt 16 x) (by
      intro c hc
      rcases List.mem_cons.1 hc with rfl | hc
      · rfl
      rcases List.mem_cons.1 hc with rfl | hc
      · rfl
      exact fmt_word (by decide) (by decide) c hc) (word_hex x) rfl h1)
    simpa [elemToks, List.flatMap_cons, List.append_assoc] using h2

theorem parse_elems (ts : List Tok) : ∀ (d : List Nat) (f : Nat), pInits (f + d.length + 1) (elemToks d ++ ts) = some ((d ++ [0]).map (fun x => [.num x]), ts)
  | [], f => rfl
  | x :: d, f => by
    have ih := parse_elems ts d f
    have e : elemToks (x :: d) ++ ts = .num x :: .sym .comma :: (elemToks d ++ ts) := by simp [elemToks, List.flatMap_cons]
    obtain ⟨y, us, hy⟩ : ∃ y us, elemToks d ++ ts = .num y :: us := by cases d <;> simp [elemToks, List.flatMap_cons]
    rw [e, hy, List.length_cons, ← Nat.add_assoc]
    rw [hy] at ih
    show (match pInits (f + d.length + 1) (.num y :: us) with
      | none => none
      | some (cs, ts) => some ([Cst.num x] :: cs, ts)) = _
    rw [ih]; rfl

/-- The tokens of an array. -/
def arrayToks (cp : Nat) (d : List Nat) : List Tok :=
  .key .static :: .key .const :: .key .int :: .ident (arrayName cp) :: .sym .lbrack :: .sym .rbrack :: .sym .assign :: .sym .lbrace :: (elemToks d ++ [.sym .semi])

theorem lex_array {cs : Str} {ts : List Tok} {s : At} (h : feed .free cs = some (ts, s)) (cp : Nat) (d : List Nat) :
    feed .free (arrayLine cp d ++ cs) = some (arrayToks cp d ++ ts, s) := by
  have h1 := lex_lit (a := c!"[] = {") (ts := [.sym .lbrack, .sym .rbrack, .sym .assign, .sym .lbrace]) rfl (lex_elems h d)
  have h2 := lex_lit (a := c!"static const int ") (ts := [.key .static, .key .const, .key .int]) rfl
    (lex_word (array_word cp) (word_array cp) rfl h1)
  simpa [arrayLine, arrayToks, arrayName, List.append_assoc] using h2

theorem lex_arrays {cs : Str} {ts : List Tok} {s : At} (h : feed .free cs = some (ts, s)) : ∀ ds : List (Nat × List Nat),
    feed .free (ds.flatMap (fun d => arrayLine d.1 d.2) ++ cs) = some (ds.flatMap (fun d => arrayToks d.1 d.2) ++ ts, s)
  | [] => h
  | d :: ds => by
    have := lex_array (lex_arrays h ds) d.1 d.2
    simpa [List.flatMap_cons, List.append_assoc] using this

/-- The declaration of an array. -/
def arrayDecl (d : Nat × List Nat) : Decl := .array .int (arrayName d.1) none ((d.2 ++ [0]).map fun x => [.num x])

theorem parse_array (cp : Nat) (d : List Nat) (f : Nat) (ts : List Tok) {ds : List Decl} (h : pUnit f ts = some ds) :
    pUnit (f + 1) (arrayToks cp d ++ ts) = some (arrayDecl (cp, d) :: ds) := by
  have h1 : pArray (.sym .lbrack :: .sym .rbrack :: .sym .assign :: .sym .lbrace :: (elemToks d ++ .sym .semi :: ts)) =
      some ((none, (d ++ [0]).map fun x => [.num x]), ts) := by
    have : ∃ k, (elemToks d ++ .sym .semi :: ts).length = k + d.length + 1 := by
      refine ⟨(elemToks d ++ .sym .semi :: ts).length - d.length - 1, ?_⟩
      have : (elemToks d).length = 2 * d.length + 2 := by
        induction d with
        | nil => rfl
        | cons x d ih => simp [elemToks, List.flatMap_cons] at ih ⊢; omega
      simp only [List.length_append, this]; omega
    obtain ⟨k, hk⟩ := this
    rw [pArray, hk, parse_elems]
    rfl
  have e : arrayToks cp d ++ ts = .key .static :: .key .const :: .key .int :: .ident (arrayName cp) ::
      (.sym .lbrack :: .sym .rbrack :: .sym .assign :: .sym .lbrace :: (elemToks d ++ .sym .semi :: ts)) := by simp [arrayToks]
  rw [e]
  simp only [pUnit, pDecl, pType, h1, h]
  rfl

theorem parse_arrays (f : Nat) (ts : List Tok) {es : List Decl} (h : pUnit f ts = some es) : ∀ ds : List (Nat × List Nat),
    pUnit (f + ds.length) (ds.flatMap (fun d => arrayToks d.1 d.2) ++ ts) = some (ds.map arrayDecl ++ es)
  | [] => h
  | d :: ds => by
    have := parse_array d.1 d.2 _ _ (parse_arrays f ts h ds)
    simpa [List.flatMap_cons, List.append_assoc, Nat.add_assoc] using this

theorem find_none {α : Type} {x : Str} : ∀ {l : List (Str × α)}, (∀ p ∈ l, p.1 ≠ x) → find x l = none
  | [], _ => rfl
  | p :: l, h => by
    have h1 : ¬ x = p.1 := fun e => h p (by simp) e.symm
    rw [find, if_neg h1]
    exact find_none fun q hq => h q (by simp [hq])

theorem find_mem {α : Type} {x : Str} {a : α} : ∀ {l : List (Str × α)}, (x, a) ∈ l → (l.map Prod.fst).Nodup → find x l = some a
  | p :: l, h, hn => by
    obtain ⟨y, b⟩ := p
    rw [List.map_cons, List.nodup_cons] at hn
    rw [find]
    rcases List.mem_cons.1 h with e | h
    · cases e; rw [if_pos rfl]
    · have : x ≠ y := by intro e; exact hn.1 (List.mem_map.2 ⟨_, h, e⟩)
      rw [if_neg this]; exact find_mem h hn.2

theorem numbers_ok {b : Nat} : ∀ {d : List Nat}, (∀ x ∈ d, x < b) → numbers b (d.map fun x => [.num x]) = .ok d
  | [], _ => rfl
  | x :: d, h => by
    have ih := numbers_ok (b := b) (d := d) fun y hy => h y (by simp [hy])
    simp only [List.map_cons, numbers, h x (by simp), if_true, ih]

/-- What an array stands for. -/
def arrayGlobal (d : Nat × List Nat) : Str × Global := (arrayName d.1, .val (.ints (d.2 ++ [0])))

theorem load_arrays (H : Str → Option V) (es : List Decl) : ∀ (ds : List (Nat × List Nat)) (G : Globals), (∀ d ∈ ds, ∀ x ∈ d.2, x < 2 ^ 31) →
    (ds.map Prod.fst).Nodup → (∀ d ∈ ds, ∀ g ∈ G, g.1 ≠ arrayName d.1) →
    load H (ds.map arrayDecl ++ es) G = load H es ((ds.map arrayGlobal).reverse ++ G)
  | [], G, _, _, _ => rfl
  | d :: ds, G, hb, hn, hg => by
    rw [List.map_cons, List.nodup_cons] at hn
    have h1 : declare H G (arrayDecl d) = .ok (arrayGlobal d) := by
      have : numbers (2 ^ 31) ((d.2 ++ [0]).map fun x => [.num x]) = .ok (d.2 ++ [0]) := numbers_ok (by
        intro x hx
        rcases List.mem_append.1 hx with h | h
        · exact hb d (by simp) x h
        · rw [List.mem_singleton.1 h]; decide)
      simp only [declare, arrayDecl, this]
      rw [if_pos ⟨by simp, by simp⟩]
      rfl
    have h2 : find (arrayGlobal d).1 G = none := find_none (hg d (by simp))
    simp only [List.map_cons, List.cons_append, load, h1, h2, Option.isSome_none, Bool.false_eq_true, if_false]
    rw [load_arrays H es ds _ (fun e he => hb e (by simp [he])) hn.2 ?_]
    · simp [arrayGlobal]
    · intro e he g hg'
      rcases List.mem_cons.1 hg' with rfl | hg'
      · intro h
        exact hn.1 (List.mem_map.2 ⟨e, he, (arrayName_inj h).symm⟩)
      · exact hg e (by simp [he]) g hg'

theorem mem_present {keys : List Nat} {n a : Nat} : a ∈ present keys n ↔ a < n ∧ a ∈ keys := by simp [present]

theorem present_nodup (keys : List Nat) (n : Nat) : (present keys n).Nodup := List.nodup_range.filter _

theorem pick_hit {d : E} {cases : List (Nat × Leaf)} (hn : (cases.map Prod.fst).Nodup) {k : Nat} {l : Leaf} (h : (k, l) ∈ cases) : pick d cases k = l.e := by
  rw [pick]
  cases hf : cases.find? fun c => decide ((c.1 : Int) = k) with
  | none => exact absurd (List.find?_eq_none.1 hf _ h) (by simp)
  | some c =>
    have h1 := List.find?_some hf
    simp only [decide_eq_true_eq, Nat.cast_inj] at h1
    have h2 := List.inj_on_of_nodup_map hn (List.mem_of_find?_eq_some hf) h h1
    rw [h2]

theorem pick_miss {d : E} {cases : List (Nat × Leaf)} {n : Int} (h : ∀ c ∈ cases, (c.1 : Int) ≠ n) : pick d cases n = d := by
  rw [pick, List.find?_eq_none.2 (by simpa using h)]

theorem program_decomp (H : Str → Option V) (n : Nat) {ds : List (Nat × List Nat)} (hb : ∀ d ∈ ds, ∀ x ∈ d.2, x < 2 ^ 31) (hn : (ds.map Prod.fst).Nodup) :
    program H (decompOut n ds) = .ok ((c!"_charstr_unicode_decomposition", .func (invoke H (ds.map arrayGlobal).reverse .ptr [c!"codepoint"]
      (switchBody c!"codepoint" ((present (ds.map Prod.fst) n).map fun cp => (cp, identLeaf (arrayName cp))) (identLeaf c!"NULL")))) ::
      (ds.map arrayGlobal).reverse) := by
  generalize hcs : (present (ds.map Prod.fst) n).map (fun cp => (cp, identLeaf (arrayName cp))) = cases
  have hg : ∀ c ∈ cases, c.2.Good := by
    rw [← hcs]
    intro c hc; obtain ⟨a, _, rfl⟩ := List.mem_map.1 hc; exact identLeaf_good (array_word a) (word_array a)
  have hd : (identLeaf c!"NULL").Good := identLeaf_good (by decide) (by decide)
  have hk : (cases.map Prod.fst).Nodup := by
    rw [← hcs, List.map_map]
    simpa [Function.comp_def] using present_nodup (ds.map Prod.fst) n
  have ht : feed .free c!"        default: return NULL;\n    }\n}\n" =
      some (.key .default :: .sym .colon :: .key .return :: ((identLeaf c!"NULL").toks ++ [.sym .semi, .sym .rbrace, .sym .rbrace]), .free) := by decide
  have h1 := lex_labels (sep := c!" return ") rfl ht cases hg
  have h2 : (present (ds.map Prod.fst) n).flatMap (fun cp => caseLine cp (c!"decompose_" ++ fmt 16 cp)) =
      cases.flatMap fun c => c!"        case " ++ (fmt 10 c.1 ++ (c!": return " ++ (c.2.text ++ c!";\n"))) := by
    rw [← hcs]
    induction present (ds.map Prod.fst) n with
    | nil => rfl
    | cons c l ih => rw [List.flatMap_cons, List.map_cons, List.flatMap_cons, ih]; rfl
  have h3 := lex_lit (a := c!"\nconst int *_charstr_unicode_decomposition(int codepoint)\n{\n    switch (codepoint) {\n")
    (ts := [.key .const, .key .int, .sym .star, .ident c!"_charstr_unicode_decomposition", .sym .lpar, .key .int, .ident c!"codepoint", .sym .rpar, .sym .lbrace,
      .key .switch, .sym .lpar, .ident c!"codepoint", .sym .rpar, .sym .lbrace]) (by decide) h1
  have h4 := lex_lit (a := c!"#include <stddef.h>\n\n") (ts := []) rfl (lex_arrays h3 ds)
  have h5 : lex (decompOut n ds) = some (ds.flatMap (fun d => arrayToks d.1 d.2) ++
      .key .const :: .key .int :: .sym .star :: .ident c!"_charstr_unicode_decomposition" :: .sym .lpar :: .key .int :: .ident c!"codepoint" :: .sym .rpar :: .sym .lbrace ::
      switchToks c!"codepoint" cases (identLeaf c!"NULL") []) := by
    rw [decompOut, h2, lex]
    rw [show feed .free _ = _ from h4]
    rfl
  have h6 : parse (ds.flatMap (fun d => arrayToks d.1 d.2) ++
      .key .const :: .key .int :: .sym .star :: .ident c!"_charstr_unicode_decomposition" :: .sym .lpar :: .key .int :: .ident c!"codepoint" :: .sym .rpar :: .sym .lbrace ::
      switchToks c!"codepoint" cases (identLeaf c!"NULL") []) =
      some (ds.map arrayDecl ++ [.func .ptr c!"_charstr_unicode_decomposition" [c!"codepoint"] (switchBody c!"codepoint" cases (identLeaf c!"NULL"))]) := by
    have h := parse_switch c!"codepoint" hg hd []
    generalize switchToks c!"codepoint" cases (identLeaf c!"NULL") [] = ts at h
    generalize hts : (.key .const :: .key .int :: .sym .star :: .ident c!"_charstr_unicode_decomposition" :: .sym .lpar :: .key .int ::
      .ident c!"codepoint" :: .sym .rpar :: .sym .lbrace :: ts : List Tok) = us
    have hu : ∀ f, pUnit (f + 2) us = some [.func .ptr c!"_charstr_unicode_decomposition" [c!"codepoint"] (switchBody c!"codepoint" cases (identLeaf c!"NULL"))] := by
      intro f
      rw [← hts]
      simp only [pUnit, pDecl, pType, List.length_cons, pParams, h]
    have hl : ds.length ≤ (ds.flatMap fun d => arrayToks d.1 d.2).length := by
      clear hb hn hcs h2 h3 h4 h5
      induction ds with
      | nil => simp
      | cons d ds ih => simp only [List.flatMap_cons, List.length_append, List.length_cons, arrayToks] at ih ⊢; omega
    have hu2 : 1 ≤ us.length := by rw [← hts]; simp
    obtain ⟨f, hf⟩ : ∃ f, ((ds.flatMap (fun d => arrayToks d.1 d.2) ++ us).length + 1) = f + 2 + ds.length := by
      rw [List.length_append]
      exact ⟨(ds.flatMap fun d => arrayToks d.1 d.2).length + us.length - 1 - ds.length, by omega⟩
    rw [parse, hf]
    exact parse_arrays (f + 2) us (hu f) ds
  rw [program, h5]
  simp only [h6]
  rw [load_arrays H _ ds [] hb hn (by simp), List.append_nil]
  have hw := switch_wf c!"codepoint" (identLeaf c!"NULL") hk
  have hf : find c!"_charstr_unicode_decomposition" (ds.map arrayGlobal).reverse = none := find_none (by
    intro p hp
    obtain ⟨d, _, rfl⟩ := List.mem_map.1 (List.mem_reverse.1 hp)
    simp [arrayGlobal, arrayName])
  simp only [load, declare, hw, if_true, hf, Option.isSome_none, Bool.false_eq_true, if_false]

/-- The file that decomposition.py writes: a pointer to the array of a code point in range, and NULL if there is none. -/
theorem decompOut_means {H : Str → Option V} (hH : H c!"NULL" = some .null) (n : Nat) {ds : List (Nat × List Nat)} (hb : ∀ d ∈ ds, ∀ x ∈ d.2, x < 2 ^ 31)
    (hn : (ds.map Prod.fst).Nodup) :
    (∀ d ∈ ds, d.1 < n → Means H (decompOut n ds) c!"_charstr_unicode_decomposition" [.int d.1] (.ints (d.2 ++ [0]))) ∧
    ∀ c : Int, (∀ d ∈ ds, d.1 < n → (d.1 : Int) ≠ c) → Means H (decompOut n ds) c!"_charstr_unicode_decomposition" [.int c] .null := by
  have hp := program_decomp H n hb hn
  have hnd : (((ds.map arrayGlobal).reverse).map Prod.fst).Nodup := by
    rw [List.map_reverse, List.nodup_reverse, List.map_map, show (Prod.fst ∘ arrayGlobal) = arrayName ∘ Prod.fst from rfl, ← List.map_map]
    exact hn.map fun a b h => arrayName_inj h
  refine ⟨fun d hd hdn => ⟨_, _, hp, by rw [find, if_pos rfl], invoke_switch (n := d.1) rfl rfl (v := .ints (d.2 ++ [0])) ?_ rfl⟩,
    fun c hc => ⟨_, _, hp, by rw [find, if_pos rfl], invoke_switch (n := c) rfl rfl (v := .null) ?_ rfl⟩⟩
  · have hm : d.1 ∈ present (ds.map Prod.fst) n := mem_present.2 ⟨hdn, List.mem_map.2 ⟨d, hd, rfl⟩⟩
    have : pick (identLeaf c!"NULL").e ((present (ds.map Prod.fst) n).map fun cp => (cp, identLeaf (arrayName cp))) d.1 = .var (arrayName d.1) := by
      have h0 : ((((present (ds.map Prod.fst) n).map fun cp => (cp, identLeaf (arrayName cp)))).map Prod.fst).Nodup := by
        simpa [List.map_map, Function.comp_def] using present_nodup (ds.map Prod.fst) n
      exact pick_hit h0 (List.mem_map.2 ⟨d.1, hm, rfl⟩)
    rw [this, E.eval, returns_liftC, ident]
    have h1 : find (arrayName d.1) ([c!"codepoint"].zip [V.int d.1]) = none := find_none (by simp [arrayName])
    rw [h1]
    have h2 : arrayGlobal d ∈ (ds.map arrayGlobal).reverse := List.mem_reverse.2 (List.mem_map.2 ⟨d, hd, rfl⟩)
    have h3 := find_mem h2 hnd
    simp only [arrayGlobal] at h3 ⊢
    simp only [h3]
  · have : pick (identLeaf c!"NULL").e ((present (ds.map Prod.fst) n).map fun cp => (cp, identLeaf (arrayName cp))) c = .var c!"NULL" := by
      refine pick_miss fun p hp => ?_
      obtain ⟨a, ha, rfl⟩ := List.mem_map.1 hp
      obtain ⟨h2, h3⟩ := mem_present.1 ha
      obtain ⟨d, hd, rfl⟩ := List.mem_map.1 h3
      exact hc d hd h2
    rw [this, E.eval, returns_liftC, ident]
    have h1 : find c!"NULL" ([c!"codepoint"].zip [V.int c]) = none := find_none (by simp)
    have h2 : find c!"NULL" (ds.map arrayGlobal).reverse = none := find_none (by
      intro p hp
      obtain ⟨d, _, rfl⟩ := List.mem_map.1 (List.mem_reverse.1 hp)
      simp [arrayGlobal, arrayName])
    simp only [h1, h2, hH]

end Verif.Emit
