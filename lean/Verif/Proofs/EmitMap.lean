import Verif.Proofs.EmitIdna

/-! The file that gen_idna_table.c writes: the mappings. -/

set_option autoImplicit false

namespace Verif.Emit
open Verif.Spec.CText hiding Str
open Verif.Py (Str)
open Verif.IdnaGen

/-! ## Strings -/

theorem feed_escape (bs : List Nat) : ∀ (s : Str) (k v w : Nat), number 8 v s = some w → k + s.length ≤ 3 →
    feed (.escape bs k v) s = some ([], .escape bs (k + s.length) w)
  | [], k, v, w, h, _ => by cases h; rfl
  | c :: s, k, v, w, h, hl => by
    rw [List.length_cons] at hl
    rw [number] at h
    cases hd : digit 8 c with
    | none => rw [hd] at h; cases h
    | some d =>
      rw [hd] at h
      have ih := feed_escape bs s (k + 1) (v * 8 + d) w h (by omega)
      rw [feed, step, hd]
      simp only [show k < 3 by omega, if_true, ih, List.nil_append, List.length_cons]
      rw [show k + 1 + s.length = k + (s.length + 1) by omega]

theorem fmt8_length {b : Nat} (h : b < 256) : (fmt 8 b).length ≤ 3 := by
  unfold fmt
  split
  · simp
  · rw [List.length_map, List.length_reverse, Nat.digits_length_le_iff (by decide)]; omega

theorem fmt8_pos (b : Nat) : 0 < (fmt 8 b).length := List.length_pos_iff.2 (fmt_ne 8 b (by decide))

/-- A byte as an escape, before a character that is not an octal digit. -/
theorem lex_escape {b : Nat} (hb : b < 256) (bs : List Nat) {c : Char} (hc : digit 8 c = none) {cs : Str} {r : List Tok × At}
    (h : feed (.string (b :: bs)) (c :: cs) = some r) : feed (.string bs) ('\\' :: (fmt 8 b ++ c :: cs)) = some r := by
  have h1 := feed_escape bs (fmt 8 b) 0 0 b (number_fmt (by decide) (by decide)) (by have := fmt8_length hb; omega)
  rw [Nat.zero_add] at h1
  have h2 : feed (.escape bs (fmt 8 b).length b) (c :: cs) = some r := by
    rw [← h, feed, feed, step, step, hc]
    simp only [show (fmt 8 b).length ≠ 0 from (fmt8_pos b).ne', if_false, hb, if_true]
  have h3 := feed_append (fmt 8 b) (c :: cs) _ _ _ r.1 r.2 h1 h2
  rw [feed, step]
  simp only [inString, show ('\\' : Char) ≠ '"' by decide, if_false, if_true, h3]
  rfl

theorem lex_bytes {cs : Str} {ts : List Tok} {s : At} (h : feed .free cs = some (ts, s)) : ∀ (m : List UInt8) (bs : List Nat),
    feed (.string bs) (m.flatMap (fun b => c!"\\" ++ fmt 8 b.toNat) ++ '"' :: cs) = some (.str (bs.reverse ++ m.map UInt8.toNat) :: ts, s)
  | [], bs => by
    rw [List.flatMap_nil, List.nil_append, feed, step, inString, if_pos rfl]
    simp only [h, List.map_nil, List.append_nil, List.cons_append, List.nil_append]
  | b :: m, bs => by
    have ih := lex_bytes h m (b.toNat :: bs)
    have hb : b.toNat < 256 := b.toNat_lt
    obtain ⟨c, us, hc, e⟩ : ∃ c us, digit 8 c = none ∧ m.flatMap (fun b => c!"\\" ++ fmt 8 b.toNat) ++ '"' :: cs = c :: us := by
      cases m with
      | nil => exact ⟨'"', cs, by decide, rfl⟩
      | cons a m => exact ⟨'\\', _, by decide, rfl⟩
    rw [List.flatMap_cons, List.append_assoc, List.append_assoc, e]
    rw [e] at ih
    have := lex_escape hb bs hc ih
    simpa using this

/-! ## The array -/

/-- The tokens of the lines. -/
def mapToks (a : List (Nat × List UInt8)) : List Tok :=
  a.flatMap fun e => [.sym .lbrace, .num e.1, .sym .comma, .str (e.2.map UInt8.toNat), .sym .rbrace, .sym .comma]

theorem lex_map {cs : Str} {ts : List Tok} {s : At} (h : feed .free cs = some (ts, s)) (e : Nat × List UInt8) :
    feed .free (mapLine e ++ cs) =
      some (.sym .lbrace :: .num e.1 :: .sym .comma :: .str (e.2.map UInt8.toNat) :: .sym .rbrace :: .sym .comma :: ts, s) := by
  have h1 := lex_lit (a := c!" },\n") (ts := [.sym .rbrace, .sym .comma]) rfl h
  have h2 := lex_bytes h1 e.2 []
  have h3 : feed .free ('"' :: (e.2.flatMap (fun b => c!"\\" ++ fmt 8 b.toNat) ++ '"' :: (c!" },\n" ++ cs))) =
      some (.str (e.2.map UInt8.toNat) :: .sym .rbrace :: .sym .comma :: ts, s) := by
    rw [feed, show step .free '"' = some ([], .string []) from rfl]
    simp only [h2]
    rfl
  have h4 := lex_lit (a := c!", ") (ts := [.sym .comma]) rfl h3
  have h5 := lex_lit (a := c!"    { ") (ts := [.sym .lbrace]) rfl
    (lex_word (fmt_word (b := 10) (n := e.1) (by decide) (by decide)) (word_dec e.1) (c := ',') rfl h4)
  simpa [mapLine, List.append_assoc] using h5

theorem lex_maps {cs : Str} {ts : List Tok} {s : At} (h : feed .free cs = some (ts, s)) : ∀ a : List (Nat × List UInt8),
    feed .free (a.flatMap mapLine ++ cs) = some (mapToks a ++ ts, s)
  | [] => h
  | e :: a => by
    have := lex_map (lex_maps h a) e
    simpa [mapToks, List.flatMap_cons, List.append_assoc] using this

/-- The initializer. -/
def mapInits (a : List (Nat × List UInt8)) : List Init := a.map fun e => [.num e.1, .str (e.2.map UInt8.toNat)]

theorem parse_maps (ts : List Tok) : ∀ (a : List (Nat × List UInt8)) (f : Nat), a ≠ [] → a.length ≤ f →
    pInits f (mapToks a ++ .sym .rbrace :: ts) = some (mapInits a, ts)
  | [], _, h, _ => absurd rfl h
  | [e], f, _, hf => by
    obtain ⟨f, rfl⟩ : ∃ g, f = g + 1 := ⟨f - 1, by simp at hf; omega⟩
    rfl
  | e :: d :: a, f, _, hf => by
    rw [List.length_cons] at hf
    obtain ⟨f, rfl⟩ : ∃ g, f = g + 1 := ⟨f - 1, by omega⟩
    have ih := parse_maps ts (d :: a) f (by simp) (by omega)
    obtain ⟨us, hy⟩ : ∃ us, mapToks (d :: a) ++ .sym .rbrace :: ts = .sym .lbrace :: us := by simp [mapToks, List.flatMap_cons]
    have e1 : mapToks (e :: d :: a) ++ .sym .rbrace :: ts =
        .sym .lbrace :: .num e.1 :: .sym .comma :: .str (e.2.map UInt8.toNat) :: .sym .rbrace :: .sym .comma :: (mapToks (d :: a) ++ .sym .rbrace :: ts) := by
      simp [mapToks, List.flatMap_cons]
    rw [e1, hy]
    rw [hy] at ih
    show (match pInits f (.sym .lbrace :: us) with
      | none => none
      | some (cs, ts) => some ([Cst.num e.1, Cst.str (e.2.map UInt8.toNat)] :: cs, ts)) = _
    rw [ih]; rfl

theorem le_mapToks : ∀ a, a.length ≤ (mapToks a).length
  | [] => by simp
  | e :: a => by
    have := le_mapToks a
    simp only [mapToks, List.flatMap_cons, List.length_append, List.length_cons] at this ⊢
    omega

def mapArray (a : List (Nat × List UInt8)) : Decl :=
  .records [(.int, c!"from"), (.ptr, c!"to")] c!"idna_mappings" (some a.length) (mapInits a)

theorem map_array {a : List (Nat × List UInt8)} (ha : a ≠ []) :
    Piece (c!"\nstatic struct {\n    int from;\n    const char *to;\n} const idna_mappings[" ++ (fmt 10 a.length ++ (c!"] = {\n" ++ (a.flatMap mapLine ++ c!"};\n"))))
      [mapArray a] := by
  have h1 := lex_maps (cs := c!"};\n") (ts := [.sym .rbrace, .sym .semi]) (s := .free) rfl a
  have h2 := lex_lit (a := c!"] = {\n") (ts := [.sym .rbrack, .sym .assign, .sym .lbrace]) rfl h1
  have h3 := lex_lit (a := c!"\nstatic struct {\n    int from;\n    const char *to;\n} const idna_mappings[") (ts := [.key .static, .key .struct, .sym .lbrace, .key .int, .ident c!"from",
    .sym .semi, .key .const, .key .char, .sym .star, .ident c!"to", .sym .semi, .sym .rbrace, .key .const, .ident c!"idna_mappings", .sym .lbrack]) (by decide)
    (lex_word (fmt_word (b := 10) (n := a.length) (by decide) (by decide)) (word_dec a.length) (c := ']') rfl h2)
  refine Piece.static (toks := .key .struct :: .sym .lbrace :: .key .int :: .ident c!"from" ::
    .sym .semi :: .key .const :: .key .char :: .sym .star :: .ident c!"to" :: .sym .semi :: .sym .rbrace :: .key .const :: .ident c!"idna_mappings" :: .sym .lbrack ::
    .num a.length :: .sym .rbrack :: .sym .assign :: .sym .lbrace :: (mapToks a ++ [.sym .rbrace, .sym .semi])) (by refine Eq.trans ?_ (h3.trans ?_) <;> rfl) fun ts => ?_
  have hl : a.length ≤ (mapToks a ++ .sym .rbrace :: .sym .semi :: ts).length := by
    have := le_mapToks a
    rw [List.length_append]; omega
  have h5 := parse_maps (.sym .semi :: ts) a _ ha hl
  have h6 : pArray (.sym .lbrack :: .num a.length :: .sym .rbrack :: .sym .assign :: .sym .lbrace :: (mapToks a ++ .sym .rbrace :: .sym .semi :: ts)) =
      some ((some a.length, mapInits a), ts) := by
    rw [pArray, h5]; rfl
  simp only [List.cons_append, List.append_assoc, List.nil_append]
  simp only [pDecl, List.length_cons, pFields, pType, expect, if_true, h6]
  rfl

/-- A structure of the array. -/
def mapRecord (e : Nat × List UInt8) : List (Str × V) := [(c!"from", .int e.1), (c!"to", .str (e.2.map UInt8.toNat))]

variable {H : Str → Option V} {G : Globals} {L : Locals} {n : Int}

theorem structures_map : ∀ {a : List (Nat × List UInt8)}, (∀ e ∈ a, e.1 < 2 ^ 31) →
    structures [(.int, c!"from"), (.ptr, c!"to")] (mapInits a) = .ok (a.map mapRecord)
  | [], _ => rfl
  | e :: a, h => by
    have ih := structures_map (a := a) fun d hd => h d (by simp [hd])
    have h1 : e.1 < 2 ^ 31 := h e (by simp)
    rw [mapInits] at ih ⊢
    simp only [List.map_cons, structures, fields, element, h1, if_true, ih]
    rfl

theorem declare_map {a : List (Nat × List UInt8)} (ha : a ≠ []) (hb : ∀ e ∈ a, e.1 < 2 ^ 31) :
    declare H G (mapArray a) = .ok (c!"idna_mappings", .val (.records (a.map mapRecord))) := by
  rw [mapArray, declare, if_pos ⟨by simpa [mapInits] using ha, by simp [mapInits]⟩, structures_map hb]

/-! ## The function -/

/-- `idna_mappings[x].from` -/
def fromExpr (x : Str) : E := .field (.index (.var c!"idna_mappings") (.var x)) c!"from"

def loopCond : E := .bin .lt (.var c!"low") (.var c!"high")

def loopBody : S :=
  .seq (.decl c!"middle" (.bin .slash (.bin .plus (.bin .star (.num 4) (.var c!"low")) (.var c!"high")) (.num 5)))
    (.seq (.decl c!"from" (fromExpr c!"middle"))
      (.seq (.ite (.bin .lt (.var c!"from") (.var c!"codepoint")) (.assign c!"low" (.bin .plus (.var c!"middle") (.num 1))) (.assign c!"high" (.var c!"middle"))) .skip))

/-- What follows the loop. -/
def mapTail : S :=
  .seq (.ite (.bin .ne (fromExpr c!"high") (.var c!"codepoint")) (.ret (.var c!"NULL")) .skip)
    (.seq (.ret (.field (.index (.var c!"idna_mappings") (.var c!"high")) c!"to")) .skip)

def mapStmts (min max high : Nat) : S :=
  .seq (.ite (.bin .barbar (.bin .lt (.var c!"codepoint") (.num min)) (.bin .gt (.var c!"codepoint") (.num max))) (.ret (.var c!"NULL")) .skip)
    (.seq (.seq (.decl c!"low" (.num 0)) (.decl c!"high" (.num high))) (.seq (.while loopCond loopBody) mapTail))

/-- The tokens of the body. -/
def mapBodyToks (min max high : Nat) (ts : List Tok) : List Tok :=
  .key .if :: .sym .lpar :: .ident c!"codepoint" :: .sym .lt :: .num min :: .sym .barbar :: .ident c!"codepoint" :: .sym .gt :: .num max :: .sym .rpar ::
  .key .return :: .ident c!"NULL" :: .sym .semi :: .key .int :: .ident c!"low" :: .sym .assign :: .num 0 :: .sym .comma :: .ident c!"high" :: .sym .assign :: .num high ::
  .sym .semi :: .key .while :: .sym .lpar :: .ident c!"low" :: .sym .lt :: .ident c!"high" :: .sym .rpar :: .sym .lbrace :: .key .int :: .ident c!"middle" :: .sym .assign ::
  .sym .lpar :: .num 4 :: .sym .star :: .ident c!"low" :: .sym .plus :: .ident c!"high" :: .sym .rpar :: .sym .slash :: .num 5 :: .sym .semi ::
  .key .int :: .ident c!"from" :: .sym .assign :: .ident c!"idna_mappings" :: .sym .lbrack :: .ident c!"middle" :: .sym .rbrack :: .sym .dot :: .ident c!"from" :: .sym .semi ::
  .key .if :: .sym .lpar :: .ident c!"from" :: .sym .lt :: .ident c!"codepoint" :: .sym .rpar :: .ident c!"low" :: .sym .assign :: .ident c!"middle" :: .sym .plus :: .num 1 :: .sym .semi ::
  .key .else :: .ident c!"high" :: .sym .assign :: .ident c!"middle" :: .sym .semi :: .sym .rbrace ::
  .key .if :: .sym .lpar :: .ident c!"idna_mappings" :: .sym .lbrack :: .ident c!"high" :: .sym .rbrack :: .sym .dot :: .ident c!"from" :: .sym .ne :: .ident c!"codepoint" :: .sym .rpar ::
  .key .return :: .ident c!"NULL" :: .sym .semi ::
  .key .return :: .ident c!"idna_mappings" :: .sym .lbrack :: .ident c!"high" :: .sym .rbrack :: .sym .dot :: .ident c!"to" :: .sym .semi :: .sym .rbrace :: ts

theorem parse_map (min max high f : Nat) (ts : List Tok) : pStmts (f + 16) (mapBodyToks min max high ts) = some (mapStmts min max high, ts) := rfl

def mapDecl (min max high : Nat) : Decl := .func .ptr c!"charstr_idna_mapping" [c!"codepoint"] (mapStmts min max high)

theorem map_func (min max high : Nat) :
    Piece (c!"\nconst char *charstr_idna_mapping(int codepoint)\n{\n    if (codepoint < " ++ (fmt 10 min ++ (c!" || codepoint > " ++ (fmt 10 max ++
      (c!")\n        return NULL;\n    int low = 0, high = " ++ (fmt 10 high ++
      c!";\n    while (low < high) {\n        int middle = (4 * low + high) / 5;\n        int from = idna_mappings[middle].from;\n        if (from < codepoint)\n            low = middle + 1;\n        else high = middle;\n    }\n    if (idna_mappings[high].from != codepoint)\n        return NULL;\n    return idna_mappings[high].to;\n}\n"))))))
      [mapDecl min max high] := by
  have h1 : feed .free c!";\n    while (low < high) {\n        int middle = (4 * low + high) / 5;\n        int from = idna_mappings[middle].from;\n        if (from < codepoint)\n            low = middle + 1;\n        else high = middle;\n    }\n    if (idna_mappings[high].from != codepoint)\n        return NULL;\n    return idna_mappings[high].to;\n}\n" =
    some ((mapBodyToks 0 0 0 []).drop 21, .free) := by decide +kernel
  have h2 := lex_lit (a := c!")\n        return NULL;\n    int low = 0, high = ") (ts := [.sym .rpar, .key .return, .ident c!"NULL", .sym .semi, .key .int, .ident c!"low", .sym .assign,
    .num 0, .sym .comma, .ident c!"high", .sym .assign]) (by decide) (lex_word (fmt_word (b := 10) (n := high) (by decide) (by decide)) (word_dec high) (c := ';') rfl h1)
  have h3 := lex_lit (a := c!" || codepoint > ") (ts := [.sym .barbar, .ident c!"codepoint", .sym .gt]) (by decide)
    (lex_word (fmt_word (b := 10) (n := max) (by decide) (by decide)) (word_dec max) (c := ')') rfl h2)
  have h4 := lex_lit (a := c!"\nconst char *charstr_idna_mapping(int codepoint)\n{\n    if (codepoint < ") (ts := [.key .const, .key .char, .sym .star, .ident c!"charstr_idna_mapping",
    .sym .lpar, .key .int, .ident c!"codepoint", .sym .rpar, .sym .lbrace, .key .if, .sym .lpar, .ident c!"codepoint", .sym .lt]) (by decide)
    (lex_word (fmt_word (b := 10) (n := min) (by decide) (by decide)) (word_dec min) (c := ' ') rfl h3)
  refine Piece.decl (t := .key .const) (toks := .key .char :: .sym .star :: .ident c!"charstr_idna_mapping" :: .sym .lpar :: .key .int :: .ident c!"codepoint" :: .sym .rpar :: .sym .lbrace ::
    mapBodyToks min max high []) ?_ (by simp) fun ts => ?_
  · exact h4
  · obtain ⟨f, hf⟩ : ∃ f, (mapBodyToks min max high ts).length + 8 = f + 16 := ⟨(mapBodyToks min max high ts).length - 8, by simp [mapBodyToks]⟩
    have h5 := parse_map min max high f ts
    rw [← hf] at h5
    have e : mapBodyToks min max high [] ++ ts = mapBodyToks min max high ts := rfl
    simp only [List.cons_append, e]
    generalize mapBodyToks min max high ts = us at h5
    simp only [pDecl, pType, List.length_cons, pParams, h5]
    rfl

theorem fmtInt_nat (n : Nat) : fmtInt n = fmt 10 n := rfl

set_option maxRecDepth 4000 in
theorem map_piece {m : MapCode} {min max high : Nat} (ha : m.array ≠ []) (h1 : m.min = min) (h2 : m.max = max) (h3 : m.high = high) :
    Piece (mapOut m) [mapArray m.array, mapDecl min max high] := by
  have := (map_array ha).append (map_func min max high)
  rw [mapOut, h1, h2, h3, fmtInt_nat, fmtInt_nat, fmtInt_nat]
  simp only [List.append_assoc] at this
  exact this

/-- The values of the variables that matter. -/
structure Vars (L : Locals) (n low high : Int) : Prop where
  cp : find c!"codepoint" L = some (.int n)
  low : find c!"low" L = some (.int low)
  high : find c!"high" L = some (.int high)
  array : find c!"idna_mappings" L = none
  null : find c!"NULL" L = none

theorem ident_local {x : Str} {v : V} (h : find x L = some v) : ident H G L x = .ok v := by rw [ident, h]

theorem store_spec {x : Str} {v w : V} : ∀ {L : Locals}, find x L = some w → ∃ L', store L x v = .ok L' ∧ find x L' = some v ∧ ∀ y, y ≠ x → find y L' = find y L
  | [], h => by cases h
  | (z, u) :: L, h => by
    rw [find] at h
    rw [store]
    by_cases hz : x = z
    · rw [if_pos hz]
      refine ⟨_, rfl, by rw [find, if_pos hz], fun y hy => ?_⟩
      have : y ≠ z := by rw [← hz]; exact hy
      rw [find, if_neg this, find, if_neg this]
    · rw [if_neg hz] at h ⊢
      obtain ⟨L', h1, h2, h3⟩ := store_spec (v := v) h
      rw [h1]
      refine ⟨_, rfl, by rw [find, if_neg hz]; exact h2, fun y hy => ?_⟩
      rw [find, find, h3 y hy]

variable {m : MapCode} (hG : find c!"idna_mappings" G = some (.val (.records (m.array.map mapRecord))))

include hG in
theorem eval_entry {x : Str} {i : Nat} {e : Nat × List UInt8} (hx : find x L = some (.int i)) (ha : find c!"idna_mappings" L = none) (he : m.array[i]? = some e) :
    E.eval H G L (.index (.var c!"idna_mappings") (.var x)) = pure (.record (mapRecord e)) := by
  refine eval_index (eval_var (v := .records (m.array.map mapRecord)) ?_) (eval_var (ident_local hx)) ?_
  · rw [ident, ha]; simp only [hG]
  · rw [subscript, if_neg (by omega)]
    simp only [Int.toNat_natCast, List.getElem?_map, he, Option.map_some]

include hG in
theorem eval_from {x : Str} {i : Nat} {e : Nat × List UInt8} (hx : find x L = some (.int i)) (ha : find c!"idna_mappings" L = none) (he : m.array[i]? = some e) :
    (fromExpr x).eval H G L = pure (.int e.1) := eval_field (eval_entry hG hx ha he) rfl

theorem vars_decl {x : Str} {v : V} {lo hi : Int} (h : Vars L n lo hi) (hx : x = c!"middle" ∨ x = c!"from") : Vars ((x, v) :: L) n lo hi := by
  rcases hx with rfl | rfl <;> exact ⟨h.cp, h.low, h.high, h.array, h.null⟩

theorem binary_middle {lo hi : Nat} (h : 4 * lo + hi < 2 ^ 31) : (∃ a b, binary .star (.int (4 : Nat)) (.int lo) = .ok (.int a) ∧
    binary .plus (.int a) (.int hi) = .ok (.int b) ∧ binary .slash (.int b) (.int (5 : Nat)) = .ok (.int ((4 * lo + hi) / 5 : Nat))) := by
  refine ⟨4 * lo, 4 * lo + hi, ?_, ?_, ?_⟩
  · show Spec.CText.int (((4 : Nat) : Int) * lo) = _
    exact int_small (by omega)
  · show Spec.CText.int (4 * (lo : Int) + hi) = _
    exact int_small (by omega)
  have h : ((4 * lo + hi : Int).tdiv ((5 : Nat) : Int)) = (((4 * lo + hi) / 5 : Nat) : Int) := by rw [Int.tdiv_eq_ediv_of_nonneg (by omega)]; omega
  show (if ((5 : Nat) : Int) = 0 then (Except.error Err.ub : C V) else Spec.CText.int ((4 * lo + hi : Int).tdiv ((5 : Nat) : Int))) = _
  rw [if_neg (by decide), h]
  exact int_small (by omega)

include hG in
/-- One turn of the loop. -/
theorem exec_body {lo hi : Nat} (h : Vars L n lo hi) (hlt : lo < hi) (hb : hi < 2 ^ 28) {e : Nat × List UInt8} (he : m.array[(4 * lo + hi) / 5]? = some e) :
    ∃ L', loopBody.exec H G none L = pure (.next L') ∧
      if (e.1 : Int) < n then Vars L' n ((4 * lo + hi) / 5 + 1 : Nat) hi else Vars L' n lo ((4 * lo + hi) / 5 : Nat) := by
  obtain ⟨a, b, e1, e2, e3⟩ := binary_middle (lo := lo) (hi := hi) (by omega)
  generalize hmid : (4 * lo + hi) / 5 = mid at he e3
  have hm : mid < hi := by omega
  have v1 := vars_decl (x := c!"middle") (v := .int mid) h (.inl rfl)
  have v2 := vars_decl (x := c!"from") (v := .int e.1) v1 (.inr rfl)
  have s1 : E.eval H G L (.bin .slash (.bin .plus (.bin .star (.num 4) (.var c!"low")) (.var c!"high")) (.num 5)) = pure (.int mid) :=
    eval_bin (by simp) (eval_bin (by simp) (eval_bin (by simp) (eval_lit (by decide)) (eval_var (ident_local h.low)) e1) (eval_var (ident_local h.high)) e2) (eval_lit (by decide)) e3
  rw [loopBody, exec_seq (exec_decl s1), exec_seq (exec_decl (eval_from hG (x := c!"middle") (by rw [find, if_pos rfl]) v1.array he))]
  have s2 : E.eval H G ((c!"from", .int e.1) :: (c!"middle", .int mid) :: L) (.bin .lt (.var c!"from") (.var c!"codepoint")) = pure (bit (decide ((e.1 : Int) < n))) :=
    eval_bin (by simp) (eval_var (ident_local (by rw [find, if_pos rfl]))) (eval_var (ident_local v2.cp)) (binary_lt _ _)
  have hmv : find c!"middle" ((c!"from", .int e.1) :: (c!"middle", .int mid) :: L) = some (.int mid) := by
    rw [find, if_neg (by decide), find, if_pos rfl]
  by_cases hc : (e.1 : Int) < n
  · obtain ⟨L', g1, g2, g3⟩ := store_spec (v := .int (mid + 1 : Nat)) v2.low
    refine ⟨L', ?_, ?_⟩
    · rw [exec_seq (L' := L')]
      · rfl
      · rw [exec_if s2]
        simp only [hc, decide_true, if_true]
        refine exec_assign (eval_bin (v := .int (mid + 1 : Nat)) (by simp) (eval_var (ident_local hmv)) (eval_lit (by decide)) ?_) g1
        show Spec.CText.int ((mid : Int) + ((1 : Nat) : Int)) = _
        exact int_small (by omega)
    · rw [if_pos hc]
      exact ⟨(g3 _ (by decide)).trans v2.cp, g2, (g3 _ (by decide)).trans v2.high, (g3 _ (by decide)).trans v2.array, (g3 _ (by decide)).trans v2.null⟩
  · obtain ⟨L', g1, g2, g3⟩ := store_spec (v := .int (mid : Nat)) v2.high
    refine ⟨L', ?_, ?_⟩
    · rw [exec_seq (L' := L')]
      · rfl
      · rw [exec_if s2]
        simp only [hc, decide_false, Bool.false_eq_true, if_false]
        exact exec_assign (eval_var (ident_local hmv)) g1
    · rw [if_neg hc]
      exact ⟨(g3 _ (by decide)).trans v2.cp, (g3 _ (by decide)).trans v2.low, g2, (g3 _ (by decide)).trans v2.array, (g3 _ (by decide)).trans v2.null⟩

include hG in
/-- The loop does what `search` says. -/
theorem exec_loop : ∀ (k lo hi : Nat) (L : Locals), hi - lo ≤ k → lo ≤ hi → hi < m.array.length → m.array.length ≤ 2 ^ 28 → Vars L n lo hi →
    ∃ (L' : Locals) (i j : Nat), (S.while loopCond loopBody).exec H G none L = pure (.next L') ∧ search m n lo hi = pure (i : Int) ∧ i < m.array.length ∧ Vars L' n j i := by
  intro k
  induction k with
  | zero =>
    intro lo hi L hk hle hlen _ hv
    have : lo = hi := by omega
    subst this
    refine ⟨L, lo, lo, ?_, ?_, hlen, hv⟩
    · have s1 : loopCond.eval H G L = pure (bit (decide ((lo : Int) < lo))) :=
        eval_bin (by simp) (eval_var (ident_local hv.low)) (eval_var (ident_local hv.high)) (binary_lt _ _)
      rw [S.exec, loop, s1, pure_bind, liftC_bind (truth_bit _)]
      simp
    · rw [search, if_neg (by omega)]
  | succ k ih =>
    intro lo hi L hk hle hlen hb hv
    have s1 : loopCond.eval H G L = pure (bit (decide ((lo : Int) < hi))) :=
      eval_bin (by simp) (eval_var (ident_local hv.low)) (eval_var (ident_local hv.high)) (binary_lt _ _)
    by_cases hlt : lo < hi
    · obtain ⟨e, he⟩ : ∃ e, m.array[(4 * lo + hi) / 5]? = some e := ⟨_, List.getElem?_eq_getElem (by omega)⟩
      obtain ⟨L1, h1, h2⟩ := exec_body (H := H) hG hv hlt (by omega) he
      have ht : ((4 * (lo : Int) + hi).tdiv 5) = (((4 * lo + hi) / 5 : Nat) : Int) := by rw [Int.tdiv_eq_ediv_of_nonneg (by omega)]; omega
      have hen : entry m (((4 * lo + hi) / 5 : Nat) : Int) = .ok e := by
        rw [entry, if_neg (by omega), Int.toNat_natCast, he]
      have key : ∀ (lo' hi' : Nat), hi' - lo' ≤ k → lo' ≤ hi' → hi' < m.array.length → Vars L1 n lo' hi' → search m n lo hi = search m n lo' hi' →
          ∃ (L' : Locals) (i j : Nat), (S.while loopCond loopBody).exec H G none L = pure (.next L') ∧ search m n lo hi = pure (i : Int) ∧ i < m.array.length ∧ Vars L' n j i := by
        intro lo' hi' a1 a2 a3 a4 a5
        obtain ⟨L', i, j, b1, b2, b3, b4⟩ := ih lo' hi' L1 a1 a2 a3 hb a4
        refine ⟨L', i, j, ?_, a5.trans b2, b3, b4⟩
        rw [S.exec] at b1 ⊢
        rw [loop, s1, pure_bind, liftC_bind (truth_bit _)]
        simp only [show (lo : Int) < hi by omega, decide_true, if_true, h1, pure_bind]
        exact b1
      by_cases hc : (e.1 : Int) < n
      · rw [if_pos hc] at h2
        refine key _ _ (by omega) (by omega) hlen h2 ?_
        rw [search, if_pos (by omega), ht, liftC_bind hen, if_pos hc]
        congr 1
      · rw [if_neg hc] at h2
        refine key _ _ (by omega) (by omega) (by omega) h2 ?_
        rw [search, if_pos (by omega), ht, liftC_bind hen, if_neg hc]
    · have : lo = hi := by omega
      subst this
      exact ih lo lo L (by omega) hle hlen hb hv

/-- What a mapping is in C: a pointer to its bytes, or NULL. -/
def mapValue : Option (List UInt8) → V
  | some bs => .str (bs.map UInt8.toNat)
  | none => .null

include hG in
/-- The function does what `lookup` says. -/
theorem invoke_map (hNG : find c!"NULL" G = none) (hH : H c!"NULL" = some .null) {min max high : Nat} (hm : m.min = min) (hM : m.max = max) (hh : m.high = high)
    (hmin : min < 2 ^ 31) (hmax : max < 2 ^ 31) (hhigh : high < m.array.length) (hlen : m.array.length ≤ 2 ^ 28) {r : Option (List UInt8)}
    (hr : Returns (lookup m n) r) : Returns (invoke H G .ptr [c!"codepoint"] (mapStmts min max high) [.int n]) (mapValue r) := by
  have hv0 : ∀ x, x ≠ c!"codepoint" → find x ([c!"codepoint"].zip [V.int n]) = none := fun x hx => find_none (by simpa using hx.symm)
  have s0 : E.eval H G ([c!"codepoint"].zip [V.int n]) (.bin .barbar (.bin .lt (.var c!"codepoint") (.num min)) (.bin .gt (.var c!"codepoint") (.num max))) =
      pure (bit (decide (n < min) || decide (n > max))) :=
    eval_or (eval_bin (by simp) (eval_var rfl) (eval_lit hmin) (binary_lt _ _)) (eval_bin (by simp) (eval_var rfl) (eval_lit hmax) (binary_gt _ _))
  rw [lookup, hm, hM, hh] at hr
  by_cases hout : n < min ∨ n > max
  · rw [if_pos hout, returns_pure] at hr
    subst hr
    refine invoke_ret (v := .null) rfl (exec_seq_ret ?_) rfl
    rw [exec_if s0]
    rw [show (decide (n < min) || decide (n > max)) = true by simpa using hout, if_pos rfl]
    refine exec_ret (eval_var ?_)
    rw [ident, hv0 _ (by decide)]
    simp only [hNG, hH]
  · rw [if_neg hout] at hr
    have v0 : Vars ((c!"high", .int high) :: (c!"low", .int 0) :: ([c!"codepoint"].zip [V.int n])) n (0 : Nat) high := ⟨rfl, rfl, rfl, rfl, rfl⟩
    obtain ⟨L', i, j, h1, h2, h3, h4⟩ := exec_loop (H := H) hG _ _ _ _ (le_refl _) (Nat.zero_le _) hhigh hlen v0
    obtain ⟨e, he⟩ : ∃ e, m.array[i]? = some e := ⟨_, List.getElem?_eq_getElem h3⟩
    have hen : entry m (i : Int) = .ok e := by rw [entry, if_neg (by omega), Int.toNat_natCast, he]
    rw [show search m n 0 high = pure (i : Int) from h2, pure_bind, liftC_bind hen] at hr
    have s1 : E.eval H G L' (.bin .ne (fromExpr c!"high") (.var c!"codepoint")) = pure (bit (decide ((e.1 : Int) ≠ n))) :=
      eval_bin (by simp) (eval_from hG h4.high h4.array he) (eval_var (ident_local h4.cp)) (binary_ne _ _)
    have s2 : ∀ v, mapTail.exec H G none L' = pure (.ret v) →
        (mapStmts min max high).exec H G none ([c!"codepoint"].zip [V.int n]) = pure (.ret v) := by
      intro v hv
      rw [mapStmts, exec_seq (L' := [c!"codepoint"].zip [V.int n]), exec_seq (L' := (c!"high", .int high) :: (c!"low", .int 0) :: ([c!"codepoint"].zip [V.int n])), exec_seq h1]
      · exact hv
      · rw [exec_seq (exec_decl (eval_lit (by decide)))]
        exact exec_decl (eval_lit (by omega))
      · rw [exec_if s0]
        rw [show (decide (n < min) || decide (n > max)) = false by simpa using hout]
        rfl
    by_cases hne : (e.1 : Int) ≠ n
    · rw [if_pos hne, returns_pure] at hr
      subst hr
      refine invoke_ret (v := .null) rfl (s2 _ (exec_seq_ret ?_)) rfl
      rw [exec_if s1]
      rw [show decide ((e.1 : Int) ≠ n) = true by simpa using hne, if_pos rfl]
      refine exec_ret (eval_var ?_)
      rw [ident, h4.null]
      simp only [hNG, hH]
    · rw [if_neg hne, returns_pure] at hr
      subst hr
      refine invoke_ret (v := .str (e.2.map UInt8.toNat)) rfl (s2 _ ?_) rfl
      rw [mapTail, exec_seq (L' := L')]
      · exact exec_seq_ret (exec_ret (eval_field (eval_entry hG h4.high h4.array he) rfl))
      · rw [exec_if s1]
        rw [show decide ((e.1 : Int) ≠ n) = false by simpa using hne]
        rfl

end Verif.Emit
