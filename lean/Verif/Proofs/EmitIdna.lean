import Verif.Proofs.EmitPiece

/-! The file that gen_idna_table.c writes: the predicates. -/

set_option autoImplicit false

namespace Verif.Emit
open Verif.Spec.CText hiding Str
open Verif.Py (Str)
open Verif.IdnaGen

/-- The name of a predicate. -/
def isName (status : Str) : Str := c!"charstr_idna_status_is_" ++ status

theorem isName_word {status : Str} (h : ∀ c ∈ status, isWord c = true) : ∀ c ∈ isName status, isWord c = true := by
  intro c hc
  rcases List.mem_append.1 hc with h' | h'
  · clear hc; revert h' c; decide
  · exact h c h'

theorem word_isName (status : Str) : word (isName status) = some (.ident (isName status)) := word_cons rfl (by simp [keyword])

/-- `codepoint >= start` -/
def geLeaf (start : Nat) : Leaf :=
  ⟨c!"codepoint >= " ++ fmt 10 start, [.ident c!"codepoint", .sym .ge, .num start], .bin .ge (.var c!"codepoint") (.num start)⟩

theorem geLeaf_good (start : Nat) : (geLeaf start).Good where
  lex {cs ts s} h := by
    have h1 := lex_word (fmt_word (b := 10) (n := start) (by decide) (by decide)) (word_dec start) rfl h
    have h2 := lex_lit (a := c!"codepoint >= ") (ts := [.ident c!"codepoint", .sym .ge]) rfl h1
    simpa [geLeaf, List.append_assoc] using h2
  parse _ := rfl

/-- The tokens of the lines. -/
def testToks : List (Nat × Nat) → List Tok → List Tok
  | [], ts => ts
  | c :: cs, ts => ifToks c.1 (.key .return :: ((geLeaf c.2).toks ++ .sym .semi :: testToks cs ts))

theorem lex_tests {cs : Str} {ts : List Tok} {s : At} (h : feed .free cs = some (ts, s)) : ∀ l : List (Nat × Nat),
    feed .free (l.flatMap testLine ++ cs) = some (testToks l ts, s)
  | [] => h
  | c :: l => by
    have h1 := lex_lit (a := c!";\n") (ts := [.sym .semi]) rfl (lex_tests h l)
    have h2 := (geLeaf_good c.2).lex h1
    have h3 := lex_if (tail := c!" return ") (us := [.key .return]) 1 c.1 rfl h2
    simpa [testLine, testToks, indent, geLeaf, List.flatMap_cons, List.append_assoc, List.replicate] using h3

/-- The statements of the function. -/
def testStmts : List (Nat × Nat) → S
  | [] => .seq (.ret (.var c!"false")) .skip
  | c :: cs => .seq (.ite (below c.1) (.ret (geLeaf c.2).e) .skip) (testStmts cs)

theorem parse_tests (ts : List Tok) : ∀ (l : List (Nat × Nat)) (f : Nat), l.length + 3 ≤ f →
    pStmts f (testToks l (.key .return :: .ident c!"false" :: .sym .semi :: .sym .rbrace :: ts)) = some (testStmts l, ts)
  | [], f, hf => by
    obtain ⟨f, rfl⟩ : ∃ g, f = g + 2 := ⟨f - 2, by omega⟩
    exact pStmts_cons (by simp) (pStmt_return (identLeaf_good (x := c!"false") (by decide) (by decide)) f _) rfl
  | c :: l, f, hf => by
    rw [List.length_cons] at hf
    obtain ⟨f, rfl⟩ : ∃ g, f = g + 3 := ⟨f - 3, by omega⟩
    refine pStmts_cons (by simp) (pStmt_if (pStmt_return (geLeaf_good c.2) f _) ?_) (parse_tests ts l (f + 2) (by omega))
    cases l <;> intro us <;> simp [testToks, ifToks]

theorem tests_wf : ∀ l, (testStmts l).wf
  | [] => ⟨trivial, trivial⟩
  | _ :: l => ⟨⟨trivial, trivial, rfl, rfl⟩, tests_wf l⟩

theorem le_testToks (ts : List Tok) : ∀ l, l.length + ts.length ≤ (testToks l ts).length
  | [] => by simp [testToks]
  | c :: l => by
    have := le_testToks ts l
    simp only [testToks, ifToks, List.length_cons, List.length_append]; omega

/-- A predicate made by `generate_test`. -/
def testDecl (status : Str) (l : List (Nat × Nat)) : Decl := .func .bool (isName status) [c!"codepoint"] (testStmts l)

theorem testToks_append (us ts : List Tok) : ∀ l, testToks l us ++ ts = testToks l (us ++ ts)
  | [] => rfl
  | c :: l => by simp [testToks, ifToks, testToks_append us ts l]

theorem test_piece {status : Str} (h : ∀ c ∈ status, isWord c = true) (l : List (Nat × Nat)) : Piece (testOut status l) [testDecl status l] := by
  have h1 := lex_tests (cs := c!"    return false;\n}\n") (ts := [.key .return, .ident c!"false", .sym .semi, .sym .rbrace]) (s := .free) (by decide) l
  have h2 := lex_lit (a := c!"(int codepoint)\n{\n") (ts := [.sym .lpar, .key .int, .ident c!"codepoint", .sym .rpar, .sym .lbrace]) (by decide) h1
  have h3 := lex_word (isName_word h) (word_isName status) (c := '(') rfl h2
  have h4 := lex_lit (a := c!"\nbool ") (ts := [.ident c!"bool"]) (by decide) h3
  refine Piece.decl (t := .ident c!"bool") (toks := .ident (isName status) :: .sym .lpar :: .key .int :: .ident c!"codepoint" :: .sym .rpar :: .sym .lbrace ::
    testToks l [.key .return, .ident c!"false", .sym .semi, .sym .rbrace]) ?_ (by simp) fun ts => ?_
  · simpa [testOut, isName, List.append_assoc] using h4
  · have h5 := parse_tests ts l ((testToks l (.key .return :: .ident c!"false" :: .sym .semi :: .sym .rbrace :: ts)).length + 8) (by
      have := le_testToks (.key .return :: .ident c!"false" :: .sym .semi :: .sym .rbrace :: ts) l
      omega)
    simp only [List.cons_append, testToks_append, List.nil_append]
    generalize testToks l (.key .return :: .ident c!"false" :: .sym .semi :: .sym .rbrace :: ts) = us at h5
    simp only [pDecl, pType, List.length_cons, pParams, h5]
    rfl

variable {H : Str → Option V} {G : Globals} {L : Locals} {n : Int}

theorem exec_tests (hx : ident H G L c!"codepoint" = .ok (.int n)) (hf : ident H G L c!"false" = .ok (.int 0)) : ∀ (l : List (Nat × Nat)),
    (∀ c ∈ l, c.1 < 2 ^ 31 ∧ c.2 < 2 ^ 31) → (testStmts l).exec H G none L = pure (.ret (bit (runTest l n)))
  | [], _ => exec_seq_ret (exec_ret (eval_var hf))
  | c :: l, h => by
    obtain ⟨h1, h2⟩ := h c (by simp)
    have h3 : (below c.1).eval H G L = pure (bit (decide (n < c.1))) := eval_bin (by simp) (eval_var hx) (eval_lit h1) (binary_lt _ _)
    have h4 : (geLeaf c.2).e.eval H G L = pure (bit (decide (n ≥ c.2))) := eval_bin (by simp) (eval_var hx) (eval_lit h2) (binary_ge _ _)
    obtain ⟨a, b⟩ := c
    rw [testStmts, runTest]
    by_cases hlt : n < a
    · rw [if_pos hlt]
      refine exec_seq_ret ?_
      rw [exec_if h3]
      simp only [hlt, decide_true, if_true]
      exact exec_ret h4
    · rw [if_neg hlt, exec_seq (L' := L)]
      · exact exec_tests hx hf l fun d hd => h d (by simp [hd])
      · rw [exec_if h3]
        simp only [hlt, decide_false, Bool.false_eq_true, if_false]
        rfl

/-- A call of a predicate made by `generate_test`. -/
theorem invoke_test (hG : find c!"false" G = none) (hH : H c!"false" = some (.int 0)) {l : List (Nat × Nat)} (h : ∀ c ∈ l, c.1 < 2 ^ 31 ∧ c.2 < 2 ^ 31) (n : Int) :
    Returns (invoke H G .bool [c!"codepoint"] (testStmts l) [.int n]) (bit (runTest l n)) := by
  refine invoke_ret rfl (exec_tests rfl ?_ l h) (convert_bit _)
  have h1 : find c!"false" ([c!"codepoint"].zip [V.int n]) = none := find_none (by simp)
  simp only [ident, h1, hG, hH]

/-! ## Sets -/

/-- The name of an array. -/
def setName (status : Str) : Str := c!"set_" ++ status

theorem setName_word {status : Str} (h : ∀ c ∈ status, isWord c = true) : ∀ c ∈ setName status, isWord c = true := by
  intro c hc
  rcases List.mem_append.1 hc with h' | h'
  · clear hc; revert h' c; decide
  · exact h c h'

theorem word_setName (status : Str) : word (setName status) = some (.ident (setName status)) := word_cons rfl (by simp [keyword])

theorem number_zeros (k : Nat) (s : Str) : number 16 0 (List.replicate k '0' ++ s) = number 16 0 s := by
  induction k with
  | zero => rfl
  | succ k ih =>
    rw [List.replicate_succ, List.cons_append, number, show digit 16 '0' = some 0 from by decide]
    exact ih

theorem word_hex16 (n : Nat) : word ('0' :: 'x' :: hex16 n) = some (.num n) := by
  have hn : number 16 0 (hex16 n) = some n := by rw [hex16, number_zeros, number_fmt (by decide) (by decide)]
  cases e : hex16 n with
  | nil => exact absurd (List.append_eq_nil_iff.1 e).2 (fmt_ne 16 n (by decide))
  | cons c s =>
    rw [e] at hn
    simp [word, show isDigit '0' = true from rfl, constant, hn]

theorem hex16_word (n : Nat) : ∀ c ∈ '0' :: 'x' :: hex16 n, isWord c = true := by
  intro c hc
  rcases List.mem_cons.1 hc with rfl | hc
  · rfl
  rcases List.mem_cons.1 hc with rfl | hc
  · rfl
  rcases List.mem_append.1 hc with hc | hc
  · rw [List.eq_of_mem_replicate hc]; rfl
  · exact fmt_word (by decide) (by decide) c hc

/-- The tokens of the elements up to the closing brace. -/
def wordToks : List Nat → List Tok
  | [] => []
  | [w] => [.num w, .sym .rbrace]
  | w :: ws => .num w :: .sym .comma :: wordToks ws

theorem lex_blank {p : Prop} [Decidable p] {a cs : Str} {ts : List Tok} {s : At} (ha : feed .free a = some ([], .free)) (h : feed .free cs = some (ts, s)) :
    feed .free ((if p then a else []) ++ cs) = some (ts, s) := by
  split
  · exact lex_lit ha h
  · exact h

theorem lex_words {cs : Str} {ts : List Tok} {s : At} (h : feed .free cs = some (ts, s)) : ∀ (ws : List UInt64) (i : Nat), ws ≠ [] →
    feed .free (wordsOut i ws ++ cs) = some (wordToks (ws.map UInt64.toNat) ++ .sym .semi :: ts, s)
  | [], _, h => absurd rfl h
  | [w], i, _ => by
    have h1 := lex_lit (a := c!" };\n") (ts := [.sym .rbrace, .sym .semi]) rfl h
    have h2 := lex_word (hex16_word w.toNat) (word_hex16 w.toNat) rfl h1
    have h3 := lex_blank (p := i % 4 = 0) (a := c!"\n    ") rfl h2
    simpa [wordsOut, wordToks, List.append_assoc] using h3
  | w :: v :: ws, i, _ => by
    have h1 := lex_lit (a := c!", ") (ts := [.sym .comma]) rfl (lex_words h (v :: ws) (i + 1) (by simp))
    have h2 := lex_word (hex16_word w.toNat) (word_hex16 w.toNat) rfl h1
    have h3 := lex_blank (p := i % 4 = 0) (a := c!"\n    ") rfl h2
    simpa [wordsOut, wordToks, List.append_assoc] using h3

theorem parse_words (ts : List Tok) : ∀ (ws : List Nat) (f : Nat), ws ≠ [] → ws.length ≤ f →
    pInits f (wordToks ws ++ ts) = some (ws.map (fun w => [.num w]), ts)
  | [], _, h, _ => absurd rfl h
  | [w], f, _, hf => by
    obtain ⟨f, rfl⟩ : ∃ g, f = g + 1 := ⟨f - 1, by simp at hf; omega⟩
    rfl
  | w :: v :: ws, f, _, hf => by
    rw [List.length_cons] at hf
    obtain ⟨f, rfl⟩ : ∃ g, f = g + 1 := ⟨f - 1, by omega⟩
    have ih := parse_words ts (v :: ws) f (by simp) (by omega)
    obtain ⟨us, hy⟩ : ∃ us, wordToks (v :: ws) ++ ts = .num v :: us := by cases ws <;> simp [wordToks]
    have e : wordToks (w :: v :: ws) ++ ts = .num w :: .sym .comma :: (wordToks (v :: ws) ++ ts) := by simp [wordToks]
    rw [e, hy]
    rw [hy] at ih
    show (match pInits f (.num v :: us) with
      | none => none
      | some (cs, ts) => some ([Cst.num w] :: cs, ts)) = _
    rw [ih]; rfl

theorem le_wordToks : ∀ ws : List Nat, ws.length ≤ (wordToks ws).length
  | [] => by simp
  | [w] => by simp [wordToks]
  | w :: v :: ws => by
    have := le_wordToks (v :: ws)
    simp only [wordToks, List.length_cons] at this ⊢
    omega

/-- The array made by `generate_set`. -/
def setArray (status : Str) (ws : List UInt64) : Decl := .array .u64 (setName status) (some ws.length) ((ws.map UInt64.toNat).map fun w => [.num w])

/-- The text of the array. -/
theorem set_array {status : Str} (h : ∀ c ∈ status, isWord c = true) {ws : List UInt64} (hw : ws ≠ []) :
    Piece (c!"\nstatic const uint64_t set_" ++ (status ++ (c!"[" ++ (fmt 10 ws.length ++ (c!"] = {" ++ wordsOut 0 ws))))) [setArray status ws] := by
  have h1 := lex_words (cs := []) (ts := []) (s := .free) rfl ws 0 hw
  rw [List.append_nil] at h1
  have h2 := lex_lit (a := c!"] = {") (ts := [.sym .rbrack, .sym .assign, .sym .lbrace]) rfl h1
  have h3 := lex_lit (a := c!"[") (ts := [.sym .lbrack]) rfl
    (lex_word (fmt_word (b := 10) (n := ws.length) (by decide) (by decide)) (word_dec ws.length) (c := ']') rfl h2)
  have h4 := lex_lit (a := c!"\nstatic const uint64_t ") (ts := [.key .static, .key .const, .ident c!"uint64_t"]) (by decide)
    (lex_word (setName_word h) (word_setName status) (c := '[') rfl h3)
  refine Piece.static (toks := .key .const :: .ident c!"uint64_t" :: .ident (setName status) :: .sym .lbrack :: .num ws.length :: .sym .rbrack :: .sym .assign ::
    .sym .lbrace :: (wordToks (ws.map UInt64.toNat) ++ [.sym .semi])) ?_ fun ts => ?_
  · simpa [setName, List.append_assoc] using h4
  · have hl : (ws.map UInt64.toNat).length ≤ (wordToks (ws.map UInt64.toNat) ++ .sym .semi :: ts).length := by
      have := le_wordToks (ws.map UInt64.toNat)
      rw [List.length_append]; omega
    have h5 := parse_words (.sym .semi :: ts) (ws.map UInt64.toNat) _ (by simpa using hw) hl
    have h6 : pArray (.sym .lbrack :: .num ws.length :: .sym .rbrack :: .sym .assign :: .sym .lbrace :: (wordToks (ws.map UInt64.toNat) ++ .sym .semi :: ts)) =
        some ((some ws.length, (ws.map UInt64.toNat).map fun w => [.num w]), ts) := by
      rw [pArray, h5]; rfl
    simp only [List.cons_append, List.append_assoc, List.nil_append]
    simp only [pDecl, pType, h6]
    rfl

theorem declare_set {status : Str} {ws : List UInt64} (hw : ws ≠ []) :
    declare H G (setArray status ws) = .ok (setName status, .val (.words (ws.map UInt64.toNat))) := by
  have h1 : numbers (2 ^ 64) ((ws.map UInt64.toNat).map fun w => [.num w]) = .ok (ws.map UInt64.toNat) := numbers_ok (by
    intro x hx
    obtain ⟨w, _, rfl⟩ := List.mem_map.1 hx
    exact w.toNat_lt)
  rw [setArray, declare, if_pos ⟨by simpa using hw, by simp⟩, h1]

/-- `(set_S[codepoint / 64] & (uint64_t) 1 << codepoint % 64) != 0` -/
def bitExpr (status : Str) : E :=
  .bin .ne (.bin .amp (.index (.var (setName status)) (.bin .slash (.var c!"codepoint") (.num 64)))
    (.bin .shl (.cast (.num 1)) (.bin .percent (.var c!"codepoint") (.num 64)))) (.num 0)

/-- The body of the function. -/
def setStmts (status : Str) (max : Nat) : S :=
  .seq (.ite (.bin .gt (.var c!"codepoint") (.num max)) (.ret (.var c!"false")) .skip) (.seq (.ret (bitExpr status)) .skip)

def setDecl (status : Str) (max : Nat) : Decl := .func .bool (isName status) [c!"codepoint"] (setStmts status max)

/-- The tokens of the body. -/
def setToks (status : Str) (max : Nat) (ts : List Tok) : List Tok :=
  .key .if :: .sym .lpar :: .ident c!"codepoint" :: .sym .gt :: .num max :: .sym .rpar :: .key .return :: .ident c!"false" :: .sym .semi ::
  .key .return :: .sym .lpar :: .ident (setName status) :: .sym .lbrack :: .ident c!"codepoint" :: .sym .slash :: .num 64 :: .sym .rbrack :: .sym .amp ::
  .sym .lpar :: .ident c!"uint64_t" :: .sym .rpar :: .num 1 :: .sym .shl :: .ident c!"codepoint" :: .sym .percent :: .num 64 :: .sym .rpar :: .sym .ne :: .num 0 ::
  .sym .semi :: .sym .rbrace :: ts

theorem parse_set (status : Str) (max f : Nat) (ts : List Tok) : pStmts (f + 8) (setToks status max ts) = some (setStmts status max, ts) := rfl

theorem set_func {status : Str} (h : ∀ c ∈ status, isWord c = true) (max : Nat) :
    Piece (c!"\nbool charstr_idna_status_is_" ++ (status ++ (c!"(int codepoint)\n{\n    if (codepoint > " ++ (fmt 10 max ++
      (c!")\n         return false;\n    return (set_" ++ (status ++ c!"[codepoint / 64] & (uint64_t) 1 << codepoint % 64) != 0;\n}\n")))))) [setDecl status max] := by
  have h1 : feed .free c!"[codepoint / 64] & (uint64_t) 1 << codepoint % 64) != 0;\n}\n" = some ([.sym .lbrack, .ident c!"codepoint", .sym .slash, .num 64, .sym .rbrack, .sym .amp,
    .sym .lpar, .ident c!"uint64_t", .sym .rpar, .num 1, .sym .shl, .ident c!"codepoint", .sym .percent, .num 64, .sym .rpar, .sym .ne, .num 0, .sym .semi, .sym .rbrace], .free) := by decide
  have h2 := lex_lit (a := c!")\n         return false;\n    return (") (ts := [.sym .rpar, .key .return, .ident c!"false", .sym .semi, .key .return, .sym .lpar]) (by decide)
    (lex_word (setName_word h) (word_setName status) (c := '[') rfl h1)
  have h3 := lex_lit (a := c!"(int codepoint)\n{\n    if (codepoint > ") (ts := [.sym .lpar, .key .int, .ident c!"codepoint", .sym .rpar, .sym .lbrace, .key .if, .sym .lpar,
    .ident c!"codepoint", .sym .gt]) (by decide) (lex_word (fmt_word (b := 10) (n := max) (by decide) (by decide)) (word_dec max) (c := ')') rfl h2)
  have h4 := lex_lit (a := c!"\nbool ") (ts := [.ident c!"bool"]) (by decide) (lex_word (isName_word h) (word_isName status) (c := '(') rfl h3)
  refine Piece.decl (t := .ident c!"bool") (toks := .ident (isName status) :: .sym .lpar :: .key .int :: .ident c!"codepoint" :: .sym .rpar :: .sym .lbrace ::
    setToks status max []) ?_ (by simp) fun ts => ?_
  · simpa [isName, setName, setToks, List.append_assoc] using h4
  · have h5 := parse_set status max (setToks status max ts).length ts
    have e : setToks status max [] ++ ts = setToks status max ts := rfl
    simp only [List.cons_append, e]
    generalize setToks status max ts = us at h5
    simp only [pDecl, pType, List.length_cons, pParams, h5]
    rfl

theorem set_piece {status : Str} (h : ∀ c ∈ status, isWord c = true) {ws : List UInt64} (hw : ws ≠ []) (max : Nat) :
    Piece (setOut status (ws, max)) [setArray status ws, setDecl status max] := by
  have := (set_array h hw).append (set_func h max)
  simpa [setOut, fmtInt, List.append_assoc] using this

theorem binary_slash {k : Nat} (hk : k < 2 ^ 31) : binary .slash (.int k) (.int (64 : Nat)) = .ok (.int (k / 64 : Nat)) := by
  have h : ((k : Int).tdiv ((64 : Nat) : Int)) = ((k / 64 : Nat) : Int) := by rw [Int.tdiv_eq_ediv_of_nonneg (by omega)]; omega
  show (if ((64 : Nat) : Int) = 0 then (Except.error Err.ub : C V) else Spec.CText.int ((k : Int).tdiv ((64 : Nat) : Int))) = _
  rw [if_neg (by decide), h]
  exact int_small (by omega)

theorem binary_percent {k : Nat} (hk : k < 2 ^ 31) : binary .percent (.int k) (.int (64 : Nat)) = .ok (.int (k % 64 : Nat)) := by
  have h : ((k : Int).tmod ((64 : Nat) : Int)) = ((k % 64 : Nat) : Int) := by rw [Int.tmod_eq_emod_of_nonneg (by omega)]; omega
  show (if ((64 : Nat) : Int) = 0 then (Except.error Err.ub : C V) else Spec.CText.int ((k : Int).tmod ((64 : Nat) : Int))) = _
  rw [if_neg (by decide), h]
  exact int_small (by omega)

theorem exec_set {status : Str} {ws : List UInt64} {max : Nat} (hmax : max < 2 ^ 31) (hx : ident H G L c!"codepoint" = .ok (.int n))
    (hf : ident H G L c!"false" = .ok (.int 0)) (hs : ident H G L (setName status) = .ok (.words (ws.map UInt64.toNat))) {b : Bool}
    (hb : runSet (ws, max) n = .ok b) : (setStmts status max).exec H G none L = pure (.ret (bit b)) := by
  have h1 : E.eval H G L (.bin .gt (.var c!"codepoint") (.num max)) = pure (bit (decide (n > max))) := eval_bin (by simp) (eval_var hx) (eval_lit hmax) (binary_gt _ _)
  rw [runSet] at hb
  by_cases hgt : n > max
  · rw [if_pos hgt] at hb
    cases hb
    refine exec_seq_ret ?_
    rw [exec_if h1]
    simp only [hgt, decide_true, if_true]
    exact exec_ret (eval_var hf)
  · rw [if_neg hgt] at hb
    split at hb
    · cases hb
    rename_i hn
    obtain ⟨k, rfl⟩ : ∃ k : Nat, n = k := ⟨n.toNat, by omega⟩
    simp only [Int.toNat_natCast] at hb
    split at hb
    · rename_i w hw
      cases hb
      rw [setStmts, exec_seq (L' := L)]
      · refine exec_seq_ret (exec_ret ?_)
        have hk : k < 2 ^ 31 := by omega
        have e1 : E.eval H G L (.bin .slash (.var c!"codepoint") (.num 64)) = pure (.int (k / 64 : Nat)) := by
          exact eval_bin (by simp) (eval_var hx) (eval_lit (by decide)) (binary_slash hk)
        have e2 : E.eval H G L (.bin .percent (.var c!"codepoint") (.num 64)) = pure (.int (k % 64 : Nat)) := by
          exact eval_bin (by simp) (eval_var hx) (eval_lit (by decide)) (binary_percent hk)
        have e3 : E.eval H G L (.index (.var (setName status)) (.bin .slash (.var c!"codepoint") (.num 64))) = pure (.u64 w.toNat) := by
          refine eval_index (eval_var hs) e1 ?_
          rw [subscript, if_neg (by omega)]
          simp only [Int.toNat_natCast, List.getElem?_map, hw, Option.map_some]
        have e4 : E.eval H G L (.bin .shl (.cast (.num 1)) (.bin .percent (.var c!"codepoint") (.num 64))) = pure (.u64 (2 ^ (k % 64))) := by
          refine eval_bin (by simp) (eval_cast (eval_lit (by decide))) e2 ?_
          have hm : k % 64 < 64 := Nat.mod_lt _ (by decide)
          show (if 0 ≤ ((k % 64 : Nat) : Int) ∧ ((k % 64 : Nat) : Int) < 64 then _ else _) = _
          rw [if_pos (by omega)]
          rw [show toU64 ((1 : Nat) : Int) = 1 from rfl, Nat.one_mul, Int.toNat_natCast, Nat.mod_eq_of_lt]
          exact Nat.pow_lt_pow_right (by decide) hm
        have e5 : E.eval H G L (.bin .amp (.index (.var (setName status)) (.bin .slash (.var c!"codepoint") (.num 64)))
            (.bin .shl (.cast (.num 1)) (.bin .percent (.var c!"codepoint") (.num 64)))) = pure (.u64 (w.toNat &&& 2 ^ (k % 64))) :=
          eval_bin (by simp) e3 e4 rfl
        refine eval_bin (by simp) e5 (eval_lit (by decide)) ?_
        show (Except.ok (V.int (if w.toNat &&& 2 ^ (k % 64) ≠ toU64 ((0 : Nat) : Int) then 1 else 0)) : C V) = _
        rw [show toU64 ((0 : Nat) : Int) = 0 from rfl]
        have hm : k % 64 < 64 := Nat.mod_lt _ (by decide)
        have e6 : (1 <<< UInt64.ofNat (k % 64) : UInt64).toNat = 2 ^ (k % 64) := by
          rw [UInt64.toNat_shiftLeft]
          simp only [UInt64.toNat_one, UInt64.toNat_ofNat']
          rw [Nat.mod_eq_of_lt (show k % 64 < 2 ^ 64 by omega), Nat.mod_eq_of_lt (show k % 64 < 64 by omega), Nat.one_shiftLeft, Nat.mod_eq_of_lt]
          exact Nat.pow_lt_pow_right (by decide) hm
        have e7 : (w &&& 1 <<< UInt64.ofNat (k % 64) != 0) = decide (w.toNat &&& 2 ^ (k % 64) ≠ 0) := by
          rw [Bool.eq_iff_iff, bne_iff_ne, decide_eq_true_iff, ne_eq, ne_eq, ← UInt64.toNat_inj, UInt64.toNat_and, e6]
          rfl
        rw [e7, bit]
        simp only [decide_eq_true_eq]
      · rw [exec_if h1]
        simp only [hgt, decide_false, Bool.false_eq_true, if_false]
        rfl
    · cases hb

/-- A call of a predicate made by `generate_set`. -/
theorem invoke_set {status : Str} {ws : List UInt64} {max : Nat} (hmax : max < 2 ^ 31) (hne : setName status ≠ c!"codepoint")
    (hG : find c!"false" G = none) (hH : H c!"false" = some (.int 0)) (hs : find (setName status) G = some (.val (.words (ws.map UInt64.toNat)))) {b : Bool}
    (hb : runSet (ws, max) n = .ok b) :
    Returns (invoke H G .bool [c!"codepoint"] (setStmts status max) [.int n]) (bit b) := by
  refine invoke_ret rfl (exec_set hmax rfl ?_ ?_ hb) (convert_bit _)
  · have h1 : find c!"false" ([c!"codepoint"].zip [V.int n]) = none := find_none (by simp)
    simp only [ident, h1, hG, hH]
  · have h1 : find (setName status) ([c!"codepoint"].zip [V.int n]) = none := find_none (by simpa using hne.symm)
    simp only [ident, h1, hs]

end Verif.Emit
