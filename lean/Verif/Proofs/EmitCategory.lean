import Verif.Proofs.EmitQuick

/-! The file that categorize.py writes. -/

set_option autoImplicit false

namespace Verif.Emit
open Verif.Spec.CText hiding Str
open Verif.Py (Str)
open Verif.Categorize

/-- The constant of a category. -/
def catName (cat : Str) : Str := c!"UNICODE_CATEGORY_" ++ cat

/-- The expression in an emitted `return`. -/
def retLeaf (lo : Option Nat) (cat : Str) : Leaf :=
  match lo with
  | none => identLeaf (catName cat)
  | some s => ⟨c!"codepoint >= " ++ (fmt 10 s ++ (c!" ? " ++ (catName cat ++ c!" : UNICODE_CATEGORY_Cn"))),
      [.ident c!"codepoint", .sym .ge, .num s, .sym .quest, .ident (catName cat), .sym .colon, .ident (catName c!"Cn")],
      .cond (.bin .ge (.var c!"codepoint") (.num s)) (.var (catName cat)) (.var (catName c!"Cn"))⟩

theorem retLeaf_good {lo : Option Nat} {cat : Str} (h : ∀ c ∈ cat, isWord c = true) : (retLeaf lo cat).Good := by
  have hw : ∀ c ∈ catName cat, isWord c = true := by
    intro c hc
    rcases List.mem_append.1 hc with h' | h'
    · clear hc; revert h' c; decide
    · exact h c h'
  have hk : word (catName cat) = some (.ident (catName cat)) := word_cons rfl (by simp [keyword])
  cases lo with
  | none => exact identLeaf_good hw hk
  | some s =>
    refine ⟨fun {cs ts s'} h' => ?_, fun _ => rfl⟩
    have h1 := lex_word (p := catName c!"Cn") (t := .ident (catName c!"Cn")) (by decide) (by decide) rfl h'
    have h2 := lex_lit (a := c!" : ") (ts := [.sym .colon]) rfl h1
    have h3 := lex_word hw hk (c := ' ') rfl h2
    have h4 := lex_lit (a := c!" ? ") (ts := [.sym .quest]) rfl h3
    have h5 := lex_word (fmt_word (b := 10) (n := s) (by decide) (by decide)) (word_dec s) (c := ' ') rfl h4
    have h6 := lex_lit (a := c!"codepoint >= ") (ts := [.ident c!"codepoint", .sym .ge]) rfl h5
    simpa [retLeaf, catName, List.append_assoc] using h6

/-- The tokens of `if (codepoint < bound)`. -/
def ifToks (bound : Nat) (ts : List Tok) : List Tok :=
  .key .if :: .sym .lpar :: .ident c!"codepoint" :: .sym .lt :: .num bound :: .sym .rpar :: ts

/-- The tokens of the statements, before `ts`. -/
def codeToks : Code Str → List Tok → List Tok
  | .fall, ts => ts
  | .test bound lo cat rest, ts => ifToks bound (.key .return :: ((retLeaf lo cat).toks ++ .sym .semi :: codeToks rest ts))
  | .block bound body lo cat rest, ts =>
    ifToks bound (.sym .lbrace :: codeToks body (.key .return :: ((retLeaf lo cat).toks ++ .sym .semi :: .sym .rbrace :: codeToks rest ts)))

/-- The categories are words. -/
def Worded : Code Str → Prop
  | .fall => True
  | .test _ _ cat rest => (∀ c ∈ cat, isWord c = true) ∧ Worded rest
  | .block _ body _ cat rest => (∀ c ∈ cat, isWord c = true) ∧ Worded body ∧ Worded rest

theorem lex_indent {cs : Str} {ts : List Tok} {s : At} (h : feed .free cs = some (ts, s)) (i : Nat) : feed .free (indent i ++ cs) = some (ts, s) := by
  unfold indent
  generalize 4 * i = n
  induction n with
  | zero => exact h
  | succ n ih => exact lex_lit (a := [' ']) (ts := []) rfl ih

theorem lex_ret {lo : Option Nat} {cat : Str} (hc : ∀ c ∈ cat, isWord c = true) {cs : Str} {ts : List Tok} {s : At} (h : feed .free cs = some (ts, s)) :
    feed .free (retText lo cat ++ cs) = some (.key .return :: ((retLeaf lo cat).toks ++ .sym .semi :: ts), s) := by
  have h1 := lex_lit (a := c!";\n") (ts := [.sym .semi]) rfl h
  have h2 := lex_lit (a := c!"return ") (ts := [.key .return]) rfl ((retLeaf_good hc (lo := lo)).lex h1)
  cases lo <;> simpa [retText, retLeaf, identLeaf, catName, List.append_assoc] using h2

theorem lex_if {tail cs : Str} {us ts : List Tok} {s : At} (i bound : Nat) (ht : feed .free (')' :: tail) = some (.sym .rpar :: us, .free)) (h : feed .free cs = some (ts, s)) :
    feed .free (indent i ++ (c!"if (codepoint < " ++ (fmt 10 bound ++ (')' :: tail ++ cs)))) = some (ifToks bound (us ++ ts), s) := by
  have h1 := lex_word (fmt_word (b := 10) (n := bound) (by decide) (by decide)) (word_dec bound) (c := ')') rfl (lex_lit ht h)
  exact lex_indent (lex_lit (a := c!"if (codepoint < ") (ts := [.key .if, .sym .lpar, .ident c!"codepoint", .sym .lt]) rfl h1) i

theorem lex_code : ∀ (code : Code Str) (i : Nat), Worded code → ∀ {cs : Str} {ts : List Tok} {s : At}, feed .free cs = some (ts, s) →
    feed .free (codeText i code ++ cs) = some (codeToks code ts, s)
  | .fall, _, _, _, _, _, h => h
  | .test bound lo cat rest, i, hw, cs, ts, s, h => by
    have h1 := lex_code rest i hw.2 h
    have h2 := lex_indent (lex_lit (a := c!"    ") (ts := []) rfl (lex_ret hw.1 (lo := lo) h1)) i
    have h3 := lex_if (tail := c!"\n") (us := []) i bound rfl h2
    simpa [codeText, codeToks, List.append_assoc] using h3
  | .block bound body lo cat rest, i, hw, cs, ts, s, h => by
    have h1 := lex_code rest i hw.2.2 h
    have h2 := lex_indent (lex_lit (a := c!"}\n") (ts := [.sym .rbrace]) rfl h1) i
    have h3 := lex_indent (lex_lit (a := c!"    ") (ts := []) rfl (lex_ret hw.1 (lo := lo) h2)) i
    have h4 := lex_if (tail := c!" {\n") (us := [.sym .lbrace]) i bound rfl (lex_code body (i + 1) hw.2.1 h3)
    simpa [codeText, codeToks, List.append_assoc] using h4

/-- `codepoint < bound` -/
def below (bound : Nat) : E := .bin .lt (.var c!"codepoint") (.num bound)

/-- The statements, before `t`. -/
def codeStmts : Code Str → S → S
  | .fall, t => t
  | .test bound lo cat rest, t => .seq (.ite (below bound) (.ret (retLeaf lo cat).e) .skip) (codeStmts rest t)
  | .block bound body lo cat rest, t => .seq (.ite (below bound) (codeStmts body (.seq (.ret (retLeaf lo cat).e) .skip)) .skip) (codeStmts rest t)

/-- How deep the parser goes. -/
def depth : Code Str → Nat
  | .fall => 0
  | .test _ _ _ rest => depth rest + 3
  | .block _ body _ _ rest => depth body + depth rest + 6

/-- There is no `else` here. -/
def NoElse (ts : List Tok) : Prop := ∀ us, ts ≠ .key .else :: us

theorem noElse_code {ts : List Tok} (h : NoElse ts) : ∀ code, NoElse (codeToks code ts)
  | .fall => h
  | .test _ _ _ _ => by intro us; simp [codeToks, ifToks]
  | .block _ _ _ _ _ => by intro us; simp [codeToks, ifToks]

theorem pStmt_if {f bound : Nat} {us vs : List Tok} {s : S} (h : pStmt f us = some (s, vs)) (he : NoElse vs) :
    pStmt (f + 1) (ifToks bound us) = some (.ite (below bound) s .skip, vs) := by
  have h2 : pParen (.sym .lpar :: .ident c!"codepoint" :: .sym .lt :: .num bound :: .sym .rpar :: us) = some (below bound, us) := rfl
  rw [ifToks, pStmt]
  simp only [h2, h]
  split
  · next us => exact absurd rfl (he us)
  · rfl

theorem parse_code : ∀ (code : Code Str), Worded code → ∀ {ts us : List Tok} {t : S} {k : Nat}, NoElse ts → (∀ f, k ≤ f → pStmts f ts = some (t, us)) →
    ∀ f, k + depth code ≤ f → pStmts f (codeToks code ts) = some (codeStmts code t, us)
  | .fall, _, ts, us, t, k, _, h => h
  | .test bound lo cat rest, hw, ts, us, t, k, he, h => by
    intro f hf
    rw [depth] at hf
    obtain ⟨g, rfl⟩ : ∃ g, f = g + 3 := ⟨f - 3, by omega⟩
    have h1 := parse_code rest hw.2 he h (g + 2) (by omega)
    exact pStmts_cons (by simp) (pStmt_if (pStmt_return (retLeaf_good hw.1) g _) (noElse_code he rest)) h1
  | .block bound body lo cat rest, hw, ts, us, t, k, he, h => by
    intro f hf
    rw [depth] at hf
    obtain ⟨g, rfl⟩ : ∃ g, f = g + 3 := ⟨f - 3, by omega⟩
    have h1 := parse_code rest hw.2.2 he h (g + 2) (by omega)
    have h2 : ∀ f, 2 ≤ f → pStmts f (.key .return :: ((retLeaf lo cat).toks ++ .sym .semi :: .sym .rbrace :: codeToks rest ts)) =
        some (.seq (.ret (retLeaf lo cat).e) .skip, codeToks rest ts) := by
      intro f hf
      obtain ⟨f, rfl⟩ : ∃ g, f = g + 2 := ⟨f - 2, by omega⟩
      exact pStmts_cons (by simp) (pStmt_return (retLeaf_good hw.1) f _) rfl
    have h3 := parse_code body hw.2.1 (by intro us; simp) h2 g (by omega)
    have h4 : pStmt (g + 1) (.sym .lbrace :: codeToks body (.key .return :: ((retLeaf lo cat).toks ++ .sym .semi :: .sym .rbrace :: codeToks rest ts))) =
        some (codeStmts body (.seq (.ret (retLeaf lo cat).e) .skip), codeToks rest ts) := by
      rw [pStmt]; exact h3
    exact pStmts_cons (by simp) (pStmt_if h4 (noElse_code he rest)) h1

theorem depth_le : ∀ (code : Code Str) (ts : List Tok), depth code + ts.length ≤ (codeToks code ts).length
  | .fall, ts => by simp [depth, codeToks]
  | .test _ lo cat rest, ts => by
    have := depth_le rest ts
    simp only [depth, codeToks, ifToks, List.length_cons, List.length_append]; omega
  | .block _ body lo cat rest, ts => by
    have h1 := depth_le rest ts
    have h2 := depth_le body (.key .return :: ((retLeaf lo cat).toks ++ .sym .semi :: .sym .rbrace :: codeToks rest ts))
    simp only [List.length_cons, List.length_append] at h2
    simp only [depth, codeToks, ifToks, List.length_cons]; omega

theorem code_wf : ∀ (code : Code Str) (t : S), t.wf → t.labels = [] → (codeStmts code t).wf ∧ (codeStmts code t).labels = []
  | .fall, t, h, h' => ⟨h, h'⟩
  | .test _ lo cat rest, t, h, h' => by
    obtain ⟨h1, h2⟩ := code_wf rest t h h'
    exact ⟨⟨⟨trivial, trivial, rfl, rfl⟩, h1⟩, by simp [codeStmts, S.labels, h2]⟩
  | .block _ body lo cat rest, t, h, h' => by
    obtain ⟨h1, h2⟩ := code_wf rest t h h'
    obtain ⟨h3, h4⟩ := code_wf body (.seq (.ret (retLeaf lo cat).e) .skip) ⟨trivial, trivial⟩ rfl
    exact ⟨⟨⟨h3, trivial, h4, rfl⟩, h1⟩, by simp [codeStmts, S.labels, h2]⟩

/-- The numbers fit, and the constants have the values `val`. -/
def Valued (val : Str → Option Nat) : Code Str → Prop
  | .fall => True
  | .test bound lo cat rest => bound < 2 ^ 31 ∧ (∀ s ∈ lo, s < 2 ^ 31) ∧ (val cat).isSome ∧ Valued val rest
  | .block bound body lo cat rest => bound < 2 ^ 31 ∧ (∀ s ∈ lo, s < 2 ^ 31) ∧ (val cat).isSome ∧ Valued val body ∧ Valued val rest

variable {H : Str → Option V} {G : Globals} {L : Locals} {val : Str → Option Nat} {n : Int}

theorem eval_cmp {op : Sym} {k : Nat} (hk : k < 2 ^ 31) (hx : ident H G L c!"codepoint" = .ok (.int n)) (hop : op = .lt ∨ op = .ge) :
    (do liftC (truth (← E.eval H G L (.bin op (.var c!"codepoint") (.num k))))) = (pure (if op = .lt then decide (n < k) else decide (n ≥ k)) : D Bool) := by
  rcases hop with rfl | rfl
  · simp only [E.eval, hx, liftC_bind rfl, reduceCtorEq, if_false, hk, if_true]
    by_cases h : n < k
    · have : binary .lt (.int n) (.int k) = .ok (.int 1) := by
        show Spec.CText.int (if n < k then 1 else 0) = _
        rw [if_pos h]; rfl
      rw [this, liftC_bind rfl]; simp [h]; rfl
    · have : binary .lt (.int n) (.int k) = .ok (.int 0) := by
        show Spec.CText.int (if n < k then 1 else 0) = _
        rw [if_neg h]; rfl
      rw [this, liftC_bind rfl]; simp [h]; rfl
  · simp only [E.eval, hx, liftC_bind rfl, reduceCtorEq, if_false, hk, if_true]
    by_cases h : n ≥ k
    · have : binary .ge (.int n) (.int k) = .ok (.int 1) := by
        show Spec.CText.int (if n ≥ k then 1 else 0) = _
        rw [if_pos h]; rfl
      rw [this, liftC_bind rfl]; simp [h]; rfl
    · have : binary .ge (.int n) (.int k) = .ok (.int 0) := by
        show Spec.CText.int (if n ≥ k then 1 else 0) = _
        rw [if_neg h]; rfl
      rw [this, liftC_bind rfl]; simp [h]; rfl

theorem bind_truth {α : Type} {x : D V} {b : Bool} (h : (do liftC (truth (← x))) = (pure b : D Bool)) (f : Bool → D α) :
    (do let t ← liftC (truth (← x)); f t) = f b := by
  have : (do let t ← liftC (truth (← x)); f t) = (do let t ← (do liftC (truth (← x))); f t) := by simp only [bind_assoc]
  rw [this, h, pure_bind]

theorem exec_ite {c : E} {b : Bool} (h : (do liftC (truth (← c.eval H G L))) = (pure b : D Bool)) (s t : S) :
    (S.ite c s t).exec H G none L = if b then s.exec H G none L else t.exec H G none L := by
  rw [S.exec]
  exact bind_truth h _

/-- What an emitted `return` returns. -/
theorem eval_ret (hx : ident H G L c!"codepoint" = .ok (.int n)) (hv : ∀ c k, val c = some k → ident H G L (catName c) = .ok (.int k))
    (hCn : (val c!"Cn").isSome) {lo : Option Nat} (hlo : ∀ s ∈ lo, s < 2 ^ 31) {cat : Str} (hc : (val cat).isSome) :
    ∃ k, val (ret c!"Cn" lo cat n) = some k ∧ (retLeaf lo cat).e.eval H G L = pure (.int k) := by
  obtain ⟨k, hk⟩ := Option.isSome_iff_exists.1 hc
  obtain ⟨k', hk'⟩ := Option.isSome_iff_exists.1 hCn
  cases lo with
  | none => exact ⟨k, hk, by show E.eval H G L (.var _) = _; rw [E.eval, hv cat k hk]; rfl⟩
  | some s =>
    have h1 := eval_cmp (op := .ge) (G := G) (H := H) (hlo s rfl) hx (.inr rfl)
    have h2 : (retLeaf (some s) cat).e.eval H G L = if (if Sym.ge = .lt then decide (n < s) else decide (n ≥ s)) then E.eval H G L (.var (catName cat))
        else E.eval H G L (.var (catName c!"Cn")) := by
      show E.eval H G L (.cond _ _ _) = _
      conv_lhs => unfold E.eval
      exact bind_truth h1 _
    rw [h2]
    simp only [reduceCtorEq, if_false, pure_bind, decide_eq_true_eq, ret]
    by_cases h : n ≥ s
    · rw [if_pos h, if_pos h]; exact ⟨k, hk, by rw [E.eval, hv cat k hk]; rfl⟩
    · rw [if_neg h, if_neg h]; exact ⟨k', hk', by rw [E.eval, hv _ k' hk']; rfl⟩

/-- The statements do what `Code.exec` says. -/
theorem exec_code (hx : ident H G L c!"codepoint" = .ok (.int n)) (hv : ∀ c k, val c = some k → ident H G L (catName c) = .ok (.int k))
    (hCn : (val c!"Cn").isSome) : ∀ (code : Code Str), Valued val code → ∀ t : S,
    match code.exec c!"Cn" n with
    | some c => ∃ k, val c = some k ∧ (codeStmts code t).exec H G none L = pure (.ret (.int k))
    | none => (codeStmts code t).exec H G none L = t.exec H G none L
  | .fall, _, t => rfl
  | .test bound lo cat rest, ⟨hb, hlo, hc, hr⟩, t => by
    have h1 := eval_cmp (op := .lt) (G := G) (H := H) hb hx (.inl rfl)
    rw [codeStmts, S.exec, below, exec_ite h1, Code.exec]
    simp only [if_true, decide_eq_true_eq]
    by_cases h : n < bound
    · rw [if_pos h, if_pos h]
      obtain ⟨k, hk, he⟩ := eval_ret hx hv hCn hlo hc
      exact ⟨k, hk, by simp only [S.exec, he, pure_bind]⟩
    · rw [if_neg h, if_neg h]
      simp only [S.exec, pure_bind]
      exact exec_code hx hv hCn rest hr t
  | .block bound body lo cat rest, ⟨hb, hlo, hc, hbd, hr⟩, t => by
    have h1 := eval_cmp (op := .lt) (G := G) (H := H) hb hx (.inl rfl)
    rw [codeStmts, S.exec, below, exec_ite h1, Code.exec]
    simp only [if_true, decide_eq_true_eq]
    by_cases h : n < bound
    · rw [if_pos h, if_pos h]
      have h3 := exec_code hx hv hCn body hbd (.seq (.ret (retLeaf lo cat).e) .skip)
      cases e : body.exec c!"Cn" n with
      | some c =>
        rw [e] at h3
        obtain ⟨k, hk, he⟩ := h3
        exact ⟨k, hk, by rw [he]; simp only [pure_bind]⟩
      | none =>
        rw [e] at h3
        obtain ⟨k, hk, he⟩ := eval_ret hx hv hCn hlo hc
        refine ⟨k, hk, ?_⟩
        dsimp only at h3
        rw [h3]
        simp only [S.exec, he, pure_bind]
    · rw [if_neg h, if_neg h]
      simp only [S.exec, pure_bind]
      exact exec_code hx hv hCn rest hr t

/-- What the file means: the constant of the category. -/
theorem categoryOut_means {code : Code Str} (hw : Worded code) (hval : Valued val code) (hCn : (val c!"Cn").isSome)
    (hv : ∀ c k, val c = some k → H (catName c) = some (.int k)) (n : Int) :
    ∃ k : Nat, val (category c!"Cn" code n) = some k ∧ Means H (categoryOut code) c!"charstr_unicode_category" [.int n] (.int k) := by
  have h1 := lex_code code 1 hw (cs := c!"\n    return UNICODE_CATEGORY_Cn;\n}\n") (ts := [.key .return, .ident (catName c!"Cn"), .sym .semi, .sym .rbrace]) (s := .free) (by decide)
  have h2 := lex_lit (a := c!"#include \"charstr.h\"\n\ncharstr_unicode_category_t charstr_unicode_category(int codepoint)\n{\n")
    (ts := [.ident c!"charstr_unicode_category_t", .ident c!"charstr_unicode_category", .sym .lpar, .key .int, .ident c!"codepoint", .sym .rpar, .sym .lbrace]) (by decide) h1
  have h3 : lex (categoryOut code) = some (.ident c!"charstr_unicode_category_t" :: .ident c!"charstr_unicode_category" :: .sym .lpar :: .key .int :: .ident c!"codepoint" ::
      .sym .rpar :: .sym .lbrace :: codeToks code [.key .return, .ident (catName c!"Cn"), .sym .semi, .sym .rbrace]) := by
    rw [lex, categoryOut, h2]; rfl
  have h4 : pStmts ((codeToks code [.key .return, .ident (catName c!"Cn"), .sym .semi, .sym .rbrace]).length + 8)
      (codeToks code [.key .return, .ident (catName c!"Cn"), .sym .semi, .sym .rbrace]) = some (codeStmts code (.seq (.ret (.var (catName c!"Cn"))) .skip), []) := by
    refine parse_code code hw (k := 2) (by intro us; simp) ?_ _ ?_
    · intro f hf
      obtain ⟨f, rfl⟩ : ∃ g, f = g + 2 := ⟨f - 2, by omega⟩
      exact pStmts_cons (by simp) (pStmt_return (identLeaf_good (x := catName c!"Cn") (by decide) (by decide)) f _) rfl
    · have := depth_le code [.key .return, .ident (catName c!"Cn"), .sym .semi, .sym .rbrace]
      omega
  obtain ⟨w1, _⟩ := code_wf code (.seq (.ret (.var (catName c!"Cn"))) .skip) ⟨trivial, trivial⟩ rfl
  have h5 : program H (categoryOut code) = .ok [(c!"charstr_unicode_category", .func (invoke H [] .enum [c!"codepoint"] (codeStmts code (.seq (.ret (.var (catName c!"Cn"))) .skip))))] := by
    have h6 : parse (.ident c!"charstr_unicode_category_t" :: .ident c!"charstr_unicode_category" :: .sym .lpar :: .key .int :: .ident c!"codepoint" ::
        .sym .rpar :: .sym .lbrace :: codeToks code [.key .return, .ident (catName c!"Cn"), .sym .semi, .sym .rbrace]) =
        some [.func .enum c!"charstr_unicode_category" [c!"codepoint"] (codeStmts code (.seq (.ret (.var (catName c!"Cn"))) .skip))] := by
      generalize codeToks code [.key .return, .ident (catName c!"Cn"), .sym .semi, .sym .rbrace] = ts at h4
      simp only [parse, pUnit, pDecl, pType, List.length_cons, pParams, h4]
      rfl
    simp only [program, h3, h6, load, declare, w1, if_true, find, Option.isSome_none, Bool.false_eq_true, if_false]
  have hid : ∀ c k, val c = some k → ident H [] [(c!"codepoint", .int n)] (catName c) = .ok (.int k) := by
    intro c k h
    rw [ident, find_none (by simp [catName])]
    simp only [find, hv c k h]
  have h7 := exec_code (H := H) (G := []) (L := [(c!"codepoint", .int n)]) (n := n) rfl hid hCn code hval (.seq (.ret (.var (catName c!"Cn"))) .skip)
  have h8 : ∃ k, val (category c!"Cn" code n) = some k ∧
      (codeStmts code (.seq (.ret (.var (catName c!"Cn"))) .skip)).exec H [] none [(c!"codepoint", .int n)] = pure (.ret (.int k)) := by
    rw [category]
    cases e : code.exec c!"Cn" n with
    | some c => rw [e] at h7; exact h7
    | none =>
      rw [e] at h7
      obtain ⟨k', hk'⟩ := Option.isSome_iff_exists.1 hCn
      refine ⟨k', hk', ?_⟩
      dsimp only at h7
      rw [h7]
      simp only [S.exec, E.eval, hid _ _ hk', liftC_bind rfl, pure_bind]
  obtain ⟨k, hk, he⟩ := h8
  refine ⟨k, hk, _, _, h5, by rw [find, if_pos rfl], ?_⟩
  rw [invoke, if_pos (show [c!"codepoint"].length = [V.int n].length from rfl)]
  show Returns (do
    let r ← (codeStmts code (.seq (.ret (.var (catName c!"Cn"))) .skip)).exec H [] none [(c!"codepoint", .int n)]
    match r with
    | .ret v => liftC (convert .enum v)
    | _ => liftC (.error .ub)) _
  rw [he]
  simp only [pure_bind]
  rw [returns_liftC]; rfl

theorem emitAll_ok : ∀ {rs : List (Range Str)}, (∀ r ∈ rs, r.start < r.stop ∧ r.stop < 2 ^ 31 ∧ (val r.cat).isSome ∧ ∀ c ∈ r.cat, isWord c = true) →
    Worded (emitAll rs) ∧ Valued val (emitAll rs)
  | [], _ => ⟨trivial, trivial⟩
  | r :: rs, h => by
    obtain ⟨h1, h2⟩ := emitAll_ok (rs := rs) fun q hq => h q (by simp [hq])
    obtain ⟨h3, h4, h5, h6⟩ := h r (by simp)
    refine ⟨⟨h6, h1⟩, h4, ?_, h5, h2⟩
    intro s hs
    unfold low at hs
    split at hs
    · cases hs
    · cases hs; omega

/-- The statements for ranges whose bounds fit and whose categories have constants. -/
theorem emitBinary_ok : ∀ (n : Nat) {rs : List (Range Str)} {code : Code Str}, rs.length ≤ n → emitBinary rs = .ok code →
    (∀ r ∈ rs, r.start < r.stop ∧ r.stop < 2 ^ 31 ∧ (val r.cat).isSome ∧ ∀ c ∈ r.cat, isWord c = true) → Worded code ∧ Valued val code := by
  intro n
  induction n with
  | zero =>
    intro rs code hl h _
    have : rs = [] := by simpa using hl
    subst this
    unfold emitBinary at h
    cases h
  | succ n ih =>
    intro rs code hl h hr
    unfold emitBinary at h
    split at h
    · cases h
    split at h
    · cases h; exact emitAll_ok hr
    split at h
    · cases h
    rename_i r hm
    split at h
    · cases h
    rename_i body hbody
    split at h
    · cases h
    rename_i rest hrest
    cases h
    have hlen := (List.getElem?_eq_some_iff.1 hm).1
    obtain ⟨b1, b2⟩ := ih (by rw [List.length_take]; omega) hbody fun q hq => hr q (List.mem_of_mem_take hq)
    obtain ⟨r1, r2⟩ := ih (by rw [List.length_drop]; omega) hrest fun q hq => hr q (List.mem_of_mem_drop hq)
    obtain ⟨h3, h4, h5, h6⟩ := hr r (List.mem_of_getElem? hm)
    refine ⟨⟨h6, b1, r1⟩, h4, ?_, h5, b2, r2⟩
    intro s hs
    unfold low at hs
    split at hs
    · cases hs
    · cases hs; omega

end Verif.Emit
