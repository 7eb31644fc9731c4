import Verif.Proofs.CText

/-! Emitted functions that consist of one `switch`. -/

set_option autoImplicit false

namespace Verif.Emit
open Verif.Spec.CText hiding Str
open Verif.Py (Str)

/-- What an emitted label returns: the text, its tokens and the expression. -/
structure Leaf where
  text : Str
  toks : List Tok
  e : E

/-- The text is read as the expression. -/
structure Leaf.Good (l : Leaf) : Prop where
  lex : ∀ {cs : Str} {ts : List Tok} {s : At}, feed .free (';' :: cs) = some (ts, s) → feed .free (l.text ++ ';' :: cs) = some (l.toks ++ ts, s)
  parse : ∀ ts, expr (l.toks ++ .sym .semi :: ts) = some (l.e, .sym .semi :: ts)

/-- The tokens of the labels. -/
def labelToks (cases : List (Nat × Leaf)) : List Tok :=
  cases.flatMap fun c => .key .case :: .num c.1 :: .sym .colon :: .key .return :: (c.2.toks ++ [.sym .semi])

theorem lex_label (n : Nat) {l : Leaf} (h : l.Good) {sep cs : Str} {ts : List Tok} {s : At} (hsep : feed .free (':' :: sep) = some ([.sym .colon, .key .return], .free))
    (h' : feed .free cs = some (ts, s)) :
    feed .free (c!"        case " ++ (fmt 10 n ++ (':' :: sep ++ (l.text ++ (c!";\n" ++ cs))))) =
      some (.key .case :: .num n :: .sym .colon :: .key .return :: (l.toks ++ .sym .semi :: ts), s) := by
  have h1 : feed .free (';' :: '\n' :: cs) = some (.sym .semi :: ts, s) := lex_lit (a := c!";\n") (ts := [.sym .semi]) rfl h'
  have h2 := lex_lit hsep (h.lex h1)
  exact lex_lit (ts := [.key .case]) rfl (lex_word (fmt_word (by decide) (by decide)) (word_dec n) rfl h2)

theorem lex_labels {sep : Str} (hsep : feed .free (':' :: sep) = some ([.sym .colon, .key .return], .free)) {cs : Str} {ts : List Tok} {s : At}
    (h' : feed .free cs = some (ts, s)) : ∀ cases : List (Nat × Leaf), (∀ c ∈ cases, c.2.Good) →
    feed .free (cases.flatMap (fun c => c!"        case " ++ (fmt 10 c.1 ++ (':' :: sep ++ (c.2.text ++ c!";\n")))) ++ cs) =
      some (labelToks cases ++ ts, s)
  | [], _ => h'
  | c :: cases, h => by
    have h1 := lex_labels hsep h' cases fun d hd => h d (by simp [hd])
    have h2 := lex_label c.1 (h c (by simp)) hsep h1
    simpa [labelToks, List.flatMap_cons, List.append_assoc] using h2

/-- The body of the `switch`. -/
def labels (d : E) : List (Nat × Leaf) → S
  | [] => .seq (.label none (.ret d)) .skip
  | c :: cases => .seq (.label (some c.1) (.ret c.2.e)) (labels d cases)

/-- A statement before others. -/
theorem pStmts_cons {f : Nat} {t : Tok} {ts us vs : List Tok} {s u : S} (ht : t ≠ .sym .rbrace) (h : pStmt f (t :: ts) = some (s, us))
    (h' : pStmts f us = some (u, vs)) : pStmts (f + 1) (t :: ts) = some (.seq s u, vs) := by
  unfold pStmts
  split
  · next h1 => exact absurd (List.cons.inj h1).1 ht
  · rw [h]; simp only [h']

theorem pStmt_return {l : Leaf} (h : l.Good) (f : Nat) (ts : List Tok) :
    pStmt (f + 1) (.key .return :: (l.toks ++ .sym .semi :: ts)) = some (.ret l.e, ts) := by
  simp only [pStmt, h.parse, expect, if_true]

theorem pStmt_case {l : Leaf} (h : l.Good) (f n : Nat) (ts : List Tok) :
    pStmt (f + 2) (.key .case :: .num n :: .sym .colon :: .key .return :: (l.toks ++ .sym .semi :: ts)) = some (.label (some n) (.ret l.e), ts) := by
  rw [pStmt]; simp only [pStmt_return h]

theorem pStmt_default {l : Leaf} (h : l.Good) (f : Nat) (ts : List Tok) :
    pStmt (f + 2) (.key .default :: .sym .colon :: .key .return :: (l.toks ++ .sym .semi :: ts)) = some (.label none (.ret l.e), ts) := by
  rw [pStmt]; simp only [pStmt_return h]

theorem parse_labels {d : Leaf} (hd : d.Good) (ts : List Tok) : ∀ (cases : List (Nat × Leaf)) (f : Nat), (∀ c ∈ cases, c.2.Good) →
    pStmts (f + cases.length + 4) (labelToks cases ++ (.key .default :: .sym .colon :: .key .return :: (d.toks ++ .sym .semi :: .sym .rbrace :: ts))) =
      some (labels d.e cases, ts)
  | [], f, _ => pStmts_cons (by simp) (pStmt_default hd (f + 1) _) rfl
  | c :: cases, f, h => by
    have ih := parse_labels hd ts cases f fun d hd => h d (by simp [hd])
    have e : f + (c :: cases).length + 4 = f + cases.length + 4 + 1 := by simp only [List.length_cons]; omega
    rw [e]
    simp only [labelToks, List.flatMap_cons, List.cons_append, List.append_assoc, List.nil_append] at ih ⊢
    exact pStmts_cons (by simp) (pStmt_case (h c (by simp)) (f + cases.length + 2) c.1 _) ih

/-- The expression that is chosen. -/
def pick (d : E) (cases : List (Nat × Leaf)) (n : Int) : E :=
  match cases.find? fun c => decide ((c.1 : Int) = n) with
  | some c => c.2.e
  | none => d

theorem labels_labels (d : E) : ∀ cases, (labels d cases).labels = cases.map (fun c => some c.1) ++ [none]
  | [] => rfl
  | c :: cases => by simp [labels, S.labels, labels_labels d cases]

theorem labels_wf (d : E) : ∀ cases, (labels d cases).wf
  | [] => ⟨trivial, trivial⟩
  | _ :: cases => ⟨trivial, labels_wf d cases⟩

variable {H : Str → Option V} {G : Globals} {L : Locals}

theorem exec_default (d : E) : ∀ cases, (labels d cases).exec H G (some none) L = (do let v ← d.eval H G L; pure (.ret v))
  | [] => by
    simp only [labels, S.exec, if_true, bind_assoc, pure_bind]
  | c :: cases => by
    simp only [labels, S.exec, reduceCtorEq, if_false, pure_bind]
    exact exec_default d cases

theorem exec_seek (d : E) (n : Nat) : ∀ cases, (labels d cases).exec H G (some (some n)) L =
    match cases.find? fun c => decide ((c.1 : Int) = n) with
    | some c => (do let v ← c.2.e.eval H G L; pure (.ret v))
    | none => pure .seek
  | [] => by
    simp only [labels, S.exec, reduceCtorEq, if_false, pure_bind, List.find?_nil]
  | c :: cases => by
    by_cases hc : c.1 = n
    · simp [labels, S.exec, hc]
    · have hc' : ¬ ((c.1 : Int) = n) := by omega
      simp only [labels, S.exec, Option.some.injEq, hc, if_false, pure_bind, List.find?_cons, hc', decide_false]
      exact exec_seek d n cases

theorem pick_neg {d : E} {n : Int} (hn : n < 0) : ∀ cases, pick d cases n = d := by
  intro cases
  have : cases.find? (fun c : Nat × Leaf => decide ((c.1 : Int) = n)) = none := by
    rw [List.find?_eq_none]; intro c _; simp; omega
  rw [pick, this]

/-- The `switch` runs the chosen `return`. -/
theorem exec_switch {x : Str} {n : Int} (hx : ident H G L x = .ok (.int n)) (d : E) (cases : List (Nat × Leaf)) :
    (S.seq (.switch (.var x) (labels d cases)) .skip).exec H G none L = (do let v ← (pick d cases n).eval H G L; pure (.ret v)) := by
  simp only [S.exec, E.eval, hx, liftC_bind rfl]
  by_cases hn : n < 0
  · rw [if_pos hn, exec_default, pick_neg hn]
    simp only [bind_assoc, pure_bind]
  · rw [if_neg hn, exec_seek]
    obtain ⟨k, rfl⟩ : ∃ k : Nat, n = k := ⟨n.toNat, by omega⟩
    simp only [Int.toNat_natCast]
    unfold pick
    cases h : cases.find? fun c => decide ((c.1 : Int) = k) with
    | none => simp only [pure_bind, exec_default, bind_assoc]
    | some c => simp only [bind_assoc, pure_bind]

/-- The tokens of the body of a function with one `switch`, behind the opening brace. -/
def switchToks (x : Str) (cases : List (Nat × Leaf)) (d : Leaf) (ts : List Tok) : List Tok :=
  .key .switch :: .sym .lpar :: .ident x :: .sym .rpar :: .sym .lbrace ::
    (labelToks cases ++ (.key .default :: .sym .colon :: .key .return :: (d.toks ++ .sym .semi :: .sym .rbrace :: .sym .rbrace :: ts)))

/-- The body of a function with one `switch`. -/
abbrev switchBody (x : Str) (cases : List (Nat × Leaf)) (d : Leaf) : S := .seq (.switch (.var x) (labels d.e cases)) .skip

theorem le_labelToks : ∀ cases, cases.length ≤ (labelToks cases).length
  | [] => by simp
  | c :: cases => by
    have := le_labelToks cases
    simp only [labelToks, List.flatMap_cons, List.length_append, List.length_cons] at this ⊢
    omega

theorem parse_switch (x : Str) {cases : List (Nat × Leaf)} {d : Leaf} (hc : ∀ c ∈ cases, c.2.Good) (hd : d.Good) (ts : List Tok) :
    pStmts ((switchToks x cases d ts).length + 8) (switchToks x cases d ts) = some (switchBody x cases d, ts) := by
  obtain ⟨f, hf⟩ : ∃ f, (switchToks x cases d ts).length + 8 = f + cases.length + 4 + 3 := by
    have := le_labelToks cases
    exact ⟨(switchToks x cases d ts).length + 8 - cases.length - 7, by simp only [switchToks, List.length_cons, List.length_append]; omega⟩
  rw [hf]
  refine pStmts_cons (by simp) (us := .sym .rbrace :: ts) ?_ rfl
  have h := parse_labels hd (.sym .rbrace :: ts) cases f hc
  have h1 : pStmt (f + cases.length + 4 + 1) (.sym .lbrace :: (labelToks cases ++
      (.key .default :: .sym .colon :: .key .return :: (d.toks ++ .sym .semi :: .sym .rbrace :: .sym .rbrace :: ts)))) =
      some (labels d.e cases, .sym .rbrace :: ts) := by
    rw [pStmt]; exact h
  have h2 : ∀ us, pParen (.sym .lpar :: .ident x :: .sym .rpar :: us) = some (.var x, us) := fun us => rfl
  rw [pStmt]
  simp only [h2, h1]

theorem switch_wf (x : Str) {cases : List (Nat × Leaf)} (d : Leaf) (hn : (cases.map Prod.fst).Nodup) : (switchBody x cases d).wf := by
  refine ⟨⟨labels_wf _ _, ?_⟩, trivial⟩
  rw [labels_labels, List.nodup_append]
  refine ⟨?_, by simp, by simp; rintro a _ _ _ rfl; simp⟩
  rw [show (fun c : Nat × Leaf => some c.1) = some ∘ Prod.fst from rfl, ← List.map_map]
  exact hn.map (Option.some_injective _)

/-- A call of a function with one `switch`. -/
theorem invoke_switch {x : Str} {ps : List Str} {vs : List V} (hp : ps.length = vs.length) {n : Int} (hx : ident H G (ps.zip vs) x = .ok (.int n))
    {cases : List (Nat × Leaf)} {d : Leaf} {t : Ty} {v w : V} (he : Returns ((pick d.e cases n).eval H G (ps.zip vs)) v) (hv : convert t v = .ok w) :
    Returns (invoke H G t ps (switchBody x cases d) vs) w := by
  rw [invoke, if_pos hp, switchBody, exec_switch hx, bind_assoc, returns_bind he]
  simp only [pure_bind]
  rw [returns_liftC]
  exact hv

end Verif.Emit
