import Verif.Proofs.EmitSwitch

/-! The emitted files that consist of one function with one `switch` over numbers. -/

set_option autoImplicit false

namespace Verif.Emit
open Verif.Spec.CText hiding Str
open Verif.Py (Str)

/-- A number. -/
def numLeaf (n : Nat) : Leaf := ⟨fmt 10 n, [.num n], .num n⟩

theorem numLeaf_good (n : Nat) : (numLeaf n).Good where
  lex h := lex_word (fmt_word (by decide) (by decide)) (word_dec n) rfl h
  parse _ := rfl

/-- An identifier. -/
def identLeaf (x : Str) : Leaf := ⟨x, [.ident x], .var x⟩

theorem identLeaf_good {x : Str} (h : ∀ c ∈ x, isWord c = true) (hw : word x = some (.ident x)) : (identLeaf x).Good where
  lex h' := lex_word h hw rfl h'
  parse _ := rfl

theorem labelToks_eq {α : Type} (cases : List (Nat × α)) (g : α → Leaf) {sep : Str} :
    cases.flatMap (fun c => c!"        case " ++ (fmt 10 c.1 ++ (':' :: sep ++ ((g c.2).text ++ c!";\n")))) =
    (cases.map fun c => (c.1, g c.2)).flatMap fun c => c!"        case " ++ (fmt 10 c.1 ++ (':' :: sep ++ (c.2.text ++ c!";\n"))) := by
  induction cases with
  | nil => rfl
  | cons c cases ih => simp only [List.flatMap_cons, List.map_cons, ih]

/-- A file with one function of type `int` that consists of one `switch` over its argument. -/
theorem program_switch (H : Str → Option V) {head tail name x : Str} {cases : List (Nat × Leaf)} {d : Leaf} (hc : ∀ c ∈ cases, c.2.Good) (hd : d.Good)
    (hn : (cases.map Prod.fst).Nodup)
    (hh : feed .free head = some ([.key .int, .ident name, .sym .lpar, .key .int, .ident x, .sym .rpar, .sym .lbrace,
      .key .switch, .sym .lpar, .ident x, .sym .rpar, .sym .lbrace], .free))
    (ht : feed .free tail = some (.key .default :: .sym .colon :: .key .return :: (d.toks ++ [.sym .semi, .sym .rbrace, .sym .rbrace]), .free)) :
    program H (head ++ (cases.flatMap (fun c => c!"        case " ++ (fmt 10 c.1 ++ (c!": return " ++ (c.2.text ++ c!";\n")))) ++ tail)) =
      .ok [(name, .func (invoke H [] .int [x] (switchBody x cases d)))] := by
  have h1 := lex_lit hh (lex_labels (sep := c!" return ") rfl ht cases hc)
  have h2 : lex (head ++ (cases.flatMap (fun c => c!"        case " ++ (fmt 10 c.1 ++ (c!": return " ++ (c.2.text ++ c!";\n")))) ++ tail)) =
      some (.key .int :: .ident name :: .sym .lpar :: .key .int :: .ident x :: .sym .rpar :: .sym .lbrace :: switchToks x cases d []) := by
    unfold lex
    rw [show feed .free _ = _ from h1]
    rfl
  have h3 : parse (.key .int :: .ident name :: .sym .lpar :: .key .int :: .ident x :: .sym .rpar :: .sym .lbrace :: switchToks x cases d []) =
      some [.func .int name [x] (switchBody x cases d)] := by
    have h := parse_switch x hc hd []
    generalize switchToks x cases d [] = ts at h
    simp only [parse, pUnit, pDecl, pType, List.length_cons, pParams, h]
  simp only [program, h2, h3, load, declare, switch_wf x d hn, if_true, find, Option.isSome_none, Bool.false_eq_true, if_false]

theorem eval_num {H : Str → Option V} {G : Globals} {L : Locals} {n : Nat} (hn : n < 2 ^ 31) : Returns (E.eval H G L (.num n)) (.int n) := by
  rw [E.eval, if_pos hn, returns_liftC]

theorem pick_map (d : E) (cases : List (Nat × Nat)) (n : Int) : pick d (cases.map fun c => (c.1, numLeaf c.2)) n =
    match cases.find? fun c => decide ((c.1 : Int) = n) with
    | some c => .num c.2
    | none => d := by
  rw [pick, List.find?_map]
  simp only [Function.comp_def]
  cases cases.find? fun c => decide ((c.1 : Int) = n) <;> rfl

/-- What a file of that kind means if all results are numbers but perhaps the one of `default`. -/
theorem switch_means (H : Str → Option V) {head tail name x : Str} {cases : List (Nat × Nat)} {d : Leaf} (hd : d.Good)
    (hn : (cases.map Prod.fst).Nodup) (hb : ∀ c ∈ cases, c.2 < 2 ^ 31)
    (hh : feed .free head = some ([.key .int, .ident name, .sym .lpar, .key .int, .ident x, .sym .rpar, .sym .lbrace,
      .key .switch, .sym .lpar, .ident x, .sym .rpar, .sym .lbrace], .free))
    (ht : feed .free tail = some (.key .default :: .sym .colon :: .key .return :: (d.toks ++ [.sym .semi, .sym .rbrace, .sym .rbrace]), .free))
    {n k : Int} (hk : Returns (d.e.eval H [] [(x, .int n)]) (.int k)) :
    Means H (head ++ (cases.flatMap (fun c => caseLine c.1 (fmt 10 c.2)) ++ tail)) name [.int n]
      (.int (match cases.find? fun c => decide ((c.1 : Int) = n) with
        | some c => c.2
        | none => k)) := by
  have hg : ∀ c ∈ cases.map fun c => (c.1, numLeaf c.2), Leaf.Good c.2 := by
    intro c hc; obtain ⟨a, _, rfl⟩ := List.mem_map.1 hc; exact numLeaf_good _
  have hp := program_switch H (cases := cases.map fun c => (c.1, numLeaf c.2)) hg hd (by rw [List.map_map]; exact hn) hh ht
  rw [← labelToks_eq cases numLeaf] at hp
  refine ⟨_, _, hp, by rw [find, if_pos rfl], invoke_switch rfl (n := n) (by simp [ident, find]) (v := .int _) ?_ rfl⟩
  rw [pick_map]
  cases h : cases.find? fun c => decide ((c.1 : Int) = n) with
  | none => exact hk
  | some c => exact eval_num (hb c (List.mem_of_find?_eq_some h))

/-- The file that lower_case.py writes. -/
theorem lowerOut_means (H : Str → Option V) {cases : List (Nat × Nat)} (hn : (cases.map Prod.fst).Nodup) (hb : ∀ c ∈ cases, c.2 < 2 ^ 31)
    (n : Int) : Means H (lowerOut cases) c!"charstr_naive_lcase_unicode" [.int n]
      (.int (match cases.find? fun c => decide ((c.1 : Int) = n) with
        | some c => c.2
        | none => n)) :=
  switch_means H (x := c!"codepoint") (d := identLeaf c!"codepoint") (identLeaf_good (by decide) (by decide)) hn hb (by decide) (by decide) ((returns_liftC _ _).2 rfl)

/-- The file that upper_case.py writes. -/
theorem upperOut_means (H : Str → Option V) {cases : List (Nat × Nat)} (hn : (cases.map Prod.fst).Nodup) (hb : ∀ c ∈ cases, c.2 < 2 ^ 31)
    (n : Int) : Means H (upperOut cases) c!"charstr_naive_ucase_unicode" [.int n]
      (.int (match cases.find? fun c => decide ((c.1 : Int) = n) with
        | some c => c.2
        | none => n)) :=
  switch_means H (x := c!"codepoint") (d := identLeaf c!"codepoint") (identLeaf_good (by decide) (by decide)) hn hb (by decide) (by decide) ((returns_liftC _ _).2 rfl)

/-- The file that canonical_combining_classes.py writes. -/
theorem cccOut_means (H : Str → Option V) {cases : List (Nat × Nat)} (hn : (cases.map Prod.fst).Nodup) (hb : ∀ c ∈ cases, c.2 < 2 ^ 31)
    (n : Int) : Means H (cccOut cases) c!"charstr_unicode_canonical_combining_class" [.int n]
      (.int (match cases.find? fun c => decide ((c.1 : Int) = n) with
        | some c => c.2
        | none => 0)) :=
  switch_means H (x := c!"codepoint") (d := numLeaf 0) (numLeaf_good 0) hn hb (by decide) (by decide) (eval_num (by decide))

end Verif.Emit
