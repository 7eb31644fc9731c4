import Verif.Proofs.EmitCategory
import Verif.Model.EmitIdna

/-! Files that consist of several pieces, and expressions and statements step by step. -/

set_option autoImplicit false

namespace Verif.Emit
open Verif.Spec.CText hiding Str
open Verif.Py (Str)

/-- A piece of text and the declarations in it. -/
def Piece (text : Str) (ds : List Decl) : Prop :=
  ∃ toks, feed .free text = some (toks, .free) ∧ ds.length ≤ toks.length ∧
    ∀ f ts es, pUnit f ts = some es → pUnit (f + ds.length) (toks ++ ts) = some (ds ++ es)

theorem Piece.append {a b : Str} {ds es : List Decl} (h : Piece a ds) (h' : Piece b es) : Piece (a ++ b) (ds ++ es) := by
  obtain ⟨ts, h1, h2, h3⟩ := h
  obtain ⟨us, h4, h5, h6⟩ := h'
  refine ⟨ts ++ us, lex_lit h1 h4, by simp only [List.length_append]; omega, fun f vs fs hf => ?_⟩
  have := h3 _ _ _ (h6 f vs fs hf)
  rw [List.length_append, List.append_assoc, List.append_assoc, Nat.add_comm ds.length, ← Nat.add_assoc]
  exact this

/-- Text without tokens before a piece. -/
theorem Piece.blank {a b : Str} {es : List Decl} (h : feed .free a = some ([], .free)) (h' : Piece b es) : Piece (a ++ b) es :=
  (show Piece a [] from ⟨[], h, le_refl _, fun _ _ _ h => h⟩).append h'

/-- A declaration whose tokens start with neither `static` nor nothing. -/
theorem Piece.decl {text : Str} {t : Tok} {toks : List Tok} {d : Decl} (h : feed .free text = some (t :: toks, .free)) (ht : t ≠ .key .static)
    (hd : ∀ ts, pDecl (t :: (toks ++ ts)) = some (d, ts)) : Piece text [d] := by
  refine ⟨_, h, by simp, fun f ts es hf => ?_⟩
  show pUnit (f + 1) (t :: (toks ++ ts)) = _
  rw [pUnit]
  · simp only [hd, hf]
    rfl
  · simp
  · intro us e
    exact ht (List.cons.inj e).1

/-- A declaration behind `static`. -/
theorem Piece.static {text : Str} {toks : List Tok} {d : Decl} (h : feed .free text = some (.key .static :: toks, .free))
    (hd : ∀ ts, pDecl (toks ++ ts) = some (d, ts)) : Piece text [d] := by
  refine ⟨_, h, by simp, fun f ts es hf => ?_⟩
  show pUnit (f + 1) (.key .static :: (toks ++ ts)) = _
  rw [pUnit]
  simp only [hd, hf]
  rfl

theorem Piece.program {text : Str} {ds : List Decl} (h : Piece text ds) (H : Str → Option V) : program H text = load H ds [] := by
  obtain ⟨ts, h1, h2, h3⟩ := h
  have h4 : lex text = some ts := by rw [lex, h1]
  have h5 : parse ts = some ds := by
    have := h3 (ts.length - ds.length + 1) [] [] rfl
    rw [List.append_nil, List.append_nil] at this
    rw [parse, ← this]
    congr 1
    omega
  rw [Spec.CText.program, h4]
  simp only [h5]

theorem load_cons {H : Str → Option V} {d : Decl} {ds : List Decl} {G : Globals} {g : Str × Global} (h : declare H G d = .ok g) (hf : find g.1 G = none) :
    load H (d :: ds) G = load H ds (g :: G) := by
  rw [load, h]
  simp only [hf, Option.isSome_none, Bool.false_eq_true, if_false]

variable {H : Str → Option V} {G : Globals} {L : Locals}

/-! ## Expressions -/

theorem liftC_ok {α : Type} {x : C α} {a : α} (h : x = .ok a) : (liftC x : D α) = pure a := by rw [h]; rfl

theorem eval_lit {n : Nat} (hn : n < 2 ^ 31) : E.eval H G L (.num n) = pure (.int n) := by
  rw [E.eval, if_pos hn]; rfl

theorem eval_var {x : Str} {v : V} (h : ident H G L x = .ok v) : E.eval H G L (.var x) = pure v := by
  rw [E.eval, h]; rfl

theorem eval_bin {op : Sym} {a b : E} {x y v : V} (hop : op ≠ .barbar) (ha : a.eval H G L = pure x) (hb : b.eval H G L = pure y)
    (h : binary op x y = .ok v) : E.eval H G L (.bin op a b) = pure v := by
  rw [E.eval, ha, hb]
  simp only [pure_bind, hop, if_false]
  exact liftC_ok h

theorem eval_cast {a : E} {n : Int} (ha : a.eval H G L = pure (.int n)) : E.eval H G L (.cast a) = pure (.u64 (toU64 n)) := by
  rw [E.eval, ha]; rfl

theorem eval_index {a i : E} {x y v : V} (ha : a.eval H G L = pure x) (hi : i.eval H G L = pure y) (h : subscript x y = .ok v) :
    E.eval H G L (.index a i) = pure v := by
  rw [E.eval, ha, hi]; exact liftC_ok h

theorem eval_field {a : E} {x : Str} {y v : V} (ha : a.eval H G L = pure y) (h : member y x = .ok v) : E.eval H G L (.field a x) = pure v := by
  rw [E.eval, ha]; exact liftC_ok h

/-- `1` for true. -/
def bit (b : Bool) : V := .int (if b then 1 else 0)

theorem truth_bit (b : Bool) : truth (bit b) = .ok b := by cases b <;> rfl

theorem eval_or {a b : E} {x y : Bool} (ha : a.eval H G L = pure (bit x)) (hb : b.eval H G L = pure (bit y)) :
    E.eval H G L (.bin .barbar a b) = pure (bit (x || y)) := by
  rw [E.eval, ha]
  simp only [pure_bind, if_true, liftC_bind (truth_bit x)]
  cases x
  · rw [hb]
    simp only [pure_bind, Bool.false_eq_true, if_false, liftC_bind (truth_bit y)]
    rfl
  · rfl

theorem int_small {n : Int} (h : -2 ^ 31 ≤ n ∧ n < 2 ^ 31) : Spec.CText.int n = .ok (.int n) := if_pos h

theorem int_bit (b : Bool) : Spec.CText.int (if b then 1 else 0) = .ok (bit b) := by cases b <;> rfl

theorem binary_lt (a b : Int) : binary .lt (.int a) (.int b) = .ok (bit (decide (a < b))) := by
  show Spec.CText.int (if a < b then 1 else 0) = _
  rw [← int_bit]; simp only [decide_eq_true_eq]
theorem binary_gt (a b : Int) : binary .gt (.int a) (.int b) = .ok (bit (decide (a > b))) := by
  show Spec.CText.int (if a > b then 1 else 0) = _
  rw [← int_bit]; simp only [decide_eq_true_eq]
theorem binary_ge (a b : Int) : binary .ge (.int a) (.int b) = .ok (bit (decide (a ≥ b))) := by
  show Spec.CText.int (if a ≥ b then 1 else 0) = _
  rw [← int_bit]; simp only [decide_eq_true_eq]
theorem binary_ne (a b : Int) : binary .ne (.int a) (.int b) = .ok (bit (decide (a ≠ b))) := by
  show Spec.CText.int (if a ≠ b then 1 else 0) = _
  rw [← int_bit]; simp only [decide_eq_true_eq]

/-! ## Statements -/

theorem exec_if {c : E} {b : Bool} (h : c.eval H G L = pure (bit b)) (s t : S) :
    (S.ite c s t).exec H G none L = if b then s.exec H G none L else t.exec H G none L := by
  refine exec_ite ?_ s t
  rw [h, pure_bind]
  exact liftC_ok (truth_bit b)

theorem exec_ret {e : E} {v : V} (h : e.eval H G L = pure v) : (S.ret e).exec H G none L = pure (.ret v) := by
  rw [S.exec, h]; rfl

theorem exec_seq {s t : S} {L' : Locals} (h : s.exec H G none L = pure (.next L')) : (S.seq s t).exec H G none L = t.exec H G none L' := by
  rw [S.exec, h]; rfl

theorem exec_seq_ret {s t : S} {v : V} (h : s.exec H G none L = pure (.ret v)) : (S.seq s t).exec H G none L = pure (.ret v) := by
  rw [S.exec, h]; rfl

theorem exec_decl {x : Str} {e : E} {v : V} (h : e.eval H G L = pure v) : (S.decl x e).exec H G none L = pure (.next ((x, v) :: L)) := by
  rw [S.exec, h]; rfl

theorem exec_assign {x : Str} {e : E} {v : V} {L' : Locals} (h : e.eval H G L = pure v) (hs : store L x v = .ok L') :
    (S.assign x e).exec H G none L = pure (.next L') := by
  rw [S.exec, h, pure_bind, liftC_bind hs]

theorem invoke_ret {t : Ty} {ps : List Str} {s : S} {vs : List V} {v w : V} (hp : ps.length = vs.length)
    (h : s.exec H G none (ps.zip vs) = pure (.ret v)) (hv : convert t v = .ok w) : Returns (invoke H G t ps s vs) w := by
  rw [invoke, if_pos hp, h, pure_bind]
  exact (returns_liftC _ _).2 hv

theorem convert_bit (b : Bool) : convert .bool (bit b) = .ok (bit b) := by
  rw [convert, truth_bit]; rfl

end Verif.Emit
