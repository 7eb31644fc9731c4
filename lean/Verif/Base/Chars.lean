import Lean.Elab.Term

/-! `c!"abc"` is the list of characters `['a', 'b', 'c']`. -/

open Lean Elab Term in
elab:max "c!" s:str : term => Meta.mkListLit (mkConst ``Char) (s.getString.toList.map toExpr)
