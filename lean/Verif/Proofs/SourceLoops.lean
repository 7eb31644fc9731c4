import Verif.Proofs.SourceStrings

/-! The loops of charstr.c:8-324. -/

set_option autoImplicit false

namespace Verif.Source

open Verif.Spec.CSource Verif.Charstr

section
variable {c : Ctx} {ty : Str → Option T}

theorem while_done {e : E} {a b : S} {s s' : Store} {v : T × V} (h : e.eval c ty s = pure (v, s')) (hv : truth v.2 = false) :
    (S.seq (.while e a) b).exec c ty s = b.exec c ty s' := by
  rw [while_eq, h]; simp [hv]

theorem while_err {e : E} {a b : S} {s : Store} {r : Err} (h : e.eval c ty s = liftC (.error r)) :
    (S.seq (.while e a) b).exec c ty s = liftC (.error r) := by
  rw [while_eq, h]; rfl

theorem while_round {e : E} {a b : S} {s s' s'' : Store} {v : T × V} (h : e.eval c ty s = pure (v, s')) (hv : truth v.2 = true)
    (ha : a.exec c ty s' = pure (.next s'')) : (S.seq (.while e a) b).exec c ty s = (S.seq (.while e a) b).exec c ty (leave s' s'') := by
  rw [while_eq, h]; simp [hv, ha, round]

theorem while_ret {e : E} {a b : S} {s s' : Store} {v w : T × V} {m : Mem} (h : e.eval c ty s = pure (v, s')) (hv : truth v.2 = true)
    (ha : a.exec c ty s' = pure (.ret w m)) : (S.seq (.while e a) b).exec c ty s = pure (.ret w m) := by
  rw [while_eq, h]; simp [hv, ha, round]

theorem while_fail {e : E} {a b : S} {s s' : Store} {v : T × V} {r : Err} (h : e.eval c ty s = pure (v, s')) (hv : truth v.2 = true)
    (ha : a.exec c ty s' = liftC (.error r)) : (S.seq (.while e a) b).exec c ty s = liftC (.error r) := by
  rw [while_eq, h]; simp [hv, ha, liftC_err]

theorem for_done {e i : E} {a b : S} {s s' : Store} {v : T × V} (h : e.eval c ty s = pure (v, s')) (hv : truth v.2 = false) :
    (S.seq (.for e i a) b).exec c ty s = b.exec c ty s' := by
  rw [for_eq, h]; simp [hv]

theorem for_err {e i : E} {a b : S} {s : Store} {r : Err} (h : e.eval c ty s = liftC (.error r)) :
    (S.seq (.for e i a) b).exec c ty s = liftC (.error r) := by
  rw [for_eq, h]; rfl

theorem for_round {e i : E} {a b : S} {s s' s'' t : Store} {v w : T × V} (h : e.eval c ty s = pure (v, s')) (hv : truth v.2 = true)
    (ha : a.exec c ty s' = pure (.next s'')) (hi : i.eval c ty (leave s' s'') = pure (w, t)) :
    (S.seq (.for e i a) b).exec c ty s = (S.seq (.for e i a) b).exec c ty t := by
  rw [for_eq, h]; simp [hv, ha, round, hi]

theorem for_ret {e i : E} {a b : S} {s s' : Store} {v w : T × V} {m : Mem} (h : e.eval c ty s = pure (v, s')) (hv : truth v.2 = true)
    (ha : a.exec c ty s' = pure (.ret w m)) : (S.seq (.for e i a) b).exec c ty s = pure (.ret w m) := by
  rw [for_eq, h]; simp [hv, ha, round]

theorem for_fail {e i : E} {a b : S} {s s' : Store} {v : T × V} {r : Err} (h : e.eval c ty s = pure (v, s')) (hv : truth v.2 = true)
    (ha : a.exec c ty s' = liftC (.error r)) : (S.seq (.for e i a) b).exec c ty s = liftC (.error r) := by
  rw [for_eq, h]; simp [hv, ha, liftC_err]

theorem if_then {e : E} {a b : S} {s s' : Store} {v : T × V} (h : e.eval c ty s = pure (v, s')) (hv : truth v.2 = true) :
    (S.ite e a b).exec c ty s = a.exec c ty s' := by
  simp [S.exec, h, hv]

theorem if_else {e : E} {a b : S} {s s' : Store} {v : T × V} (h : e.eval c ty s = pure (v, s')) (hv : truth v.2 = false) :
    (S.ite e a b).exec c ty s = b.exec c ty s' := by
  simp [S.exec, h, hv]

theorem if_err {e : E} {a b : S} {s : Store} {r : Err} (h : e.eval c ty s = liftC (.error r)) : (S.ite e a b).exec c ty s = liftC (.error r) := by
  simp [S.exec, h, liftC_err]

theorem ret_eq {e : E} {s s' : Store} {v : T × V} (h : e.eval c ty s = pure (v, s')) : (S.ret e).exec c ty s = pure (.ret v s'.mem) := by
  simp [S.exec, h]

theorem decl_eq {t u : T} {x : Str} {e : E} {s s' : Store} {v w : V} (h : e.eval c ty s = pure ((u, v), s')) (hw : convert t v = .ok w) :
    (S.decl t x (some e)).exec c ty s = pure (.next ⟨(x, t, w) :: s'.locals, s'.mem⟩) := by
  simp [S.exec, h, hw, map_liftC_ok]

theorem decl_err {t : T} {x : Str} {e : E} {s : Store} {r : Err} (h : e.eval c ty s = liftC (.error r)) :
    (S.decl t x (some e)).exec c ty s = liftC (.error r) := by
  simp [S.exec, h, liftC_err]

theorem char_truth (b : UInt8) : truth (.num (schar b)) = decide (b ≠ 0) := by
  by_cases h : b = 0
  · subst h; decide
  · have := schar_zero (b := b)
    simp [truth, h, this]

theorem char_ne (M : Mem) (a b : UInt8) : binary M c!"!=" (charT, .num (schar a)) (charT, .num (schar b)) = .ok (flag (decide (a ≠ b))) := by
  have h1 := schar_range a
  have h2 := schar_range b
  have e1 : Int.bmod (schar a) 4294967296 = schar a := bmod32 (by omega) (by omega)
  have e2 : Int.bmod (schar b) 4294967296 = schar b := bmod32 (by omega) (by omega)
  simp [binary, isInt, promote, usual, conv, arith, e1, e2, schar_inj]

theorem flag_truth (b : Bool) : truth (flag b).2 = b := by cases b <;> rfl

end

/-! ## Prefixes -/

/-- What the two functions have in common: characters are compared after `f`. -/
def prefixBy (f : UInt8 → UInt8) : List UInt8 → List UInt8 → C (Option (List UInt8))
  | _, [] => .error .ub
  | s, p :: ps =>
    if p ≠ 0 then match s with
      | [] => .error .ub
      | c :: cs => if f c ≠ f p then .ok none else prefixBy f cs ps
    else .ok (some s)

theorem prefixBy_nil (f : UInt8 → UInt8) (s : List UInt8) : prefixBy f s [] = .error .ub := by cases s <;> rfl

theorem prefixBy_zero (f : UInt8 → UInt8) (s ps : List UInt8) : prefixBy f s (0 :: ps) = .ok (some s) := by cases s <;> simp [prefixBy]

theorem skipPrefix_by : ∀ (p s : List UInt8), skipPrefix s p = prefixBy id s p
  | [], s => by cases s <;> rfl
  | p :: ps, [] => by simp [skipPrefix, prefixBy]
  | p :: ps, c :: cs => by
    simp only [skipPrefix, prefixBy, skipPrefix_by ps cs, id]

theorem caseSkipPrefix_by : ∀ (p s : List UInt8), caseSkipPrefix s p = prefixBy lcaseChar s p
  | [], s => by cases s <;> rfl
  | p :: ps, [] => by simp [caseSkipPrefix, prefixBy]
  | p :: ps, c :: cs => by
    simp only [caseSkipPrefix, prefixBy, caseSkipPrefix_by ps cs]

def prefixVars (o : Str) (i : Nat) (o' : Str) (j : Nat) : List (Str × T × V) := [(c!"s", strT, .ptr o (i : Int)), (c!"prefix", strT, .ptr o' (j : Int))]

/-- How a search for a prefix ends: with NULL or with a pointer to what follows the prefix. -/
def found (o : Str) (n : Nat) (M : Mem) : C (Option (List UInt8)) → D Res
  | .error e => liftC (.error e)
  | .ok none => pure (.ret (.ptr .void, .null) M)
  | .ok (some r) => pure (.ret (strT, .ptr o ((n - r.length : Nat) : Int)) M)

theorem prefix_exec {c : Ctx} (hh : c.headers = charstrHeaders) {M : Mem} {o o' : Str} {s p : List UInt8} (ho' : find o' M = some (bytes p)) (f : UInt8 → UInt8) {a b : E}
    (ha : ∀ i j x xs, s.drop i = x :: xs → a.eval c fileTypes ⟨prefixVars o i o' j, M⟩ = pure ((charT, .num (schar (f x))), ⟨prefixVars o (i + 1) o' j, M⟩))
    (ha' : ∀ i j, s.drop i = [] → a.eval c fileTypes ⟨prefixVars o i o' j, M⟩ = liftC (.error .ub))
    (hb : ∀ i j x xs, p.drop j = x :: xs → b.eval c fileTypes ⟨prefixVars o i o' j, M⟩ = pure ((charT, .num (schar (f x))), ⟨prefixVars o i o' (j + 1), M⟩)) :
    ∀ (ps : List UInt8) (i j : Nat), p.drop j = ps → i ≤ s.length →
      (prefixBody a b).exec c fileTypes ⟨prefixVars o i o' j, M⟩ = found o s.length M (prefixBy f (s.drop i) ps)
  | [], i, j, h, _ => by
    have hc := read_var_ub (c := c) (ty := fileTypes) (l := prefixVars o i o' j) (x := c!"prefix") (o := o') (i := j) (by simp [prefixVars, find]) ho' h
    rw [prefixBy_nil]
    exact while_err hc
  | x :: ps, i, j, h, hi => by
    have hc := read_var (c := c) (ty := fileTypes) (l := prefixVars o i o' j) (x := c!"prefix") (o := o') (i := j) (by simp [prefixVars, find]) ho' h
    by_cases hx : x = 0
    · have hv : truth (.num (schar x)) = false := by rw [char_truth]; simp [hx]
      have hr : (S.ret (.var c!"s")).exec c fileTypes ⟨prefixVars o i o' j, M⟩ = pure (.ret (strT, .ptr o (i : Int)) M) :=
        ret_eq (local_eq (by simp [prefixVars, find]))
      unfold prefixBody
      rw [while_done hc hv, seq_ret hr]
      have hl : s.length - (s.length - i) = i := by omega
      rw [hx, prefixBy_zero]
      simp [found, hl]
    · have hv : truth (.num (schar x)) = true := by rw [char_truth]; simp [hx]
      cases hs : s.drop i with
      | nil =>
        have he : (E.bin c!"!=" a b).eval c fileTypes ⟨prefixVars o i o' j, M⟩ = liftC (.error .ub) := bin_ne_left (ha' i j hs)
        unfold prefixBody
        rw [while_fail hc hv (if_err he)]
        simp [prefixBy, hx, found]
      | cons y ys =>
        have he : (E.bin c!"!=" a b).eval c fileTypes ⟨prefixVars o i o' j, M⟩ = pure (flag (decide (f y ≠ f x)), ⟨prefixVars o (i + 1) o' (j + 1), M⟩) :=
          bin_ne (ha i j y ys hs) (hb (i + 1) j x ps h) (char_ne M _ _)
        by_cases hf : f y = f x
        · have hn : (S.ite (.bin c!"!=" a b) (.ret (.var c!"NULL")) .skip).exec c fileTypes ⟨prefixVars o i o' j, M⟩ =
              pure (.next ⟨prefixVars o (i + 1) o' (j + 1), M⟩) := by
            rw [if_else he (by rw [flag_truth]; simp [hf])]; rfl
          have ih := prefix_exec hh ho' f ha ha' hb ps (i + 1) (j + 1) (drop_next h) (drop_lt hs)
          unfold prefixBody at ih ⊢
          rw [while_round hc hv hn]
          rw [show leave ⟨prefixVars o i o' j, M⟩ ⟨prefixVars o (i + 1) o' (j + 1), M⟩ = ⟨prefixVars o (i + 1) o' (j + 1), M⟩ from rfl, ih, drop_next hs]
          simp [prefixBy, hx, hf]
        · have hnull : (E.var c!"NULL").eval c fileTypes ⟨prefixVars o (i + 1) o' (j + 1), M⟩ = pure ((.ptr .void, .null), ⟨prefixVars o (i + 1) o' (j + 1), M⟩) := by
            simp [E.eval, prefixVars, find, outer, fileTypes, charstrTypes, hh, charstrHeaders, map_liftC_ok]
          have hn : (S.ite (.bin c!"!=" a b) (.ret (.var c!"NULL")) .skip).exec c fileTypes ⟨prefixVars o i o' j, M⟩ = pure (.ret (.ptr .void, .null) M) := by
            rw [if_then he (by rw [flag_truth]; simp [hf]), ret_eq hnull]
          unfold prefixBody
          rw [while_ret hc hv hn]
          simp [prefixBy, hx, hf, found]

theorem skip_exec {c : Ctx} (hh : c.headers = charstrHeaders) {M : Mem} {o o' : Str} {s p : List UInt8} (ho : find o M = some (bytes s)) (ho' : find o' M = some (bytes p))
    {i j : Nat} (hi : i ≤ s.length) : skipBody.exec c fileTypes ⟨prefixVars o i o' j, M⟩ = found o s.length M (skipPrefix (s.drop i) (p.drop j)) := by
  rw [skipPrefix_by]
  refine prefix_exec hh ho' id ?_ ?_ ?_ _ i j rfl hi
  · intro i j x xs h
    exact next_var (by simp [prefixVars, find]) ho h (by simp [prefixVars, replace])
  · intro i j h
    exact next_var_ub (by simp [prefixVars, find]) ho h
  · intro i j x xs h
    exact next_var (by simp [prefixVars, find]) ho' h (by simp [prefixVars, replace])

theorem call1_eq {c : Ctx} {ty : Str → Option T} {f : Str} {a : E} {s s' : Store} {v r : T × V} {g : List (T × V) → Mem → D ((T × V) × Mem)} (ha : a.eval c ty s = pure (v, s'))
    (hf : find f c.funcs = some g) (hg : g [v] s'.mem = pure (r, s'.mem)) : (E.call1 f a).eval c ty s = pure (r, s') := by
  simp [E.eval, ha, hf, hg]

theorem call1_err {c : Ctx} {ty : Str → Option T} {f : Str} {a : E} {s : Store} {e : Err} (ha : a.eval c ty s = liftC (.error e)) :
    (E.call1 f a).eval c ty s = liftC (.error e) := by
  simp [E.eval, ha, liftC_err]

theorem caseSkip_exec {c c' : Ctx} (hh : c.headers = charstrHeaders) (hc' : c'.structs = charstrStructs)
    (hf : find c!"charstr_lcase_char" c.funcs = some (invoke c' fileTypes charT cParams (caseBody c!"lower"))) {M : Mem} (hM : Tables M) {o o' : Str} {s p : List UInt8}
    (ho : find o M = some (bytes s)) (ho' : find o' M = some (bytes p)) {i j : Nat} (hi : i ≤ s.length) :
    caseSkipBody.exec c fileTypes ⟨prefixVars o i o' j, M⟩ = found o s.length M (caseSkipPrefix (s.drop i) (p.drop j)) := by
  rw [caseSkipPrefix_by]
  refine prefix_exec hh ho' lcaseChar ?_ ?_ ?_ _ i j rfl hi
  · intro i j x xs h
    exact call1_eq (next_var (l' := prefixVars o (i + 1) o' j) (by simp [prefixVars, find]) ho h (by simp [prefixVars, replace])) hf (lcase_call hc' hM _ _)
  · intro i j h
    exact call1_err (next_var_ub (by simp [prefixVars, find]) ho h)
  · intro i j x xs h
    exact call1_eq (next_var (l' := prefixVars o i o' (j + 1)) (by simp [prefixVars, find]) ho' h (by simp [prefixVars, replace])) hf (lcase_call hc' hM _ _)

/-! ## Comparison -/

theorem uchar_truth (M : Mem) (a b : UInt8) : binary M c!"<" (.int false 8, .num a.toNat) (.int false 8, .num b.toNat) = .ok (flag (decide (a < b))) ∧
    binary M c!">" (.int false 8, .num a.toNat) (.int false 8, .num b.toNat) = .ok (flag (decide (a > b))) := by
  have h1 := a.toNat_lt
  have h2 := b.toNat_lt
  have e1 : Int.bmod (a.toNat : Int) 4294967296 = a.toNat := bmod32 (by omega) (by omega)
  have e2 : Int.bmod (b.toNat : Int) 4294967296 = b.toNat := bmod32 (by omega) (by omega)
  constructor
  · simp [binary, isInt, promote, usual, conv, arith, e1, e2, UInt8.lt_iff_toNat_lt]
  · simp [binary, isInt, promote, usual, conv, arith, e1, e2, UInt8.lt_iff_toNat_lt]

def cmpVars (o : Str) (i : Nat) (o' : Str) (j : Nat) (r : List (Str × T × V)) : List (Str × T × V) :=
  (c!"a", strT, .ptr o (i : Int)) :: (c!"b", strT, .ptr o' (j : Int)) :: r

theorem convert_uchar (b : UInt8) : convert (.int false 8) (.num (schar b)) = .ok (.num b.toNat) := by
  simp [convert, conv, schar_mod]

theorem less_eq {c : Ctx} (M : Mem) (a b : UInt8) (l : List (Str × T × V)) (ha : find c!"ac" l = some (.int false 8, .num a.toNat)) (hb : find c!"bc" l = some (.int false 8, .num b.toNat)) :
    (E.bin c!"<" (.var c!"ac") (.var c!"bc")).eval c fileTypes ⟨l, M⟩ = pure (flag (decide (a < b)), ⟨l, M⟩) ∧
    (E.bin c!">" (.var c!"ac") (.var c!"bc")).eval c fileTypes ⟨l, M⟩ = pure (flag (decide (a > b)), ⟨l, M⟩) := by
  have h := uchar_truth M a b
  constructor
  · simp [E.eval, ha, hb, h.1, map_liftC_ok]
  · simp [E.eval, ha, hb, h.2, map_liftC_ok]

theorem minus_one {c : Ctx} (s : Store) : (S.ret (.unary c!"-" (.num 1 false false))).exec c fileTypes s = pure (.ret (.int true 32, .num (-1)) s.mem) := by
  simp [S.exec, E.eval, constType, unaryOp, promote, result, map_liftC_ok]

theorem plain_num {c : Ctx} (s : Store) : (S.ret (.num 1 false false)).exec c fileTypes s = pure (.ret (.int true 32, .num 1) s.mem) ∧
    (S.ret (.num 0 false false)).exec c fileTypes s = pure (.ret (.int true 32, .num 0) s.mem) := by
  simp [S.exec, E.eval, constType, map_liftC_ok]

theorem cmp_round {c : Ctx} (hc : c.structs = charstrStructs) {M : Mem} (hM : Tables M) {o o' : Str} {s p xs ys : List UInt8} (ho : find o M = some (bytes s))
    (ho' : find o' M = some (bytes p)) {r : List (Str × T × V)} (hr : find c!"case_table" r = none) {i j : Nat} {x y : UInt8} (hx : s.drop i = x :: xs) (hy : p.drop j = y :: ys) :
    cmpRound.exec c fileTypes ⟨cmpVars o i o' j r, M⟩ =
      if lcaseChar x < lcaseChar y then pure (.ret (.int true 32, .num (-1)) M) else if lcaseChar x > lcaseChar y then pure (.ret (.int true 32, .num 1) M)
      else pure (.next ⟨(c!"bc", .int false 8, .num (lcaseChar y).toNat) :: (c!"ac", .int false 8, .num (lcaseChar x).toNat) :: cmpVars o (i + 1) o' (j + 1) r, M⟩) := by
  have h1 := lower_var (c := c) (l := cmpVars o i o' j r) (l' := cmpVars o (i + 1) o' j r) hc hM (by simp [cmpVars, find, hr]) (x := c!"a") (o := o) (by simp [cmpVars, find]) ho hx
    (by simp [cmpVars, replace])
  have d1 := decl_eq (x := c!"ac") h1 (convert_uchar _)
  have h2 := lower_var (c := c) (l := (c!"ac", .int false 8, .num (lcaseChar x).toNat) :: cmpVars o (i + 1) o' j r)
    (l' := (c!"ac", .int false 8, .num (lcaseChar x).toNat) :: cmpVars o (i + 1) o' (j + 1) r) hc hM (by simp [cmpVars, find, hr]) (x := c!"b") (o := o') (by simp [cmpVars, find]) ho' hy
    (by simp [cmpVars, replace])
  have d2 := decl_eq (x := c!"bc") h2 (convert_uchar _)
  unfold cmpRound
  rw [seq_next d1]
  dsimp only
  rw [seq_next d2]
  dsimp only
  have hl := less_eq (c := c) M (lcaseChar x) (lcaseChar y)
    ((c!"bc", .int false 8, .num (lcaseChar y).toNat) :: (c!"ac", .int false 8, .num (lcaseChar x).toNat) :: cmpVars o (i + 1) o' (j + 1) r) (by simp [find]) (by simp [find])
  by_cases hlt : lcaseChar x < lcaseChar y
  · rw [if_pos hlt]
    exact seq_ret (by rw [if_then hl.1 (by rw [flag_truth]; simp [hlt]), minus_one])
  · rw [if_neg hlt, seq_next (s' := ⟨_, M⟩) (by rw [if_else hl.1 (by rw [flag_truth]; simp [hlt])]; rfl)]
    by_cases hgt : lcaseChar x > lcaseChar y
    · rw [if_pos hgt]
      exact seq_ret (by rw [if_then hl.2 (by rw [flag_truth]; simp [hgt]), (plain_num _).1])
    · rw [if_neg hgt, seq_next (s' := ⟨_, M⟩) (by rw [if_else hl.2 (by rw [flag_truth]; simp [hgt])]; rfl)]
      rfl

theorem cmp_round_right {c : Ctx} (hc : c.structs = charstrStructs) {M : Mem} (hM : Tables M) {o o' : Str} {s p xs : List UInt8} (ho : find o M = some (bytes s))
    (ho' : find o' M = some (bytes p)) {r : List (Str × T × V)} (hr : find c!"case_table" r = none) {i j : Nat} {x : UInt8} (hx : s.drop i = x :: xs) (hy : p.drop j = []) :
    cmpRound.exec c fileTypes ⟨cmpVars o i o' j r, M⟩ = liftC (.error .ub) := by
  have h1 := lower_var (c := c) (l := cmpVars o i o' j r) (l' := cmpVars o (i + 1) o' j r) hc hM (by simp [cmpVars, find, hr]) (x := c!"a") (o := o) (by simp [cmpVars, find]) ho hx
    (by simp [cmpVars, replace])
  have d1 := decl_eq (x := c!"ac") h1 (convert_uchar _)
  have h2 := lower_var_ub (c := c) (l := (c!"ac", .int false 8, .num (lcaseChar x).toNat) :: cmpVars o (i + 1) o' j r) (by simp [cmpVars, find, hr]) (x := c!"b") (o := o')
    (by simp [cmpVars, find]) ho' hy
  unfold cmpRound
  rw [seq_next d1]
  exact seq_err (decl_err h2)

/-- How a comparison ends. -/
def compared (M : Mem) : C Int → D Res
  | .error e => liftC (.error e)
  | .ok n => pure (.ret (.int true 32, .num n) M)

theorem cmp_exec {c : Ctx} (hc : c.structs = charstrStructs) {M : Mem} (hM : Tables M) {o o' : Str} {s p : List UInt8} (ho : find o M = some (bytes s))
    (ho' : find o' M = some (bytes p)) : ∀ (xs : List UInt8) (i j : Nat), s.drop i = xs →
      cmpBody.exec c fileTypes ⟨cmpVars o i o' j [], M⟩ = compared M (caseCmp xs (p.drop j))
  | [], i, j, h => by
    have hr := read_var_ub (c := c) (ty := fileTypes) (l := cmpVars o i o' j []) (x := c!"a") (o := o) (by simp [cmpVars, find]) ho h
    have hw : cmpBody.exec c fileTypes ⟨cmpVars o i o' j [], M⟩ = liftC (.error .ub) := while_err hr
    rw [hw]
    simp [caseCmp, compared]
  | x :: xs, i, j, h => by
    have hr := read_var (c := c) (ty := fileTypes) (l := cmpVars o i o' j []) (x := c!"a") (o := o) (by simp [cmpVars, find]) ho h
    by_cases hx : x = 0
    · have hv : truth (.num (schar x)) = false := by rw [char_truth]; simp [hx]
      unfold cmpBody
      rw [while_done hr hv]
      unfold cmpEnd
      cases hp : p.drop j with
      | nil =>
        have hb := read_var_ub (c := c) (ty := fileTypes) (l := cmpVars o i o' j []) (x := c!"b") (o := o') (by simp [cmpVars, find]) ho' hp
        rw [seq_err (if_err hb)]
        simp [caseCmp, hx, peek, compared]
      | cons y ys =>
        have hb := read_var (c := c) (ty := fileTypes) (l := cmpVars o i o' j []) (x := c!"b") (o := o') (by simp [cmpVars, find]) ho' hp
        by_cases hy : y = 0
        · have hw : truth (.num (schar y)) = false := by rw [char_truth]; simp [hy]
          rw [seq_next (s' := ⟨_, M⟩) (by rw [if_else hb hw]; rfl), seq_ret (plain_num _).2]
          simp [caseCmp, hx, peek, hy, compared]
        · have hw : truth (.num (schar y)) = true := by rw [char_truth]; simp [hy]
          rw [seq_ret (by rw [if_then hb hw, minus_one])]
          simp [caseCmp, hx, peek, hy, compared]
    · have hv : truth (.num (schar x)) = true := by rw [char_truth]; simp [hx]
      cases hp : p.drop j with
      | nil =>
        unfold cmpBody
        rw [while_fail hr hv (cmp_round_right hc hM ho ho' rfl h hp)]
        simp [caseCmp, hx, compared]
      | cons y ys =>
        have hb := cmp_round hc hM ho ho' (r := []) rfl h hp
        by_cases h1 : lcaseChar x < lcaseChar y
        · rw [if_pos h1] at hb
          unfold cmpBody
          rw [while_ret hr hv hb]
          simp [caseCmp, hx, h1, compared]
        · rw [if_neg h1] at hb
          by_cases h2 : lcaseChar x > lcaseChar y
          · rw [if_pos h2] at hb
            unfold cmpBody
            rw [while_ret hr hv hb]
            simp [caseCmp, hx, h1, h2, compared]
          · rw [if_neg h2] at hb
            have ih := cmp_exec hc hM ho ho' xs (i + 1) (j + 1) (drop_next h)
            rw [drop_next hp] at ih
            unfold cmpBody at ih ⊢
            rw [while_round hr hv hb]
            have e : caseCmp (x :: xs) (y :: ys) = caseCmp xs ys := by simp [caseCmp, hx, h1, h2]
            rw [e]
            exact ih

/-! ## Comparison of the first characters -/

def ncmpVars (o : Str) (i : Nat) (o' : Str) (j : Nat) (n : Nat) : List (Str × T × V) := cmpVars o i o' j [(c!"n", .int false 64, .num (n : Int))]

theorem and_eq {c : Ctx} {M : Mem} {l : List (Str × T × V)} {n : Nat} {e : E} {x : UInt8} (hn : find c!"n" l = some (.int false 64, .num (n : Int)))
    (he : e.eval c fileTypes ⟨l, M⟩ = pure ((charT, .num (schar x)), ⟨l, M⟩)) (h : n ≠ 0) :
    (E.bin c!"&&" (.var c!"n") e).eval c fileTypes ⟨l, M⟩ = pure (flag (decide (x ≠ 0)), ⟨l, M⟩) := by
  have ht : truth (.num (n : Int)) = true := by simp [truth]; omega
  have hx := char_truth x
  simp only [E.eval, hn, pure_bind]
  simp [ht, he, hx]

theorem and_zero {c : Ctx} {M : Mem} {l : List (Str × T × V)} {e : E} (hn : find c!"n" l = some (.int false 64, .num ((0 : Nat) : Int))) :
    (E.bin c!"&&" (.var c!"n") e).eval c fileTypes ⟨l, M⟩ = pure (flag false, ⟨l, M⟩) := by
  simp only [E.eval, hn, pure_bind]
  simp [truth]

theorem and_err {c : Ctx} {M : Mem} {l : List (Str × T × V)} {n : Nat} {e : E} {r : Err} (hn : find c!"n" l = some (.int false 64, .num (n : Int)))
    (he : e.eval c fileTypes ⟨l, M⟩ = liftC (.error r)) (h : n ≠ 0) : (E.bin c!"&&" (.var c!"n") e).eval c fileTypes ⟨l, M⟩ = liftC (.error r) := by
  have ht : truth (.num (n : Int)) = true := by simp [truth]; omega
  simp only [E.eval, hn, pure_bind]
  simp [ht, he, map_liftC_err]

theorem count_down {c : Ctx} {M : Mem} {o o' : Str} {i j n : Nat} (h : n + 1 < 2 ^ 64) :
    (E.incr (-1) (.var c!"n")).eval c fileTypes ⟨ncmpVars o i o' j (n + 1), M⟩ = pure ((.int false 64, .num ((n + 1 : Nat) : Int)), ⟨ncmpVars o i o' j n, M⟩) := by
  have h1 : ((n : Int) + 1) % 18446744073709551616 = (n : Int) + 1 := by omega
  have h2 : ((n : Int) + 1 + 18446744073709551615) % 18446744073709551616 = (n : Int) := by omega
  have h3 : (n : Int) % 18446744073709551616 = (n : Int) := by omega
  have hb : binary M c!"+" (.int false 64, .num ((n + 1 : Nat) : Int)) (.int true 32, .num (-1)) = .ok (.int false 64, .num (n : Int)) := by
    simp [binary, isInt, promote, usual, conv, arith, result, h1, h2]
  have hf : find c!"n" (ncmpVars o i o' j (n + 1)) = some (.int false 64, .num ((n + 1 : Nat) : Int)) := by simp [ncmpVars, cmpVars, find]
  have hr : replace c!"n" (.int false 64, .num (n : Int)) (ncmpVars o i o' j (n + 1)) = some (ncmpVars o i o' j n) := by simp [ncmpVars, cmpVars, replace]
  have hp : put ⟨ncmpVars o i o' j (n + 1), M⟩ (.loc c!"n") (.num (n : Int)) = .ok ⟨ncmpVars o i o' j n, M⟩ := by simp only [put, hf, hr]
  have hg : Spec.CSource.get ⟨ncmpVars o i o' j (n + 1), M⟩ (.loc c!"n") = .ok (.num ((n + 1 : Nat) : Int)) := by simp only [Spec.CSource.get, hf]
  have hl : load (.int false 64) (.num ((n + 1 : Nat) : Int)) = .num ((n + 1 : Nat) : Int) := by simp [load]
  have hv : convert (.int false 64) (.num (n : Int)) = .ok (.num (n : Int)) := by simp [convert, conv, h3]
  simp only [E.eval, E.place, hf, pure_bind, hg, liftC_ok, hl, hb, hv, hp]

theorem ncmp_exec {c : Ctx} (hc : c.structs = charstrStructs) {M : Mem} (hM : Tables M) {o o' : Str} {s p : List UInt8} (ho : find o M = some (bytes s))
    (ho' : find o' M = some (bytes p)) : ∀ (n : Nat), n < 2 ^ 64 → ∀ (i j : Nat),
      ncmpBody.exec c fileTypes ⟨ncmpVars o i o' j n, M⟩ = compared M (ncaseCmp (s.drop i) (p.drop j) n)
  | 0, _, i, j => by
    have hn : ∀ e : E, (E.bin c!"&&" (.var c!"n") e).eval c fileTypes ⟨ncmpVars o i o' j 0, M⟩ = pure (flag false, ⟨ncmpVars o i o' j 0, M⟩) :=
      fun e => and_zero (by simp [ncmpVars, cmpVars, find])
    unfold ncmpBody
    rw [for_done (hn _) (flag_truth _)]
    unfold ncmpEnd
    rw [seq_next (s' := ⟨ncmpVars o i o' j 0, M⟩) (by rw [if_else (hn _) (flag_truth _)]; rfl), seq_ret (plain_num _).2]
    simp [ncaseCmp, compared]
  | n + 1, hlt, i, j => by
    have hn : find c!"n" (ncmpVars o i o' j (n + 1)) = some (.int false 64, .num ((n + 1 : Nat) : Int)) := by simp [ncmpVars, cmpVars, find]
    cases h : s.drop i with
    | nil =>
      have hr := and_err hn (read_var_ub (c := c) (ty := fileTypes) (l := ncmpVars o i o' j (n + 1)) (x := c!"a") (o := o) (by simp [ncmpVars, cmpVars, find]) ho h) (Nat.succ_ne_zero n)
      unfold ncmpBody
      rw [for_err hr]
      simp [ncaseCmp, compared]
    | cons x xs =>
      have hr := and_eq hn (read_var (c := c) (ty := fileTypes) (l := ncmpVars o i o' j (n + 1)) (x := c!"a") (o := o) (by simp [ncmpVars, cmpVars, find]) ho h) (Nat.succ_ne_zero n)
      by_cases hx : x = 0
      · unfold ncmpBody
        rw [for_done hr (by rw [flag_truth]; simp [hx])]
        unfold ncmpEnd
        cases hp : p.drop j with
        | nil =>
          have hb := and_err hn (read_var_ub (c := c) (ty := fileTypes) (l := ncmpVars o i o' j (n + 1)) (x := c!"b") (o := o') (by simp [ncmpVars, cmpVars, find]) ho' hp) (Nat.succ_ne_zero n)
          rw [seq_err (if_err hb)]
          simp [ncaseCmp, hx, peek, compared]
        | cons y ys =>
          have hb := and_eq hn (read_var (c := c) (ty := fileTypes) (l := ncmpVars o i o' j (n + 1)) (x := c!"b") (o := o') (by simp [ncmpVars, cmpVars, find]) ho' hp) (Nat.succ_ne_zero n)
          by_cases hy : y = 0
          · rw [seq_next (s' := ⟨ncmpVars o i o' j (n + 1), M⟩) (by rw [if_else hb (by rw [flag_truth]; simp [hy])]; rfl), seq_ret (plain_num _).2]
            simp [ncaseCmp, hx, peek, hy, compared]
          · rw [seq_ret (by rw [if_then hb (by rw [flag_truth]; simp [hy]), minus_one])]
            simp [ncaseCmp, hx, peek, hy, compared]
      · have hv : truth (flag (decide (x ≠ 0))).2 = true := by rw [flag_truth]; simp [hx]
        have hrn : find c!"case_table" [(c!"n", T.int false 64, V.num ((n + 1 : Nat) : Int))] = none := by simp [find]
        cases hp : p.drop j with
        | nil =>
          unfold ncmpBody
          rw [for_fail hr hv (cmp_round_right hc hM ho ho' hrn h hp)]
          simp [ncaseCmp, hx, compared]
        | cons y ys =>
          have hb := cmp_round hc hM ho ho' hrn h hp
          by_cases h1 : lcaseChar x < lcaseChar y
          · rw [if_pos h1] at hb
            unfold ncmpBody
            rw [for_ret hr hv hb]
            simp [ncaseCmp, hx, h1, compared]
          · rw [if_neg h1] at hb
            by_cases h2 : lcaseChar x > lcaseChar y
            · rw [if_pos h2] at hb
              unfold ncmpBody
              rw [for_ret hr hv hb]
              simp [ncaseCmp, hx, h1, h2, compared]
            · rw [if_neg h2] at hb
              have ih := ncmp_exec hc hM ho ho' n (by omega) (i + 1) (j + 1)
              rw [drop_next hp, drop_next h] at ih
              unfold ncmpBody at ih ⊢
              rw [for_round hr hv hb (t := ⟨ncmpVars o (i + 1) o' (j + 1) n, M⟩) (count_down hlt)]
              have e : ncaseCmp (x :: xs) (y :: ys) (n + 1) = ncaseCmp xs ys n := by simp [ncaseCmp, hx, h1, h2]
              rw [e]
              exact ih

end Verif.Source
