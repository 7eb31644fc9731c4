import Verif.Proofs.SourceCharstr

/-! Execution of the functions of charstr.c:8-324. -/

set_option autoImplicit false

namespace Verif.Source

open Verif.Spec.CSource Verif.Charstr

/-- The elements of an array of characters. -/
def bytes (s : List UInt8) : List Row := s.map fun b => [([], .num (schar b))]

theorem schar_inj {a b : UInt8} : schar a = schar b ↔ a = b := by
  constructor
  · intro h
    unfold schar at h
    rw [Int.bmod_def, Int.bmod_def] at h
    have h1 := a.toNat_lt
    have h2 := b.toNat_lt
    have : a.toNat = b.toNat := by
      split at h <;> split at h <;> omega
    exact UInt8.toNat_inj.mp this
  · rintro rfl; rfl

theorem schar_zero {b : UInt8} : schar b = 0 ↔ b = 0 := by
  rw [show (0 : Int) = schar 0 by decide, schar_inj]

theorem schar_mod (b : UInt8) : schar b % 256 = b.toNat := by
  unfold schar
  have h1 := b.toNat_lt
  rw [Int.bmod_def]
  split <;> omega

theorem schar_bmod (b : UInt8) : Int.bmod (schar b) 256 = schar b := Int.bmod_bmod

theorem schar_range (b : UInt8) : -128 ≤ schar b ∧ schar b < 128 := by
  unfold schar
  have h1 := b.toNat_lt
  rw [Int.bmod_def]
  split <;> omega

section
variable {c : Ctx} {ty : Str → Option T}

/-! ## Loops -/

theorem while_eq (e : E) (a b : S) (s : Store) : (S.seq (.while e a) b).exec c ty s = (do
    let (v, s) ← e.eval c ty s
    if truth v.2 then do
      let r ← a.exec c ty s
      match round s r with
      | .next s => (S.seq (.while e a) b).exec c ty s
      | .ret v m => pure (.ret v m)
    else b.exec c ty s) := by
  conv => lhs; simp only [S.exec]
  rw [loop.eq_def]
  simp only [bind_assoc, pure_bind]
  congr 1
  funext x
  obtain ⟨v, s⟩ := x
  dsimp only
  cases truth v.2 with
  | false => simp
  | true =>
    simp only [if_true, bind_assoc]
    congr 1
    funext r
    cases r with
    | ret v m => simp [round]
    | next s' => simp [round, S.exec]

theorem for_eq (e i : E) (a b : S) (s : Store) : (S.seq (.for e i a) b).exec c ty s = (do
    let (v, s) ← e.eval c ty s
    if truth v.2 then do
      let r ← a.exec c ty s
      match round s r with
      | .next s => do
        let (_, s) ← i.eval c ty s
        (S.seq (.for e i a) b).exec c ty s
      | .ret v m => pure (.ret v m)
    else b.exec c ty s) := by
  conv => lhs; simp only [S.exec]
  rw [loop.eq_def]
  simp only [bind_assoc, pure_bind]
  congr 1
  funext x
  obtain ⟨v, s⟩ := x
  dsimp only
  cases truth v.2 with
  | false => simp
  | true =>
    simp only [if_true, bind_assoc]
    congr 1
    funext r
    cases r with
    | ret v m => simp [round]
    | next s' => simp [round, S.exec]

/-! ## Expressions -/

theorem deref_eq {a : E} {s s' : Store} {v : T × V} {t : T} {p : Place} {w : V} (h : a.eval c ty s = pure (v, s')) (ht : target v = .ok (t, p))
    (hg : Spec.CSource.get s' p = .ok w) : (E.unary c!"*" a).eval c ty s = pure ((t, load t w), s') := by
  simp [E.eval, h, ht, liftC_ok, hg, map_liftC_ok]

theorem deref_err {a : E} {s s' : Store} {v : T × V} {t : T} {p : Place} {e : Err} (h : a.eval c ty s = pure (v, s')) (ht : target v = .ok (t, p))
    (hg : Spec.CSource.get s' p = .error e) : (E.unary c!"*" a).eval c ty s = liftC (.error e) := by
  simp [E.eval, h, ht, liftC_ok, hg, map_liftC_err]

theorem deref_fail {a : E} {s : Store} {e : Err} (h : a.eval c ty s = liftC (.error e)) : (E.unary c!"*" a).eval c ty s = liftC (.error e) := by
  simp [E.eval, h, liftC_err]

theorem cast_eq {a : E} {s s' : Store} {t u : T} {v w : V} (h : a.eval c ty s = pure ((u, v), s')) (hw : convert t v = .ok w) :
    (E.cast t a).eval c ty s = pure ((t, w), s') := by
  simp [E.eval, h, hw, map_liftC_ok]

theorem cast_fail {a : E} {s : Store} {t : T} {e : Err} (h : a.eval c ty s = liftC (.error e)) : (E.cast t a).eval c ty s = liftC (.error e) := by
  simp [E.eval, h, liftC_err]

theorem local_eq {x : Str} {l : List (Str × T × V)} {M : Mem} {t : T} {v : V} (h : find x l = some (t, v)) (hv : v ≠ .undef := by simp) :
    (E.var x).eval c ty ⟨l, M⟩ = pure ((t, v), ⟨l, M⟩) := by
  simp [E.eval, h, hv]

theorem global_eq {x : Str} {l : List (Str × T × V)} {M : Mem} {t : T} (h : find x l = none) (ht : ty x = some t) :
    (E.var x).eval c ty ⟨l, M⟩ = pure ((.ptr t, .ptr x 0), ⟨l, M⟩) := by
  simp [E.eval, h, outer, ht, map_liftC_ok]

theorem index_place {a i : E} {s s' s'' : Store} {v w : T × V} {p : T × Place} (ha : a.eval c ty s = pure (v, s')) (hi : i.eval c ty s' = pure (w, s''))
    (hp : element v w = .ok p) : (E.index a i).place c ty s = pure (p, s'') := by
  simp [E.place, ha, hi, hp, map_liftC_ok]

theorem index_fail {a i : E} {s s' : Store} {v : T × V} {e : Err} (ha : a.eval c ty s = pure (v, s')) (hi : i.eval c ty s' = liftC (.error e)) :
    (E.index a i).place c ty s = liftC (.error e) := by
  simp [E.place, ha, hi, liftC_err]

theorem index_eq {a i : E} {s s' s'' : Store} {v w : T × V} {t : T} {p : Place} {u : V} (ha : a.eval c ty s = pure (v, s')) (hi : i.eval c ty s' = pure (w, s''))
    (hp : element v w = .ok (t, p)) (hg : Spec.CSource.get s'' p = .ok u) : (E.index a i).eval c ty s = pure ((t, load t u), s'') := by
  simp [E.eval, ha, hi, hp, liftC_ok, hg, map_liftC_ok]

theorem field_eq {a : E} {x : Str} {s s' : Store} {p : T × Place} {t : T} {q : Place} {u : V} (ha : a.place c ty s = pure (p, s')) (hp : member c p x = .ok (t, q))
    (hg : Spec.CSource.get s' q = .ok u) : (E.field a x).eval c ty s = pure ((t, load t u), s') := by
  simp [E.eval, ha, hp, liftC_ok, hg, map_liftC_ok]

theorem field_fail {a : E} {x : Str} {s : Store} {e : Err} (ha : a.place c ty s = liftC (.error e)) : (E.field a x).eval c ty s = liftC (.error e) := by
  simp [E.eval, ha, liftC_err]

theorem bin_ne {a b : E} {s s' s'' : Store} {v w r : T × V} (ha : a.eval c ty s = pure (v, s')) (hb : b.eval c ty s' = pure (w, s''))
    (h : binary s''.mem c!"!=" v w = .ok r) : (E.bin c!"!=" a b).eval c ty s = pure (r, s'') := by
  simp [E.eval, ha, hb, h, map_liftC_ok]

theorem bin_ne_left {a b : E} {s : Store} {e : Err} (ha : a.eval c ty s = liftC (.error e)) : (E.bin c!"!=" a b).eval c ty s = liftC (.error e) := by
  simp [E.eval, ha, liftC_err]

theorem bin_ne_right {a b : E} {s s' : Store} {v : T × V} {e : Err} (ha : a.eval c ty s = pure (v, s')) (hb : b.eval c ty s' = liftC (.error e)) :
    (E.bin c!"!=" a b).eval c ty s = liftC (.error e) := by
  simp [E.eval, ha, hb, liftC_err]

/-! ## Characters -/

theorem get_bytes {l : List (Str × T × V)} {M : Mem} {o : Str} {s cs : List UInt8} {i : Nat} {b : UInt8} (ho : find o M = some (bytes s)) (h : s.drop i = b :: cs) :
    Spec.CSource.get ⟨l, M⟩ (.mem o i []) = .ok (.num (schar b)) := by
  have h' : s[i]? = some b := by
    have := congrArg List.head? h
    simpa [List.head?_drop] using this
  simp [Spec.CSource.get, ho, bytes, h', find]

theorem get_bytes_ub {l : List (Str × T × V)} {M : Mem} {o : Str} {s : List UInt8} {i : Nat} (ho : find o M = some (bytes s)) (h : s.drop i = []) :
    Spec.CSource.get ⟨l, M⟩ (.mem o i []) = .error .ub := by
  have h' : s[i]? = none := by
    have := congrArg List.head? h
    simpa [List.head?_drop] using this
  simp [Spec.CSource.get, ho, bytes, h']

theorem load_char (b : UInt8) : load charT (.num (schar b)) = .num (schar b) := by
  simp [load, conv, schar_bmod]

theorem load_uchar (b : UInt8) : load (.int false 8) (.num (schar b)) = .num b.toNat := by
  simp [load, conv, schar_mod]

theorem read_var {l : List (Str × T × V)} {M : Mem} {x o : Str} {s cs : List UInt8} {i : Nat} {b : UInt8} (hx : find x l = some (strT, .ptr o i))
    (ho : find o M = some (bytes s)) (h : s.drop i = b :: cs) : (E.unary c!"*" (.var x)).eval c ty ⟨l, M⟩ = pure ((charT, .num (schar b)), ⟨l, M⟩) := by
  rw [deref_eq (local_eq hx) rfl (get_bytes ho h), load_char]

theorem read_var_ub {l : List (Str × T × V)} {M : Mem} {x o : Str} {s : List UInt8} {i : Nat} (hx : find x l = some (strT, .ptr o i))
    (ho : find o M = some (bytes s)) (h : s.drop i = []) : (E.unary c!"*" (.var x)).eval c ty ⟨l, M⟩ = liftC (.error .ub) :=
  deref_err (local_eq hx) rfl (get_bytes_ub ho h)

theorem drop_lt {s cs : List UInt8} {i : Nat} {b : UInt8} (h : s.drop i = b :: cs) : i < s.length := by
  have := congrArg List.length h
  simp at this
  omega

theorem drop_next {s cs : List UInt8} {i : Nat} {b : UInt8} (h : s.drop i = b :: cs) : s.drop (i + 1) = cs := by
  rw [← List.drop_drop, h]; rfl

theorem move_ok {M : Mem} {o : Str} {rows : List Row} {i : Nat} {t u : T} (ho : find o M = some rows) (h : i < rows.length) :
    binary M c!"+" (t, .ptr o i) (u, .num 1) = .ok (t, .ptr o ((i + 1 : Nat) : Int)) := by
  have h2 : (0 : Int) ≤ (i : Int) + 1 ∧ (i : Int) + 1 ≤ rows.length := by omega
  unfold binary
  simp only [ho, h2, if_true]
  rfl

theorem move_bad {M : Mem} {o : Str} {rows : List Row} {i : Nat} {t u : T} (ho : find o M = some rows) (h : rows.length ≤ i) :
    binary M c!"+" (t, .ptr o i) (u, .num 1) = .error .ub := by
  have h2 : ¬ ((0 : Int) ≤ (i : Int) + 1 ∧ (i : Int) + 1 ≤ rows.length) := by omega
  unfold binary
  simp only [ho, h2, if_true, if_false]

theorem load_ptr (t : T) (v : V) : load (.ptr t) v = v := by simp [load]

theorem move_var {l l' : List (Str × T × V)} {M : Mem} {x o : Str} {s cs : List UInt8} {i : Nat} {b : UInt8} (hx : find x l = some (strT, .ptr o i))
    (ho : find o M = some (bytes s)) (h : s.drop i = b :: cs) (hl : replace x (strT, .ptr o ((i + 1 : Nat) : Int)) l = some l') :
    (E.incr 1 (.var x)).eval c ty ⟨l, M⟩ = pure ((strT, .ptr o i), ⟨l', M⟩) := by
  have hm : binary M c!"+" (strT, .ptr o i) (.int true 32, .num 1) = .ok (strT, .ptr o ((i + 1 : Nat) : Int)) :=
    move_ok ho (by have := drop_lt h; simpa [bytes] using this)
  have hp : put ⟨l, M⟩ (.loc x) (.ptr o ((i + 1 : Nat) : Int)) = .ok ⟨l', M⟩ := by simp only [put, hx, hl]
  have hg : Spec.CSource.get ⟨l, M⟩ (.loc x) = .ok (.ptr o i) := by simp only [Spec.CSource.get, hx]
  simp only [E.eval, E.place, hx, pure_bind, hg, liftC_ok, load_ptr, hm, convert, hp]

theorem move_var_ub {l : List (Str × T × V)} {M : Mem} {x o : Str} {s : List UInt8} {i : Nat} (hx : find x l = some (strT, .ptr o i))
    (ho : find o M = some (bytes s)) (h : s.drop i = []) : (E.incr 1 (.var x)).eval c ty ⟨l, M⟩ = liftC (.error .ub) := by
  have hm : binary M c!"+" (strT, .ptr o i) (.int true 32, .num 1) = .error .ub :=
    move_bad ho (by simpa [bytes] using List.drop_eq_nil_iff.mp h)
  have hg : Spec.CSource.get ⟨l, M⟩ (.loc x) = .ok (.ptr o i) := by simp only [Spec.CSource.get, hx]
  simp only [E.eval, E.place, hx, pure_bind, hg, liftC_ok, load_ptr, hm, liftC_err]

theorem next_var {l l' : List (Str × T × V)} {M : Mem} {x o : Str} {s cs : List UInt8} {i : Nat} {b : UInt8} (hx : find x l = some (strT, .ptr o i))
    (ho : find o M = some (bytes s)) (h : s.drop i = b :: cs) (hl : replace x (strT, .ptr o ((i + 1 : Nat) : Int)) l = some l') :
    (next x).eval c ty ⟨l, M⟩ = pure ((charT, .num (schar b)), ⟨l', M⟩) := by
  unfold next
  rw [deref_eq (move_var hx ho h hl) rfl (get_bytes ho h), load_char]

theorem next_var_ub {l : List (Str × T × V)} {M : Mem} {x o : Str} {s : List UInt8} {i : Nat} (hx : find x l = some (strT, .ptr o i))
    (ho : find o M = some (bytes s)) (h : s.drop i = []) : (next x).eval c ty ⟨l, M⟩ = liftC (.error .ub) :=
  deref_fail (move_var_ub hx ho h)

end

/-! ## Tables -/

theorem case_at (b : UInt8) : caseRows[b.toNat]? = some [(c!"lower", .num (schar (lcaseChar b))), (c!"upper", .num (schar (ucaseChar b)))] := by
  have hl : caseTable.length = 256 := by decide +kernel
  have hb := b.toNat_lt
  have h : b.toNat < caseTable.length := by omega
  simp [caseRows, lcaseChar, ucaseChar, List.getD, h]

theorem class_at (b : UInt8) : classRows[b.toNat]? = some [([], .num (charClass b))] := by
  have hl : classTable.length = 256 := by decide +kernel
  have hb := b.toNat_lt
  have h : b.toNat < classTable.length := by omega
  simp [classRows, charClass, List.getD, h]

theorem digit_at (b : UInt8) : digitRows[b.toNat]? = some [([], .num (digitValue b))] := by
  have hl : digitTable.length = 256 := by decide +kernel
  have hb := b.toNat_lt
  have h : b.toNat < digitTable.length := by omega
  simp [digitRows, digitValue, List.getD, h]

/-- What the functions see of the file. -/
def fileTypes (x : Str) : Option T := find x charstrTypes

section
variable {c : Ctx}

/-- The tables are in memory. -/
structure Tables (M : Mem) : Prop where
  case : find c!"case_table" M = some caseRows
  cls : find c!"char_class" M = some classRows
  digit : find c!"digit_value" M = some digitRows

theorem get_table {l : List (Str × T × V)} {M : Mem} {o x : Str} {rs : List Row} {n : Nat} {r : Row} {v : V} (ho : find o M = some rs) (hr : rs[n]? = some r)
    (hv : find x r = some v) : Spec.CSource.get ⟨l, M⟩ (.mem o (0 + (n : Int)) x) = .ok v := by
  have h : ¬ (0 + (n : Int)) < 0 := by omega
  have h' : (0 + (n : Int)).toNat = n := by omega
  simp only [Spec.CSource.get, h, if_false, ho, h', Option.bind_some, hr, hv]

theorem case_member (hc : c.structs = charstrStructs) (i : Int) : member c (.struct c!"case_table", .mem c!"case_table" i []) c!"lower" = .ok (charT, .mem c!"case_table" i c!"lower") ∧
    member c (.struct c!"case_table", .mem c!"case_table" i []) c!"upper" = .ok (charT, .mem c!"case_table" i c!"upper") := by
  simp [member, memberType, hc, charstrStructs, find, caseMembers]

theorem lower_var {l l' : List (Str × T × V)} {M : Mem} (hc : c.structs = charstrStructs) (hM : Tables M) (hn : find c!"case_table" l = none)
    {x o : Str} {s cs : List UInt8} {i : Nat} {b : UInt8} (hx : find x l = some (strT, .ptr o i)) (ho : find o M = some (bytes s)) (h : s.drop i = b :: cs)
    (hl : replace x (strT, .ptr o ((i + 1 : Nat) : Int)) l = some l') :
    (lowerOf x).eval c fileTypes ⟨l, M⟩ = pure ((charT, .num (schar (lcaseChar b))), ⟨l', M⟩) := by
  have h1 := cast_eq (t := .ptr (.int false 8)) (move_var (c := c) (ty := fileTypes) hx ho h hl) (w := .ptr o i) rfl
  have h2 := deref_eq h1 rfl (get_bytes ho h)
  rw [load_uchar] at h2
  have h3 := index_place (global_eq (c := c) (ty := fileTypes) (M := M) hn (t := .struct c!"case_table") (by decide)) h2 rfl
  unfold lowerOf
  rw [field_eq h3 (case_member hc _).1 (get_table hM.case (case_at b) (v := .num (schar (lcaseChar b))) (by simp [find])), load_char]

theorem lower_var_ub {l : List (Str × T × V)} {M : Mem} (hn : find c!"case_table" l = none)
    {x o : Str} {s : List UInt8} {i : Nat} (hx : find x l = some (strT, .ptr o i)) (ho : find o M = some (bytes s)) (h : s.drop i = []) :
    (lowerOf x).eval c fileTypes ⟨l, M⟩ = liftC (.error .ub) :=
  field_fail (index_fail (global_eq hn (t := .struct c!"case_table") (by decide)) (deref_fail (cast_fail (move_var_ub hx ho h))))

theorem bind_char (t : T) (b : UInt8) : bindArgs cParams [(t, .num (schar b))] = .ok [(c!"c", charT, .num (schar b))] := by
  simp [bindArgs, convert, conv, schar_bmod]

theorem c_uchar (b : UInt8) (M : Mem) : (E.cast (.int false 8) (.var c!"c")).eval c fileTypes ⟨[(c!"c", charT, .num (schar b))], M⟩ =
    pure ((.int false 8, .num b.toNat), ⟨[(c!"c", charT, .num (schar b))], M⟩) :=
  cast_eq (local_eq (t := charT) (v := .num (schar b)) (by simp [find])) (by simp [convert, conv, schar_mod])

theorem call_ret {ty : Str → Option T} {t u : T} {ps : List (T × Str)} {e : E} {vs : List (T × V)} {m : Mem} {l : List (Str × T × V)} {s' : Store} {v w : V}
    (hb : bindArgs ps vs = .ok l) (he : e.eval c ty ⟨l, m⟩ = pure ((u, v), s')) (hv : convert t v = .ok w) :
    invoke c ty t ps (.seq (.ret e) .skip) vs m = pure ((t, w), s'.mem) := by
  simp only [invoke, hb, liftC_ok, S.exec, he, pure_bind, hv]

theorem call_fail {ty : Str → Option T} {t : T} {ps : List (T × Str)} {e : E} {vs : List (T × V)} {m : Mem} {l : List (Str × T × V)} {r : Err}
    (hb : bindArgs ps vs = .ok l) (he : e.eval c ty ⟨l, m⟩ = liftC (.error r)) :
    invoke c ty t ps (.seq (.ret e) .skip) vs m = liftC (.error r) := by
  simp only [invoke, hb, liftC_ok, S.exec, he, liftC_err]

theorem convert_char (b : UInt8) : convert charT (.num (schar b)) = .ok (.num (schar b)) := by
  simp [convert, conv, schar_bmod]

theorem lcase_call (hc : c.structs = charstrStructs) {M : Mem} (hM : Tables M) (t : T) (b : UInt8) :
    invoke c fileTypes charT cParams (caseBody c!"lower") [(t, .num (schar b))] M = pure ((charT, .num (schar (lcaseChar b))), M) := by
  have h1 := index_place (global_eq (x := c!"case_table") (c := c) (ty := fileTypes) (M := M) (by simp [find]) (t := .struct c!"case_table") (by decide)) (c_uchar b M) rfl
  have h2 := field_eq h1 (case_member hc _).1 (get_table hM.case (case_at b) (v := .num (schar (lcaseChar b))) (by simp [find]))
  rw [load_char] at h2
  exact call_ret (bind_char t b) h2 (convert_char _)

theorem ucase_call (hc : c.structs = charstrStructs) {M : Mem} (hM : Tables M) (t : T) (b : UInt8) :
    invoke c fileTypes charT cParams (caseBody c!"upper") [(t, .num (schar b))] M = pure ((charT, .num (schar (ucaseChar b))), M) := by
  have h1 := index_place (global_eq (x := c!"case_table") (c := c) (ty := fileTypes) (M := M) (by simp [find]) (t := .struct c!"case_table") (by decide)) (c_uchar b M) rfl
  have h2 := field_eq h1 (case_member hc _).2 (get_table hM.case (case_at b) (v := .num (schar (ucaseChar b))) (by simp [find]))
  rw [load_char] at h2
  exact call_ret (bind_char t b) h2 (convert_char _)

theorem class_small (b : UInt8) : (charClass b : Int) % 18446744073709551616 = charClass b := by
  have : ∀ n ∈ classTable, n < 8192 := by decide +kernel
  have h : charClass b < 8192 := by
    have hl : classTable.length = 256 := by decide +kernel
    have hb := b.toNat_lt
    have h : b.toNat < classTable.length := by omega
    have := this _ (List.getElem_mem h)
    simpa [charClass, List.getD, h] using this
  omega

theorem class_call {M : Mem} (hM : Tables M) (t : T) (b : UInt8) :
    invoke c fileTypes (.int false 64) cParams (tableBody c!"char_class") [(t, .num (schar b))] M = pure ((.int false 64, .num (charClass b)), M) := by
  have h1 := index_eq (global_eq (x := c!"char_class") (c := c) (ty := fileTypes) (M := M) (by simp [find]) (t := .int false 64) (by decide)) (c_uchar b M) rfl
    (get_table hM.cls (class_at b) (v := .num (charClass b)) (by simp [find]))
  exact call_ret (bind_char t b) h1 (by simp [load, convert, conv, class_small])

theorem digit_small (b : UInt8) : digitValue b < 16 := by
  have : ∀ n ∈ digitTable, n < 16 := by decide +kernel
  have hl : digitTable.length = 256 := by decide +kernel
  have hb := b.toNat_lt
  have h : b.toNat < digitTable.length := by omega
  have := this _ (List.getElem_mem h)
  simpa [digitValue, List.getD, h] using this

theorem digit_call {M : Mem} (hM : Tables M) (t : T) (b : UInt8) :
    invoke c fileTypes (.int false 32) cParams (tableBody c!"digit_value") [(t, .num (schar b))] M = pure ((.int false 32, .num (digitValue b)), M) := by
  have h := digit_small b
  have h1 : Int.bmod (digitValue b) 256 = digitValue b := by rw [Int.bmod_def]; omega
  have h2 : (digitValue b : Int) % 4294967296 = digitValue b := by omega
  have h3 := index_eq (global_eq (x := c!"digit_value") (c := c) (ty := fileTypes) (M := M) (by simp [find]) (t := charT) (by decide)) (c_uchar b M) rfl
    (get_table hM.digit (digit_at b) (v := .num (digitValue b)) (by simp [find]))
  exact call_ret (bind_char t b) h3 (by simp [load, convert, conv, h1, h2])

end

end Verif.Source
