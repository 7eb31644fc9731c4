import Verif.Proofs.SourceUtf8

/-! src/charstr.c:543-564: the execution of the encoder. -/

set_option autoImplicit false

namespace Verif.Source

open Verif.Spec.CSource Verif.Utf8

/-- The memory with the object `o` changed. -/
def withObj (o : Str) (rows : List Row) (M : Mem) : Mem := (replace o rows M).getD M

theorem replace_found {α : Type} {o : Str} {a b : α} : ∀ {M : List (Str × α)}, find o M = some a → ∃ M', replace o b M = some M' ∧ find o M' = some b ∧ ∀ d, replace o d M' = replace o d M
  | [], h => by cases h
  | (x, v) :: M, h => by
    by_cases hx : o = x
    · subst hx
      exact ⟨(o, b) :: M, by simp [replace], by simp [find], fun d => by simp [replace]⟩
    · simp only [find, hx, if_false] at h
      obtain ⟨M', h1, h2, h3⟩ := replace_found (b := b) h
      exact ⟨(x, v) :: M', by simp [replace, hx, h1], by simp [find, hx, h2], fun d => by simp [replace, hx, h3]⟩

section
variable {o : Str} {rows : List Row} {M : Mem}

theorem find_withObj {r : List Row} (h : find o M = some rows) : find o (withObj o r M) = some r := by
  obtain ⟨M', h1, h2, _⟩ := replace_found (b := r) h
  simp [withObj, h1, h2]

theorem replace_withObj {r r' : List Row} (h : find o M = some rows) : replace o r' (withObj o r M) = some (withObj o r' M) := by
  obtain ⟨M', h1, _, h3⟩ := replace_found (b := r) h
  obtain ⟨M'', h1', _, _⟩ := replace_found (b := r') h
  simp [withObj, h1, h3, h1']

theorem withObj_same : ∀ {M : Mem}, find o M = some rows → withObj o rows M = M
  | [], h => by cases h
  | (x, v) :: M, h => by
    by_cases hx : o = x
    · subst hx
      simp only [find, if_true, Option.some.injEq] at h
      simp [withObj, replace, h]
    · simp only [find, hx, if_false] at h
      have ih := withObj_same h
      obtain ⟨M', h1, _, _⟩ := replace_found (b := rows) h
      simp only [withObj, h1, Option.getD_some] at ih
      simp [withObj, replace, hx, h1, ih]

theorem put_byte {l : List (Str × T × V)} {buf cs : List UInt8} {i : Nat} {b c : UInt8} (h : find o M = some rows) (hd : buf.drop i = c :: cs) :
    put ⟨l, withObj o (bytes buf) M⟩ (.mem o (i : Int) []) (.num (schar b)) = .ok ⟨l, withObj o (bytes (buf.set i b)) M⟩ := by
  have hi := drop_lt hd
  have h1 := find_withObj (r := bytes buf) h
  have hrow : (bytes buf)[i]? = some [([], .num (schar buf[i]))] := by simp [bytes, hi]
  have hset : (bytes buf).set i [([], .num (schar b))] = bytes (buf.set i b) := by simp [bytes, List.map_set]
  have h0 : ¬ ((i : Int) < 0) := by omega
  simp only [put, h0, if_false, h1, Option.bind_some, Int.toNat_natCast, hrow, replace, if_true, hset, replace_withObj h]

end

/-- The local variables of the encoder. -/
def encodeVars (n : Int) (o : Str) (i : Nat) (e : Option Nat) : List (Str × T × V) :=
  [(c!"codepoint", intT, .num n), (c!"s", strT, .ptr o (i : Int)), (c!"end", strT, endAt o e)]

/-- How a part of the encoder ends. -/
def written (n : Int) (o : Str) (e : Option Nat) (M : Mem) : C (Option Nat × List UInt8) → D Res
  | .error r => liftC (.error r)
  | .ok (none, buf) => pure (.ret (.ptr .void, .null) (withObj o (bytes buf) M))
  | .ok (some i, buf) => pure (.next ⟨encodeVars n o i e, withObj o (bytes buf) M⟩)

theorem putSeq_snoc (e : Option Nat) (b : UInt8) : ∀ (bs buf : List UInt8) (i : Nat), putSeq buf i e (bs ++ [b]) = (match putSeq buf i e bs with
    | .error r => .error r
    | .ok (none, buf) => .ok (none, buf)
    | .ok (some i, buf) => putChecked buf i e b)
  | [], buf, i => by
    simp only [List.nil_append, putSeq]
    rcases putChecked buf i e b with r | ⟨_ | j, buf'⟩ <;> rfl
  | a :: bs, buf, i => by
    simp only [List.cons_append, putSeq]
    rcases putChecked buf i e a with r | ⟨_ | j, buf'⟩
    · rfl
    · rfl
    · exact putSeq_snoc e b bs buf' j

section
variable {c : Ctx} {ty : Str → Option T} {o : Str} {rows : List Row} {M : Mem} {e : Option Nat} {n : Int} {i : Nat} {buf : List UInt8}

theorem evars_s : find c!"s" (encodeVars n o i e) = some (strT, .ptr o (i : Int)) := by simp [encodeVars, find]
theorem evars_end : find c!"end" (encodeVars n o i e) = some (strT, endAt o e) := by simp [encodeVars, find]
theorem evars_cp : find c!"codepoint" (encodeVars n o i e) = some (intT, .num n) := by simp [encodeVars, find]
theorem evars_null : find c!"NULL" (encodeVars n o i e) = none := by simp [encodeVars, find]
theorem evars_move : replace c!"s" (strT, .ptr o ((i + 1 : Nat) : Int)) (encodeVars n o i e) = some (encodeVars n o (i + 1) e) := by simp [encodeVars, replace]

/-- `a` has the value `v` wherever `s` is. -/
def Value (c : Ctx) (ty : Str → Option T) (n : Int) (o : Str) (e : Option Nat) (a : E) (v : Int) : Prop :=
  ∀ (i : Nat) (M : Mem), a.eval c ty ⟨encodeVars n o i e, M⟩ = pure ((intT, .num v), ⟨encodeVars n o i e, M⟩)

theorem convert_low (v : Int) : convert charT (.num v) = .ok (.num (schar (low8 v))) := by
  have h1 : (low8 v).toNat = (v % 256).toNat := by
    simp only [low8, UInt8.toNat_ofNat']
    omega
  have h2 : (((v % 256).toNat : Nat) : Int) = v % 256 := by omega
  have h3 : schar (low8 v) = Int.bmod v 256 := by
    unfold schar
    rw [h1, h2]
    exact Int.emod_bmod v 256
  rw [h3]
  rfl

theorem store_byte (h : find o M = some rows) {a : E} {v : Int} (ha : Value c ty n o e a v) :
    (store a).exec c ty ⟨encodeVars n o i e, withObj o (bytes buf) M⟩ =
      (match Verif.wr buf i (low8 v) with
      | .error r => liftC (.error r)
      | .ok buf => pure (.next ⟨encodeVars n o (i + 1) e, withObj o (bytes buf) M⟩)) := by
  have hf := find_withObj (r := bytes buf) h
  cases hd : buf.drop i with
  | nil =>
    have hi := List.drop_eq_nil_iff.mp hd
    rw [show Verif.wr buf i (low8 v) = .error .ub by simp [Verif.wr]; omega]
    have hm := move_var_ub (c := c) (ty := ty) (x := c!"s") (l := encodeVars n o i e) evars_s hf hd
    have hp : (next c!"s").place c ty ⟨encodeVars n o i e, withObj o (bytes buf) M⟩ = liftC (.error .ub) := by
      simp [next, E.place, hm, liftC_err]
    simp [store, S.exec, E.eval, ha i, hp, liftC_err, map_liftC_err]
  | cons x cs =>
    have hi := drop_lt hd
    rw [show Verif.wr buf i (low8 v) = .ok (buf.set i (low8 v)) by simp [Verif.wr]; omega]
    exact expr_eq (assign_place (ha i _) (deref_place (move_var (c := c) (ty := ty) evars_s hf hd evars_move) rfl) (convert_low v) (put_byte h hd))

theorem first_byte (h : find o M = some rows) {a : E} {v : Int} (ha : Value c ty n o e a v) (he : e ≠ some i) :
    (store a).exec c ty ⟨encodeVars n o i e, withObj o (bytes buf) M⟩ = written n o e M (putSeq buf i e [low8 v]) := by
  rw [store_byte h ha]
  simp only [putSeq, putChecked, he, if_false]
  rcases Verif.wr buf i (low8 v) with r | b <;> rfl

theorem next_byte (hh : c.headers = utf8Headers) (ht : ty c!"NULL" = none) (h : find o M = some rows) {a : E} {v : Int} (ha : Value c ty n o e a v) {s : S} {st : Store} {bs : List UInt8}
    (hs : s.exec c ty st = written n o e M (putSeq buf i e bs)) :
    (S.seq s (.seq full (.seq (store a) .skip))).exec c ty st = written n o e M (putSeq buf i e (bs ++ [low8 v])) := by
  rw [putSeq_snoc]
  revert hs
  rcases putSeq buf i e bs with r | ⟨_ | j, buf'⟩
  · exact fun hs => seq_err hs
  · exact fun hs => seq_ret hs
  · intro hs
    rw [seq_next hs]
    have hend := atEnd_eq (c := c) (ty := ty) (M := withObj o (bytes buf') M) (l := encodeVars n o j e) evars_s evars_end
    by_cases he : e = some j
    · rw [decide_eq_true he] at hend
      dsimp only
      rw [show putChecked buf' j e (low8 v) = .ok (none, buf') by simp [putChecked, he]]
      refine seq_ret ?_
      rw [full, if_then hend rfl]
      exact ret_null hh ht evars_null
    · simp only [putChecked, he, if_false]
      rw [decide_eq_false he] at hend
      rw [seq_next (s' := ⟨encodeVars n o j e, withObj o (bytes buf') M⟩) (by rw [full, if_else hend rfl]; rfl)]
      have hb := store_byte (i := j) (buf := buf') h ha
      revert hb
      rcases Verif.wr buf' j (low8 v) with r | b
      · exact fun hb => seq_err hb
      · exact fun hb => seq_next hb

/-! ## The values -/

theorem int_shr (M : Mem) {a k : Nat} (hk : k < 32) : binary M c!">>" (intT, .num a) (intT, .num k) = .ok (intT, .num (a >>> k : Nat)) := by
  simp [binary, isInt, promote, shift, Nat.shiftRight_eq_div_pow]
  exact hk

theorem int_and (M : Mem) {a b : Nat} (ha : a < 2 ^ 31) (hb : b < 2 ^ 31) : binary M c!"&" (intT, .num a) (intT, .num b) = .ok (intT, .num (a &&& b : Nat)) := by
  have e1 : Int.bmod (a : Int) 4294967296 = a := bmod32 (by omega) (by omega)
  have e2 : Int.bmod (b : Int) 4294967296 = b := bmod32 (by omega) (by omega)
  have e3 : (a : Int) % 4294967296 = a := by omega
  have e4 : (b : Int) % 4294967296 = b := by omega
  have hr : a &&& b < 2 ^ 31 := Nat.lt_of_le_of_lt Nat.and_le_right hb
  have e5 : Int.bmod ((a &&& b : Nat) : Int) 4294967296 = (a &&& b : Nat) := bmod32 (by omega) (by omega)
  simp [binary, isInt, promote, usual, conv, arith, e1, e2, bits, e3, e4]
  exact_mod_cast e5

theorem value_cp : Value c ty n o e (.var c!"codepoint") n := fun _ _ => local_eq evars_cp

theorem value_shr {m k : Nat} (hk : k < 32) : Value c ty (m : Int) o e (shr k) ((m >>> k : Nat) : Int) := fun i M =>
  bin_op (by decide) (by decide) (value_cp i M) (lit_eq (n := k) (by omega) _) (int_shr M hk)

theorem value_or {a : E} {p v : Nat} (hp : p < 2 ^ 31) (hv : v < 2 ^ 31) (ha : Value c ty n o e a (v : Int)) : Value c ty n o e (.bin c!"|" (lit p) a) ((p ||| v : Nat) : Int) := fun i M =>
  bin_op (by decide) (by decide) (lit_eq (n := p) (by omega) _) (ha i M) (int_or M hp hv)

theorem value_six {a : E} {v : Nat} (hv : v < 2 ^ 31) (ha : Value c ty n o e a (v : Int)) : Value c ty n o e (six a) ((0x80 ||| (v &&& 0x3f) : Nat) : Int) :=
  value_or (by decide) (Nat.lt_of_le_of_lt Nat.and_le_right (by decide)) fun i M => bin_op (by decide) (by decide) (ha i M) (lit_eq (n := 63) (by decide) _) (int_and M hv (by decide))

theorem at_least {k : Nat} (hn : -2147483648 ≤ n ∧ n < 2147483648) (hk : k < 2147483648) (i : Nat) (M : Mem) :
    (E.bin c!">=" (.var c!"codepoint") (lit k)).eval c ty ⟨encodeVars n o i e, M⟩ = pure (flag (decide (n ≥ k)), ⟨encodeVars n o i e, M⟩) :=
  bin_op (by decide) (by decide) (value_cp i M) (lit_eq hk _) (int_ge M hn rfl hk)

theorem shr_small {m k : Nat} (h : m < 2 ^ 31) : m >>> k < 2 ^ 31 := by
  rw [Nat.shiftRight_eq_div_pow]
  exact Nat.lt_of_le_of_lt (Nat.div_le_self _ _) h

/-- charstr.c:547-562. -/
theorem bytes_exec (hh : c.headers = utf8Headers) (ht : ty c!"NULL" = none) (h : find o M = some rows) (hn : -2147483648 ≤ n ∧ n < 2147483648) (he : e ≠ some i) :
    (S.ite (.bin c!">=" (.var c!"codepoint") (lit 128)) encode2 (store (.var c!"codepoint"))).exec c ty ⟨encodeVars n o i e, withObj o (bytes buf) M⟩ =
      written n o e M (encode n buf i e) := by
  have g1 := at_least (c := c) (ty := ty) (o := o) (e := e) hn (k := 128) (by decide) i (withObj o (bytes buf) M)
  have g2 := at_least (c := c) (ty := ty) (o := o) (e := e) hn (k := 0x800) (by decide) i (withObj o (bytes buf) M)
  have g3 := at_least (c := c) (ty := ty) (o := o) (e := e) hn (k := 0x10000) (by decide) i (withObj o (bytes buf) M)
  simp only [encode]
  by_cases h1 : n ≥ 0x80
  · obtain ⟨m, rfl⟩ : ∃ m : Nat, n = m := ⟨n.toNat, by omega⟩
    have hm : m < 2 ^ 31 := by omega
    have v0 : Value c ty (m : Int) o e (six (.var c!"codepoint")) ((0x80 ||| (m &&& 0x3f) : Nat) : Int) := value_six hm value_cp
    have v6 : Value c ty (m : Int) o e (six (shr 6)) ((0x80 ||| (m >>> 6 &&& 0x3f) : Nat) : Int) := value_six (shr_small hm) (value_shr (by decide))
    have v12 : Value c ty (m : Int) o e (six (shr 12)) ((0x80 ||| (m >>> 12 &&& 0x3f) : Nat) : Int) := value_six (shr_small hm) (value_shr (by decide))
    rw [if_then g1 (by rw [flag_truth]; exact decide_eq_true h1), if_pos h1]
    unfold encode2
    by_cases h2 : (m : Int) ≥ 0x800
    · rw [if_pos h2]
      unfold encode3
      by_cases h3 : (m : Int) ≥ 0x10000
      · rw [if_pos h3]
        have f := first_byte (buf := buf) h (value_or (p := 240) (by decide) (shr_small hm) (value_shr (c := c) (ty := ty) (o := o) (e := e) (k := 18) (by decide))) he
        exact next_byte hh ht h v0 ((if_then g2 (by rw [flag_truth]; exact decide_eq_true h2)).trans
          (next_byte hh ht h v6 ((if_then g3 (by rw [flag_truth]; exact decide_eq_true h3)).trans (next_byte hh ht h v12 f))))
      · rw [if_neg h3]
        have f := first_byte (buf := buf) h (value_or (p := 224) (by decide) (shr_small hm) (value_shr (c := c) (ty := ty) (o := o) (e := e) (k := 12) (by decide))) he
        exact next_byte hh ht h v0 ((if_then g2 (by rw [flag_truth]; exact decide_eq_true h2)).trans
          (next_byte hh ht h v6 ((if_else g3 (by rw [flag_truth]; exact decide_eq_false h3)).trans f)))
    · rw [if_neg h2]
      have f := first_byte (buf := buf) h (value_or (p := 192) (by decide) (shr_small hm) (value_shr (c := c) (ty := ty) (o := o) (e := e) (k := 6) (by decide))) he
      exact next_byte hh ht h v0 ((if_else g2 (by rw [flag_truth]; exact decide_eq_false h2)).trans f)
  · rw [if_else g1 (by rw [flag_truth]; exact decide_eq_false h1), if_neg h1]
    exact first_byte h value_cp he

end

theorem no_s {c : Ctx} {ty : Str → Option T} (hh : c.headers = utf8Headers) (ht : ty c!"NULL" = none) {l : List (Str × T × V)} {M : Mem} (hs : find c!"s" l = some (strT, .null))
    (hl : find c!"NULL" l = none) : noS.exec c ty ⟨l, M⟩ = pure (.ret (.ptr .void, .null) M) := by
  have h : (E.unary c!"!" (.var c!"s")).eval c ty ⟨l, M⟩ = pure (flag true, ⟨l, M⟩) := by
    simp [E.eval, hs, unaryOp, truth, map_liftC_ok]
  rw [noS, if_then (or_left h rfl) rfl]
  exact ret_null hh ht hl

theorem run_null (o : Str) (e : Option Nat) (x : Option V) (n : Int) (m : Mem) :
    run utf8Headers utf8 c!"charstr_decode_utf8_codepoint" [(strT, .null), (strT, endAt o e), (.ptr intT, outArg x)] m = pure ((strT, .null), m) ∧
    run utf8Headers utf8 c!"charstr_encode_utf8_codepoint" [(intT, .num n), (strT, .null), (strT, endAt o e)] m = pure ((strT, .null), m) ∧
    run utf8Headers utf8 c!"charstr_valid_utf8_bounded" [(strT, .null), (strT, endAt o e)] m = pure ((.bool, .num 0), m) ∧
    run utf8Headers utf8 c!"charstr_valid_utf8" [(strT, .null)] m = pure ((.bool, .num 0), m) := by
  refine ⟨?_, ?_, ?_, ?_⟩
  · rw [run_utf8 (decode_found (by simp))]
    refine invoke_ret (l := [(c!"s", strT, .null), (c!"end", strT, endAt o e), (c!"codepoint", .ptr intT, outArg x)]) (by cases e <;> cases x <;> rfl) (v := (.ptr .void, .null)) ?_ rfl
    unfold decodeBody
    rw [seq_next (s' := ⟨[(c!"cp", intT, .undef), (c!"s", strT, .null), (c!"end", strT, endAt o e), (c!"codepoint", .ptr intT, outArg x)], m⟩) rfl]
    exact seq_ret (no_s rfl rfl (by simp [find]) (by simp [find]))
  · rw [run_utf8 (g := invoke (utf8At 4) (fun _ => none) strT encodeParams encodeBody) (by simp [utf8At, functions, utf8Decls, find])]
    refine invoke_ret (l := [(c!"codepoint", intT, .num (conv intT n)), (c!"s", strT, .null), (c!"end", strT, endAt o e)]) (by cases e <;> rfl) (v := (.ptr .void, .null)) ?_ rfl
    exact seq_ret (no_s rfl rfl (by simp [find]) (by simp [find]))
  · rw [run_utf8 (g := invoke (utf8At 2) (fun _ => none) .bool boundedParams boundedBody) (by simp [utf8At, functions, utf8Decls, find])]
    have hz : find c!"s" (boundedVars .null o e) = some (strT, .null) := by simp [boundedVars, find]
    refine invoke_ret (l := boundedVars .null o e) (v := flag false) (by cases e <;> rfl) ?_ rfl
    unfold boundedBody
    rw [while_done (s' := ⟨boundedVars .null o e, m⟩) (and_left (local_eq hz) rfl) rfl, valid_end rfl rfl (by simp [boundedVars, find]) (Or.inl rfl) hz]
    rfl
  · rw [run_utf8 (g := invoke (utf8At 3) (fun _ => none) .bool [(strT, c!"s")] validBody) (by simp [utf8At, functions, utf8Decls, find])]
    have hz : find c!"s" (validVars .null) = some (strT, .null) := by simp [validVars, find]
    refine invoke_ret (l := validVars .null) (v := flag false) rfl ?_ rfl
    unfold validBody
    rw [while_done (s' := ⟨validVars .null, m⟩) (and_left (local_eq hz) rfl) rfl, valid_end rfl rfl (by simp [validVars, find]) (Or.inl rfl) hz]
    rfl

/-- The result of the encoder and the memory after it. -/
def encoded (o : Str) (m : Mem) : C (Option Nat × List UInt8) → D ((T × V) × Mem)
  | .error r => liftC (.error r)
  | .ok (none, buf) => pure ((strT, .null), withObj o (bytes buf) m)
  | .ok (some i, buf) => pure ((strT, .ptr o (i : Int)), withObj o (bytes buf) m)

theorem run_encode {o : Str} {m : Mem} {n : Int} {i : Nat} {e : Option Nat} {buf : List UInt8} (h : find o m = some (bytes buf)) (hn : -2147483648 ≤ n ∧ n < 2147483648) :
    run utf8Headers utf8 c!"charstr_encode_utf8_codepoint" [(intT, .num n), (strT, .ptr o (i : Int)), (strT, endAt o e)] m = encoded o m (encode n buf i e) := by
  rw [run_utf8 (g := invoke (utf8At 4) (fun _ => none) strT encodeParams encodeBody) (by simp [utf8At, functions, utf8Decls, find])]
  have hbind : bindArgs encodeParams [(intT, .num n), (strT, .ptr o (i : Int)), (strT, endAt o e)] = .ok (encodeVars n o i e) := by
    cases e <;> simp [bindArgs, convert, conv, bmod32 hn.1 hn.2, encodeVars, endAt]
  have hend := atEnd_eq (c := utf8At 4) (ty := fun _ => none) (M := m) (l := encodeVars n o i e) evars_s evars_end
  have hor := or_right (not_ptr (local_eq (c := utf8At 4) (ty := fun _ => none) (M := m) (evars_s (n := n) (o := o) (i := i) (e := e)))) rfl hend
  rw [flag_truth] at hor
  by_cases he : e = some i
  · rw [decide_eq_true he] at hor
    have hx : encode n buf i e = .ok (none, buf) := by
      simp only [encode]
      split
      · split
        · split <;> simp [putSeq, putChecked, he]
        · simp [putSeq, putChecked, he]
      · simp [putSeq, putChecked, he]
    rw [hx]
    simp only [encoded, withObj_same h]
    refine invoke_ret hbind (v := (.ptr .void, .null)) (seq_ret ?_) rfl
    rw [noS, if_then hor rfl]
    exact ret_null rfl rfl evars_null
  · rw [decide_eq_false he] at hor
    have hb := bytes_exec (c := utf8At 4) (ty := fun _ => none) (i := i) (e := e) (buf := buf) rfl rfl h hn he
    rw [withObj_same h] at hb
    have hbody : encodeBody.exec (utf8At 4) (fun _ => none) ⟨encodeVars n o i e, m⟩ =
        (S.seq (.ite (.bin c!">=" (.var c!"codepoint") (lit 128)) encode2 (store (.var c!"codepoint"))) (.seq (.ret (.var c!"s")) .skip)).exec (utf8At 4) (fun _ => none)
          ⟨encodeVars n o i e, m⟩ := by
      unfold encodeBody
      rw [seq_next (s' := ⟨encodeVars n o i e, m⟩) (by rw [noS, if_else hor rfl]; rfl)]
    revert hb
    rcases encode n buf i e with r | ⟨_ | j, buf'⟩
    · exact fun hb => invoke_err hbind (by rw [hbody]; exact seq_err hb)
    · exact fun hb => invoke_ret hbind (by rw [hbody]; exact seq_ret hb) rfl
    · exact fun hb => invoke_ret hbind (by rw [hbody, seq_next hb]; exact seq_ret (ret_eq (local_eq evars_s))) rfl

end Verif.Source
