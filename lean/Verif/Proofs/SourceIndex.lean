import Verif.Proofs.SourceList
import Verif.Data.Source.ListIndex

/-! src/list.c:48-57: what the text of `list_get_by_index` parses to, and its execution. -/

set_option autoImplicit false

namespace Verif.Source

open Verif.Spec.CSource

def indexCond : E := .bin c!"&&" (.bin c!"!=" (.var c!"element") (.var c!"NULL")) (.bin c!"!=" (.var c!"i") (.var c!"idx"))

def indexStep : E := .comma (.assign [] (.var c!"element") (arrow c!"element" c!"next")) (.incr 1 (.var c!"i"))

def indexEnd : S := .seq (.ret (.var c!"element")) .skip

def indexBody : S :=
  .seq (.decl intT c!"i" none) (.seq (.decl elemT c!"element" none)
    (.seq (.seq (.expr (.comma (.assign [] (.var c!"element") (arrow c!"list" c!"first")) (.assign [] (.var c!"i") (lit 0)))) (.for indexCond indexStep .skip)) indexEnd))

abbrev indexParams : List (T × Str) := [(listT, c!"list"), (intT, c!"idx")]

def indexDecls : List Decl := listDecls.take 4 ++ [.func elemT c!"list_get_by_index" indexParams indexBody]

/-- list.h, list_imp.h and the function. -/
def indexText : List Str := listHeader ++ listMembers ++ listIndex

theorem index_parses : (lex indexText).bind parse = some indexDecls := by decide +kernel

def indexCtx : Ctx := ⟨nullHeaders, listStructs, []⟩

def indexFun : List (T × V) → Mem → D ((T × V) × Mem) := invoke indexCtx (fun _ => none) elemT indexParams indexBody

theorem index_compiles : compile nullHeaders indexDecls = .ok ⟨⟨nullHeaders, listStructs, [(c!"list_get_by_index", indexFun)]⟩, [], []⟩ := rfl

theorem run_index (args : List (T × V)) (m : Mem) : run nullHeaders indexText c!"list_get_by_index" args m = indexFun args m :=
  run_eq index_parses index_compiles (by simp [find]) args m

section
variable {c : Ctx} {ty : Str → Option T}

theorem comma_eq {a b : E} {s s' s'' : Store} {v w : T × V} (ha : a.eval c ty s = pure (v, s')) (hb : b.eval c ty s' = pure (w, s'')) :
    (E.comma a b).eval c ty s = pure (w, s'') := by
  simp [E.eval, ha, hb]

theorem incr_int {x : Str} {l l' : List (Str × T × V)} {M : Mem} {n : Nat} (hx : find x l = some (intT, .num n)) (hn : n + 1 < 2 ^ 31)
    (hl : replace x (intT, .num ((n + 1 : Nat) : Int)) l = some l') : (E.incr 1 (.var x)).eval c ty ⟨l, M⟩ = pure ((intT, .num n), ⟨l', M⟩) := by
  have h1 : Int.bmod n 4294967296 = n := bmod32 (by omega) (by omega)
  have h2 : Int.bmod ((n : Int) + 1) 4294967296 = n + 1 := bmod32 (by omega) (by omega)
  have h3 : (-2147483648 : Int) ≤ n + 1 ∧ (n : Int) + 1 < 2147483648 := by omega
  have hb : binary M c!"+" (intT, .num n) (intT, .num 1) = .ok (intT, .num ((n : Int) + 1)) := by
    simp [binary, isInt, promote, usual, conv, arith, result, h1, h3]
  have hc : convert intT (.num ((n : Int) + 1)) = .ok (.num ((n + 1 : Nat) : Int)) := by
    simp [convert, conv, h2]
  have hp : put ⟨l, M⟩ (.loc x) (.num ((n + 1 : Nat) : Int)) = .ok ⟨l', M⟩ := by
    simp only [put, hx, hl]
  have hg : Spec.CSource.get ⟨l, M⟩ (.loc x) = .ok (.num n) := by simp [Spec.CSource.get, hx]
  have hld : load intT (.num n) = .num n := by simp [load]
  simp only [E.eval, E.place, hx, pure_bind, hg, liftC_ok, hld, hb, hc, hp]

end

def indexVars (p i : V) (L : Str) (j k : Int) : List (Str × T × V) := [(c!"element", elemT, p), (c!"i", intT, i), (c!"list", listT, .ptr L j), (c!"idx", intT, .num k)]

section
variable {M : Mem} {L : Str} {j k : Int}

theorem index_ne {n : Nat} (hk : -2 ^ 31 ≤ k ∧ k < 2 ^ 31) (hn : n < 2 ^ 31) : binary M c!"!=" (intT, .num n) (intT, .num k) = .ok (flag (decide ((n : Int) ≠ k))) := by
  have h1 : Int.bmod n 4294967296 = n := bmod32 (by omega) (by omega)
  have h2 : Int.bmod k 4294967296 = k := bmod32 (by omega) (by omega)
  simp [binary, isInt, promote, usual, conv, arith, h1, h2]

/-- The element that is `k - n` elements further. -/
def nth (es : List (V × V)) (n : Nat) (k : Int) : V := if k < n then .null else ((es[(k - n).toNat]?).map Prod.fst).getD .null

theorem index_loop (hk : -2 ^ 31 ≤ k ∧ k < 2 ^ 31) {p : V} {es : List (V × V)} (hp : Nodes M p es) :
    ∀ n : Nat, n < 2 ^ 31 → ((n : Int) ≤ k ∨ n + es.length < 2 ^ 31) →
      (S.seq (.for indexCond indexStep .skip) indexEnd).exec indexCtx (fun _ => none) ⟨indexVars p (.num n) L j k, M⟩ = pure (.ret (elemT, nth es n k) M) := by
  have h1 : ∀ (p : V) (n : Nat), Pointer p → (E.bin c!"!=" (.var c!"element") (.var c!"NULL")).eval indexCtx (fun _ => none) ⟨indexVars p (.num n) L j k, M⟩ =
      pure (flag (decide (p ≠ .null)), ⟨indexVars p (.num n) L j k, M⟩) :=
    fun p n hp => bin_op (by decide) (by decide) (local_eq (t := elemT) (v := p) (by simp [indexVars, find]) hp.defined) (list_null rfl (by simp [indexVars, find])) not_null
  have hr : ∀ (p : V) (n : Nat), Pointer p → indexEnd.exec indexCtx (fun _ => none) ⟨indexVars p (.num n) L j k, M⟩ = pure (.ret (elemT, p) M) :=
    fun p n hp => seq_ret (ret_eq (local_eq (t := elemT) (v := p) (by simp [indexVars, find]) hp.defined))
  induction hp with
  | nil =>
    intro n _ _
    unfold indexCond
    rw [for_done (and_left (h1 .null n trivial) (by simp [flag, truth])) (by simp [flag, truth]), hr .null n trivial]
    simp [nth]
  | @cons o i v q es hv hq hn ih =>
    intro n hlt hor
    have h2 : (E.bin c!"!=" (.var c!"i") (.var c!"idx")).eval indexCtx (fun _ => none) ⟨indexVars (.ptr o i) (.num n) L j k, M⟩ =
        pure (flag (decide ((n : Int) ≠ k)), ⟨indexVars (.ptr o i) (.num n) L j k, M⟩) :=
      bin_op (by decide) (by decide) (local_eq (t := intT) (v := .num n) (by simp [indexVars, find])) (local_eq (t := intT) (v := .num k) (by simp [indexVars, find])) (index_ne hk hlt)
    have h3 := and_right (h1 (.ptr o i) n trivial) (by simp [flag, truth]) h2
    by_cases hnk : (n : Int) = k
    · unfold indexCond
      rw [for_done h3 (by simp [flag, truth, hnk]), hr (.ptr o i) n trivial]
      simp [nth, ← hnk]
    · simp only [List.length_cons] at hor
      have h4 := arrow_eq (c := indexCtx) (ty := fun _ => none) (l := indexVars (.ptr o i) (.num n) L j k) (a := c!"element") (by simp [indexVars, find]) (list_member rfl).2.2.2.1 hq
      have h5 : (E.assign [] (.var c!"element") (arrow c!"element" c!"next")).eval indexCtx (fun _ => none) ⟨indexVars (.ptr o i) (.num n) L j k, M⟩ =
          pure ((elemT, q), ⟨indexVars q (.num n) L j k, M⟩) :=
        assign_local (old := .ptr o i) h4 (by simp [indexVars, find]) (hn.pointer.convert _) (by simp [indexVars, replace])
      have h6 := incr_int (c := indexCtx) (ty := fun _ => none) (M := M) (x := c!"i") (l := indexVars q (.num n) L j k) (l' := indexVars q (.num ((n + 1 : Nat) : Int)) L j k) (n := n)
        (by simp [indexVars, find]) (by omega) (by simp [indexVars, replace])
      have ih' := ih (n + 1) (by omega) (by omega)
      have hx : nth es (n + 1) k = nth ((.ptr o i, v) :: es) n k := by
        unfold nth
        by_cases hlt' : k < n
        · rw [if_pos (by omega), if_pos hlt']
        · rw [if_neg (by omega), if_neg hlt', show (k - (n : Int)).toNat = (k - ((n + 1 : Nat) : Int)).toNat + 1 by omega]
          rfl
      unfold indexCond indexStep at ih' ⊢
      rw [for_round h3 (by simp [flag, truth, hnk]) (s'' := ⟨indexVars (.ptr o i) (.num n) L j k, M⟩) rfl (by rw [leave_same (by rfl)]; exact comma_eq h5 h6), ih', hx]

theorem nth_pointer {p : V} {es : List (V × V)} (hp : Nodes M p es) (n : Nat) : Pointer (nth es n k) := by
  unfold nth
  split
  · trivial
  · cases h : es[(k - n).toNat]? with
    | none => trivial
    | some e => exact hp.at e (List.mem_of_getElem? h)

theorem index_start {p : V} (hf : At M L j c!"first" p) (hp : Pointer p) :
    indexBody.exec indexCtx (fun _ => none) ⟨[(c!"list", listT, .ptr L j), (c!"idx", intT, .num k)], M⟩ =
      (S.seq (.for indexCond indexStep .skip) indexEnd).exec indexCtx (fun _ => none) ⟨indexVars p (.num (0 : Nat)) L j k, M⟩ := by
  unfold indexBody
  rw [seq_next (s' := ⟨[(c!"i", intT, .undef), (c!"list", listT, .ptr L j), (c!"idx", intT, .num k)], M⟩) rfl, seq_next (s' := ⟨indexVars .undef .undef L j k, M⟩) rfl, seq_assoc]
  have h1 := arrow_eq (c := indexCtx) (ty := fun _ => none) (l := indexVars .undef .undef L j k) (a := c!"list") (by simp [indexVars, find]) (list_member rfl).1 hf
  have h2 := assign_local (t := elemT) (w := p) (old := .undef) (x := c!"element") h1 (by simp [indexVars, find]) (hp.convert _) (l' := indexVars p .undef L j k) (by simp [indexVars, replace])
  have h3 := assign_local (t := intT) (w := .num (0 : Nat)) (old := .undef) (x := c!"i") (lit_eq (c := indexCtx) (ty := fun _ => none) (n := 0) (by decide) ⟨indexVars p .undef L j k, M⟩)
    (by simp [indexVars, find]) rfl (l' := indexVars p (.num (0 : Nat)) L j k) (by simp [indexVars, replace])
  rw [seq_next (expr_eq (comma_eq h2 h3))]

theorem index_bind (hk : -2 ^ 31 ≤ k ∧ k < 2 ^ 31) (t u : T) : bindArgs indexParams [(t, V.ptr L j), (u, .num k)] = .ok [(c!"list", listT, .ptr L j), (c!"idx", intT, .num k)] := by
  have h1 : Int.bmod k 4294967296 = k := bmod32 (by omega) (by omega)
  simp [bindArgs, convert, conv, h1]

theorem run_get_by_index (hk : -2 ^ 31 ≤ k ∧ k < 2 ^ 31) {p : V} {es : List (V × V)} (hf : At M L j c!"first" p) (hp : Nodes M p es) (hl : 0 ≤ k ∨ es.length < 2 ^ 31) (t u : T) :
    run nullHeaders indexText c!"list_get_by_index" [(t, .ptr L j), (u, .num k)] M = pure ((elemT, nth es 0 k), M) := by
  rw [run_index]
  refine invoke_ret (v := (elemT, nth es 0 k)) (index_bind hk t u) ?_ ((nth_pointer hp 0).convert _)
  rw [index_start hf hp.pointer]
  exact index_loop hk hp 0 (by decide) (by omega)

/-! ## The overflow -/

theorem comma_err {c : Ctx} {ty : Str → Option T} {a b : E} {s s' : Store} {v : T × V} {e : Err} (ha : a.eval c ty s = pure (v, s')) (hb : b.eval c ty s' = liftC (.error e)) :
    (E.comma a b).eval c ty s = liftC (.error e) := by
  simp [E.eval, ha, hb]

theorem incr_int_ub {c : Ctx} {ty : Str → Option T} {x : Str} {l : List (Str × T × V)} {n : Nat} (hx : find x l = some (intT, .num n)) (hn : n + 1 = 2 ^ 31) :
    (E.incr 1 (.var x)).eval c ty ⟨l, M⟩ = liftC (.error .ub) := by
  obtain rfl : n = 2147483647 := by omega
  have hb : binary M c!"+" (intT, .num (2147483647 : Nat)) (intT, .num 1) = .error .ub := by rfl
  have hg : Spec.CSource.get ⟨l, M⟩ (.loc x) = .ok (.num (2147483647 : Nat)) := by simp [Spec.CSource.get, hx]
  have hld : load intT (.num (2147483647 : Nat)) = .num (2147483647 : Nat) := by simp [load]
  simp only [E.eval, E.place, hx, pure_bind, hg, liftC_ok, hld, hb, liftC_err]

theorem for_step_err {c : Ctx} {ty : Str → Option T} {e i : E} {a b : S} {s s' s'' : Store} {v : T × V} {r : Err} (h : e.eval c ty s = pure (v, s')) (hv : truth v.2 = true)
    (ha : a.exec c ty s' = pure (.next s'')) (hi : i.eval c ty (leave s' s'') = liftC (.error r)) : (S.seq (.for e i a) b).exec c ty s = liftC (.error r) := by
  rw [for_eq, h]; simp [hv, ha, round, hi, liftC_err, map_liftC_err]

theorem index_overflow (hk : -2 ^ 31 ≤ k ∧ k < 0) {p : V} {es : List (V × V)} (hp : Nodes M p es) :
    ∀ n : Nat, n < 2 ^ 31 → 2 ^ 31 ≤ n + es.length →
      (S.seq (.for indexCond indexStep .skip) indexEnd).exec indexCtx (fun _ => none) ⟨indexVars p (.num n) L j k, M⟩ = liftC (.error .ub) := by
  induction hp with
  | nil => intro n h h'; simp at h'; omega
  | @cons o i v q es hv hq hn ih =>
    intro n hlt hor
    have h1 : (E.bin c!"!=" (.var c!"element") (.var c!"NULL")).eval indexCtx (fun _ => none) ⟨indexVars (.ptr o i) (.num n) L j k, M⟩ =
        pure (flag (decide (V.ptr o i ≠ .null)), ⟨indexVars (.ptr o i) (.num n) L j k, M⟩) :=
      bin_op (by decide) (by decide) (local_eq (t := elemT) (v := .ptr o i) (by simp [indexVars, find])) (list_null rfl (by simp [indexVars, find])) not_null
    have h2 : (E.bin c!"!=" (.var c!"i") (.var c!"idx")).eval indexCtx (fun _ => none) ⟨indexVars (.ptr o i) (.num n) L j k, M⟩ =
        pure (flag (decide ((n : Int) ≠ k)), ⟨indexVars (.ptr o i) (.num n) L j k, M⟩) :=
      bin_op (by decide) (by decide) (local_eq (t := intT) (v := .num n) (by simp [indexVars, find])) (local_eq (t := intT) (v := .num k) (by simp [indexVars, find]))
        (index_ne ⟨hk.1, by omega⟩ hlt)
    have h3 := and_right h1 (by simp [flag, truth]) h2
    have hnk : (n : Int) ≠ k := by omega
    have h4 := arrow_eq (c := indexCtx) (ty := fun _ => none) (l := indexVars (.ptr o i) (.num n) L j k) (a := c!"element") (by simp [indexVars, find]) (list_member rfl).2.2.2.1 hq
    have h5 : (E.assign [] (.var c!"element") (arrow c!"element" c!"next")).eval indexCtx (fun _ => none) ⟨indexVars (.ptr o i) (.num n) L j k, M⟩ =
        pure ((elemT, q), ⟨indexVars q (.num n) L j k, M⟩) :=
      assign_local (old := .ptr o i) h4 (by simp [indexVars, find]) (hn.pointer.convert _) (by simp [indexVars, replace])
    by_cases hm : n + 1 = 2 ^ 31
    · unfold indexCond indexStep
      exact for_step_err h3 (by simp [flag, truth, hnk]) (s'' := ⟨indexVars (.ptr o i) (.num n) L j k, M⟩) rfl
        (by rw [leave_same (by rfl)]; exact comma_err h5 (incr_int_ub (by simp [indexVars, find]) hm))
    · simp only [List.length_cons] at hor
      have h6 := incr_int (c := indexCtx) (ty := fun _ => none) (M := M) (x := c!"i") (l := indexVars q (.num n) L j k) (l' := indexVars q (.num ((n + 1 : Nat) : Int)) L j k) (n := n)
        (by simp [indexVars, find]) (by omega) (by simp [indexVars, replace])
      have ih' := ih (n + 1) (by omega) (by omega)
      unfold indexCond indexStep at ih' ⊢
      rw [for_round h3 (by simp [flag, truth, hnk]) (s'' := ⟨indexVars (.ptr o i) (.num n) L j k, M⟩) rfl (by rw [leave_same (by rfl)]; exact comma_eq h5 h6), ih']

theorem run_index_overflow (hk : -2 ^ 31 ≤ k ∧ k < 0) {p : V} {es : List (V × V)} (hf : At M L j c!"first" p) (hp : Nodes M p es) (hl : 2 ^ 31 ≤ es.length) (t u : T) :
    run nullHeaders indexText c!"list_get_by_index" [(t, .ptr L j), (u, .num k)] M = liftC (.error .ub) := by
  rw [run_index]
  have h : indexBody.exec indexCtx (fun _ => none) ⟨[(c!"list", listT, .ptr L j), (c!"idx", intT, .num k)], M⟩ = liftC (.error .ub) := by
    rw [index_start hf hp.pointer]
    exact index_overflow hk hp 0 (by decide) (by omega)
  simp only [indexFun, invoke, index_bind ⟨hk.1, by omega⟩ t u, liftC_ok, pure_bind, h, liftC_err]

/-- `n` elements in one array, each linked to the one behind it. -/
def longRows (n : Nat) : List Row := (List.range n).map fun i => [(c!"value", .null), (c!"next", if i + 1 = n then .null else .ptr c!"a" ((i + 1 : Nat) : Int))]

def longList (n : Nat) : Mem := [(c!"l", [[(c!"first", .ptr c!"a" 0)]]), (c!"a", longRows n)]

theorem longList_at {n i : Nat} (h : i < n) : At (longList n) c!"a" (i : Int) c!"value" .null ∧
    At (longList n) c!"a" (i : Int) c!"next" (if i + 1 = n then .null else .ptr c!"a" ((i + 1 : Nat) : Int)) := by
  have hr : (longRows n)[(i : Int).toNat]? = some [(c!"value", .null), (c!"next", if i + 1 = n then .null else .ptr c!"a" ((i + 1 : Nat) : Int))] := by
    simp [longRows, h]
  exact ⟨⟨by omega, _, _, by simp [longList, find], hr, by simp [find]⟩, ⟨by omega, _, _, by simp [longList, find], hr, by simp [find]⟩⟩

theorem longList_nodes {n : Nat} : ∀ d i : Nat, i + (d + 1) = n → ∃ es, Nodes (longList n) (.ptr c!"a" (i : Int)) es ∧ es.length = d + 1
  | 0, i, h => by
    have ha := longList_at (n := n) (i := i) (by omega)
    rw [if_pos (by omega)] at ha
    exact ⟨_, .cons ha.1 ha.2 .nil, rfl⟩
  | d + 1, i, h => by
    have ha := longList_at (n := n) (i := i) (by omega)
    rw [if_neg (by omega)] at ha
    obtain ⟨es, he, hl⟩ := longList_nodes (n := n) d (i + 1) (by omega)
    exact ⟨(.ptr c!"a" (i : Int), .null) :: es, .cons ha.1 ha.2 he, by simp [hl]⟩

end

end Verif.Source
