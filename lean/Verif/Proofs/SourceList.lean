import Verif.Proofs.SourceUtf8
import Verif.Data.Source.ListH
import Verif.Data.Source.ListImp
import Verif.Data.Source.List

/-! src/list.c:24-46, 59-67 with the structures of include/list_imp.h: what the text parses to, and its execution. -/

set_option autoImplicit false

namespace Verif.Source

open Verif.Spec.CSource

abbrev listT : T := .ptr (.struct c!"list_t")
abbrev elemT : T := .ptr (.struct c!"list_elem_t")
abbrev anyT : T := .ptr .void

/-- `a->x` -/
abbrev arrow (a x : Str) : E := .field (.unary c!"*" (.var a)) x

def fieldBody (a x : Str) : S := .seq (.ret (arrow a x)) .skip

def searchFor : S :=
  .for (.bin c!"!=" (.var c!"element") (.var c!"NULL")) (.assign [] (.var c!"element") (arrow c!"element" c!"next"))
    (.ite (.bin c!"==" (arrow c!"element" c!"value") (.var c!"value")) (.ret (.var c!"element")) .skip)

def searchEnd : S := .seq (.ret (.var c!"NULL")) .skip

def searchBody : S :=
  .seq (.decl elemT c!"element" none) (.seq (.seq (.expr (.assign [] (.var c!"element") (arrow c!"list" c!"first"))) searchFor) searchEnd)

abbrev headMembers : List (T × Str) := [(elemT, c!"first"), (elemT, c!"last"), (.int false 64, c!"size")]
abbrev nodeMembers : List (T × Str) := [(anyT, c!"value"), (elemT, c!"previous"), (elemT, c!"next")]

def listDecls : List Decl := [
  .struct c!"list_t" [(.struct c!"list", [])],
  .struct c!"list_elem_t" [(.struct c!"list_elem", [])],
  .tag c!"list" headMembers,
  .tag c!"list_elem" nodeMembers,
  .func anyT c!"list_elem_get_value" [(elemT, c!"element")] (fieldBody c!"element" c!"value"),
  .func elemT c!"list_get_first" [(listT, c!"list")] (fieldBody c!"list" c!"first"),
  .func elemT c!"list_get_last" [(listT, c!"list")] (fieldBody c!"list" c!"last"),
  .func elemT c!"list_get" [(listT, c!"list"), (anyT, c!"value")] searchBody,
  .func elemT c!"list_next" [(elemT, c!"element")] (fieldBody c!"element" c!"next"),
  .func elemT c!"list_previous" [(elemT, c!"element")] (fieldBody c!"element" c!"previous")]

/-- list.h, list_imp.h and list.c. -/
def listText : List Str := listHeader ++ listMembers ++ listSearch

theorem list_parses : (lex listText).bind parse = some listDecls := by decide +kernel

/-- `NULL`, of stddef.h. -/
def nullHeaders : Headers where
  const x := if x = c!"NULL" then some (.ptr .void, .null) else none
  struct _ := none

def listStructs : List (Str × List (T × Str)) :=
  [(c!"list_elem", nodeMembers), (c!"list", headMembers), (c!"list_elem_t", [(.struct c!"list_elem", [])]), (c!"list_t", [(.struct c!"list", [])])]

/-- What the function behind the first `k` declarations sees. -/
def listAt (k : Nat) : Ctx := functions (fun _ => none) ⟨nullHeaders, listStructs, []⟩ (listDecls.take k)

theorem list_compiles : compile nullHeaders listDecls = .ok ⟨listAt 10, [], []⟩ := rfl

theorem run_lists {f : Str} {g : List (T × V) → Mem → D ((T × V) × Mem)} (h : find f (listAt 10).funcs = some g) (args : List (T × V)) (m : Mem) :
    run nullHeaders listText f args m = g args m := run_eq list_parses list_compiles h args m

/-- Member `x` of element `i` of the object `o` is `v`. -/
def At (M : Mem) (o : Str) (i : Int) (x : Str) (v : V) : Prop :=
  0 ≤ i ∧ ∃ rows r, find o M = some rows ∧ rows[i.toNat]? = some r ∧ find x r = some v

/-- A pointer: NULL, to an object, or made of an integer. -/
def Pointer : V → Prop
  | .null => True
  | .ptr _ _ => True
  | .num n => 0 < n ∧ n < 2 ^ 64
  | .undef => False

theorem Pointer.convert {v : V} (h : Pointer v) (t : T) : convert (.ptr t) v = .ok v := by
  cases v with
  | num n =>
    have h1 : n % 2 ^ 64 = n := by have := h.1; have := h.2; omega
    have h2 : n ≠ 0 := by have := h.1; omega
    simp only [Spec.CSource.convert, h1, h2, if_false]
  | null => rfl
  | ptr _ _ => rfl
  | undef => exact h.elim

theorem Pointer.defined {v : V} (h : Pointer v) : v ≠ .undef := by rintro rfl; exact h

theorem At.get {M : Mem} {o x : Str} {i : Int} {v : V} (h : At M o i x v) (l : List (Str × T × V)) : get ⟨l, M⟩ (.mem o i x) = .ok v := by
  obtain ⟨h0, rows, r, h1, h2, h3⟩ := h
  have : ¬ i < 0 := by omega
  simp [Spec.CSource.get, this, h1, h2, h3]

section
variable {c : Ctx} {ty : Str → Option T} {l : List (Str × T × V)} {M : Mem} {a o x : Str} {i : Int} {s : Str} {t : T} {v : V}

theorem arrow_eq (ha : find a l = some (.ptr (.struct s), .ptr o i)) (hm : memberType c s x = .ok (.ptr t)) (h : At M o i x v) :
    (arrow a x).eval c ty ⟨l, M⟩ = pure ((.ptr t, v), ⟨l, M⟩) := by
  have hp : member c (.struct s, .mem o i []) x = .ok (.ptr t, .mem o i x) := by simp [member, hm]
  have := field_eq (c := c) (ty := ty) (deref_place (local_eq (M := M) ha) rfl) hp (h.get l)
  rwa [load_ptr] at this

theorem field_call {u : T} (hm : memberType c s x = .ok (.ptr t)) (h : At M o i x v) (hv : Pointer v) :
    invoke c ty (.ptr t) [(.ptr (.struct s), a)] (fieldBody a x) [(u, .ptr o i)] M = pure ((.ptr t, v), M) :=
  call_ret (l := [(a, .ptr (.struct s), .ptr o i)]) (s' := ⟨[(a, .ptr (.struct s), .ptr o i)], M⟩) rfl (arrow_eq (by simp [find]) hm h) (hv.convert t)

theorem list_null (hh : c.headers = nullHeaders) (hn : find c!"NULL" l = none) : (E.var c!"NULL").eval c (fun _ => none) ⟨l, M⟩ = pure ((anyT, .null), ⟨l, M⟩) := by
  simp [E.eval, hn, outer, hh, nullHeaders, map_liftC_ok]

theorem list_member (hs : c.structs = listStructs) :
    memberType c c!"list_t" c!"first" = .ok elemT ∧ memberType c c!"list_t" c!"last" = .ok elemT ∧ memberType c c!"list_elem_t" c!"value" = .ok anyT ∧
    memberType c c!"list_elem_t" c!"next" = .ok elemT ∧ memberType c c!"list_elem_t" c!"previous" = .ok elemT := by
  simp [memberType, hs, listStructs, find]

end

/-! ## The search -/

/-- The elements from the one that `p` points to: where each is, and its value. -/
inductive Nodes (M : Mem) : V → List (V × V) → Prop
  | nil : Nodes M .null []
  | cons {o : Str} {i : Int} {v q : V} {es : List (V × V)} : At M o i c!"value" v → At M o i c!"next" q → Nodes M q es → Nodes M (.ptr o i) ((.ptr o i, v) :: es)

theorem Nodes.pointer {M : Mem} {p : V} {es : List (V × V)} (h : Nodes M p es) : Pointer p := by cases h <;> trivial

/-- A pointer to an object beside one made of an integer: whether they are equal depends on the address of the object. -/
def Mixed : V → V → Prop
  | .ptr _ _, .num _ => True
  | .num _, .ptr _ _ => True
  | _, _ => False

theorem same_pointer {M : Mem} {v w : V} {t u : T} (h : ¬ Mixed v w) : binary M c!"==" (.ptr t, v) (.ptr u, w) = .ok (flag (decide (v = w))) := by
  cases v <;> cases w <;> simp_all [binary, isInt, Mixed]

theorem not_null {M : Mem} {v : V} {t u : T} : binary M c!"!=" (.ptr t, v) (.ptr u, .null) = .ok (flag (decide (v ≠ .null))) := by
  cases v <;> simp [binary]

def searchVars (p w : V) (L : Str) (j : Int) : List (Str × T × V) := [(c!"element", elemT, p), (c!"list", listT, .ptr L j), (c!"value", anyT, w)]

section
variable {c : Ctx} {M : Mem} {w : V} {L : Str} {j : Int}

theorem search_loop (hh : c.headers = nullHeaders) (hs : c.structs = listStructs) (hw : Pointer w) {p : V} {es : List (V × V)} (hp : Nodes M p es)
    (he : ∀ e ∈ es, Pointer e.2 ∧ ¬ Mixed e.2 w) :
    (S.seq searchFor searchEnd).exec c (fun _ => none) ⟨searchVars p w L j, M⟩ =
      pure (.ret (match es.find? fun e => e.2 = w with | some e => (elemT, e.1) | none => (anyT, .null)) M) := by
  have hc : ∀ p, Pointer p → (E.bin c!"!=" (.var c!"element") (.var c!"NULL")).eval c (fun _ => none) ⟨searchVars p w L j, M⟩ = pure (flag (decide (p ≠ .null)), ⟨searchVars p w L j, M⟩) :=
    fun p hp => bin_op (by decide) (by decide) (local_eq (t := elemT) (v := p) (by simp [searchVars, find]) hp.defined) (list_null hh (by simp [searchVars, find])) not_null
  induction hp with
  | nil =>
    unfold searchFor
    rw [for_done (hc .null trivial) rfl]
    exact seq_ret (ret_eq (list_null hh (by simp [searchVars, find])))
  | @cons o i v q es hv hq hn ih =>
    obtain ⟨hpv, hmx⟩ := he _ List.mem_cons_self
    have h1 := arrow_eq (c := c) (ty := fun _ => none) (l := searchVars (.ptr o i) w L j) (a := c!"element") (by simp [searchVars, find]) (list_member hs).2.2.1 hv
    have h2 : (E.var c!"value").eval c (fun _ => none) ⟨searchVars (.ptr o i) w L j, M⟩ = pure ((anyT, w), ⟨searchVars (.ptr o i) w L j, M⟩) :=
      local_eq (by simp [searchVars, find]) hw.defined
    have h3 := bin_op (op := c!"==") (by decide) (by decide) h1 h2 (same_pointer hmx)
    by_cases hvw : v = w
    · unfold searchFor
      rw [for_ret (hc (.ptr o i) trivial) (by simp [flag, truth])
        (by rw [if_then h3 (by simp [flag, truth, hvw])]; exact ret_eq (local_eq (t := elemT) (v := .ptr o i) (by simp [searchVars, find])))]
      simp [hvw]
    · have h4 := arrow_eq (c := c) (ty := fun _ => none) (l := searchVars (.ptr o i) w L j) (a := c!"element") (by simp [searchVars, find]) (list_member hs).2.2.2.1 hq
      have h5 : (E.assign [] (.var c!"element") (arrow c!"element" c!"next")).eval c (fun _ => none) ⟨searchVars (.ptr o i) w L j, M⟩ = pure ((elemT, q), ⟨searchVars q w L j, M⟩) :=
        assign_local (old := .ptr o i) h4 (by simp [searchVars, find]) (hn.pointer.convert _) (by simp [searchVars, replace])
      have ih' := ih fun e h => he e (List.mem_cons_of_mem _ h)
      unfold searchFor at ih' ⊢
      rw [for_round (hc (.ptr o i) trivial) (by simp [flag, truth]) (by rw [if_else h3 (by simp [flag, truth, hvw])]; rfl) (by rw [leave_same (by rfl)]; exact h5), ih']
      simp [hvw]

theorem search_exec (hh : c.headers = nullHeaders) (hs : c.structs = listStructs) (hw : Pointer w) {p : V} {es : List (V × V)} (hf : At M L j c!"first" p) (hp : Nodes M p es)
    (he : ∀ e ∈ es, Pointer e.2 ∧ ¬ Mixed e.2 w) :
    searchBody.exec c (fun _ => none) ⟨[(c!"list", listT, .ptr L j), (c!"value", anyT, w)], M⟩ =
      pure (.ret (match es.find? fun e => e.2 = w with | some e => (elemT, e.1) | none => (anyT, .null)) M) := by
  unfold searchBody
  rw [seq_next (s' := ⟨searchVars .undef w L j, M⟩) rfl, seq_assoc]
  have h1 := arrow_eq (c := c) (ty := fun _ => none) (l := searchVars .undef w L j) (a := c!"list") (by simp [searchVars, find]) (list_member hs).1 hf
  rw [seq_next (expr_eq (assign_local (t := elemT) (w := p) (old := .undef) h1 (by simp [searchVars, find]) (hp.pointer.convert _) (l' := searchVars p w L j) (by simp [searchVars, replace])))]
  exact search_loop hh hs hw hp he

end

theorem Nodes.at {M : Mem} {p : V} {es : List (V × V)} (h : Nodes M p es) : ∀ e ∈ es, Pointer e.1 := by
  induction h with
  | nil => simp
  | cons _ _ _ ih => intro e he; rcases List.mem_cons.mp he with rfl | he
                     · trivial
                     · exact ih e he

theorem Nodes.not_null {M : Mem} {p : V} {es : List (V × V)} (h : Nodes M p es) : ∀ e ∈ es, e.1 ≠ .null := by
  induction h with
  | nil => simp
  | cons _ _ _ ih => intro e he; rcases List.mem_cons.mp he with rfl | he
                     · simp
                     · exact ih e he

theorem run_list_get {M : Mem} {w p : V} {L : Str} {j : Int} {t u : T} (hw : Pointer w) {es : List (V × V)} (hf : At M L j c!"first" p) (hp : Nodes M p es)
    (he : ∀ e ∈ es, Pointer e.2 ∧ ¬ Mixed e.2 w) :
    run nullHeaders listText c!"list_get" [(t, .ptr L j), (u, w)] M = pure ((elemT, ((es.find? fun e => e.2 = w).map Prod.fst).getD .null), M) := by
  rw [run_lists (g := invoke (listAt 7) (fun _ => none) elemT [(listT, c!"list"), (anyT, c!"value")] searchBody) (by simp [listAt, functions, listDecls, find])]
  have hb : bindArgs [(listT, c!"list"), (anyT, c!"value")] [(t, V.ptr L j), (u, w)] = .ok [(c!"list", listT, .ptr L j), (c!"value", anyT, w)] := by
    have h1 : convert listT (V.ptr L j) = .ok (.ptr L j) := rfl
    simp only [bindArgs, hw.convert, h1]
  have hx := search_exec (c := listAt 7) rfl rfl hw hf hp he
  cases hf : es.find? fun e => e.2 = w with
  | none =>
    rw [hf] at hx
    exact invoke_ret hb hx rfl
  | some e =>
    rw [hf] at hx
    exact invoke_ret hb hx ((hp.at e (List.mem_of_find?_eq_some hf)).convert _)

theorem run_members {M : Mem} {o : Str} {i : Int} {v : V} (hv : Pointer v) (u : T) :
    (At M o i c!"value" v → run nullHeaders listText c!"list_elem_get_value" [(u, .ptr o i)] M = pure ((anyT, v), M)) ∧
    (At M o i c!"first" v → run nullHeaders listText c!"list_get_first" [(u, .ptr o i)] M = pure ((elemT, v), M)) ∧
    (At M o i c!"last" v → run nullHeaders listText c!"list_get_last" [(u, .ptr o i)] M = pure ((elemT, v), M)) ∧
    (At M o i c!"next" v → run nullHeaders listText c!"list_next" [(u, .ptr o i)] M = pure ((elemT, v), M)) ∧
    (At M o i c!"previous" v → run nullHeaders listText c!"list_previous" [(u, .ptr o i)] M = pure ((elemT, v), M)) := by
  refine ⟨fun h => ?_, fun h => ?_, fun h => ?_, fun h => ?_, fun h => ?_⟩
  · rw [run_lists (g := invoke (listAt 4) (fun _ => none) anyT [(elemT, c!"element")] (fieldBody c!"element" c!"value")) (by simp [listAt, functions, listDecls, find])]
    exact field_call (list_member rfl).2.2.1 h hv
  · rw [run_lists (g := invoke (listAt 5) (fun _ => none) elemT [(listT, c!"list")] (fieldBody c!"list" c!"first")) (by simp [listAt, functions, listDecls, find])]
    exact field_call (list_member rfl).1 h hv
  · rw [run_lists (g := invoke (listAt 6) (fun _ => none) elemT [(listT, c!"list")] (fieldBody c!"list" c!"last")) (by simp [listAt, functions, listDecls, find])]
    exact field_call (list_member rfl).2.1 h hv
  · rw [run_lists (g := invoke (listAt 8) (fun _ => none) elemT [(elemT, c!"element")] (fieldBody c!"element" c!"next")) (by simp [listAt, functions, listDecls, find])]
    exact field_call (list_member rfl).2.2.2.1 h hv
  · rw [run_lists (g := invoke (listAt 9) (fun _ => none) elemT [(elemT, c!"element")] (fieldBody c!"element" c!"previous")) (by simp [listAt, functions, listDecls, find])]
    exact field_call (list_member rfl).2.2.2.2 h hv

end Verif.Source
