import Verif.Proofs.EmitDecomp

/-! The file that recomposition.py writes. -/

set_option autoImplicit false

namespace Verif.Emit
open Verif.Spec.CText hiding Str
open Verif.Py (Str)

/-! ### Dictionaries -/

section
variable {α : Type}

theorem get_put (k j : Nat) (v : α) : ∀ d, get j (put k v d) = if j = k then some v else get j d
  | [] => by
    by_cases h : j = k
    · simp [put, get, h]
    · simp [put, get, h, Ne.symm h]
  | (i, w) :: d => by
    by_cases hi : i = k
    · subst hi
      by_cases h : j = i
      · simp [put, get, h]
      · simp [put, get, h, Ne.symm h]
    · have ih := get_put k j v d
      simp only [put, hi, if_false, get, ih]
      by_cases h : i = j
      · subst h; simp [hi]
      · simp [h]

theorem keys_put (k : Nat) (v : α) : ∀ d : List (Nat × α), (d.map Prod.fst).Nodup → ((put k v d).map Prod.fst).Nodup ∧ ∀ x, x ∈ (put k v d).map Prod.fst ↔ x = k ∨ x ∈ d.map Prod.fst
  | [], _ => by simp [put]
  | (i, w) :: d, h => by
    rw [List.map_cons, List.nodup_cons] at h
    by_cases hi : i = k
    · subst hi; simp only [put, if_true, List.map_cons, List.nodup_cons, List.mem_cons]
      exact ⟨h, fun x => by tauto⟩
    · obtain ⟨h1, h2⟩ := keys_put k v d h.2
      simp only [put, hi, if_false, List.map_cons, List.nodup_cons, List.mem_cons, h2]
      exact ⟨⟨by simp only [hi, false_or]; exact h.1, h1⟩, fun x => by tauto⟩

theorem get_mem {k : Nat} {v : α} : ∀ {d : List (Nat × α)}, (d.map Prod.fst).Nodup → (get k d = some v ↔ (k, v) ∈ d)
  | [], _ => by simp [get]
  | (i, w) :: d, h => by
    rw [List.map_cons, List.nodup_cons] at h
    rw [get, List.mem_cons]
    by_cases hi : i = k
    · subst hi
      rw [if_pos rfl]
      constructor
      · intro e; cases e; exact .inl rfl
      · rintro (e | e)
        · cases e; rfl
        · exact absurd (List.mem_map.2 ⟨_, e, rfl⟩) h.1
    · rw [if_neg hi, get_mem h.2]
      constructor
      · exact .inr
      · rintro (e | e)
        · cases e; exact absurd rfl hi
        · exact e

theorem sorted_perm (d : List (Nat × α)) : List.Perm (sorted d) d := List.mergeSort_perm _ _

end

/-- The dictionary of dictionaries: distinct keys, and the last assignment counts. -/
theorem recompositions_spec (ps : List ((Nat × Nat) × Nat)) :
    ((recompositions ps).map Prod.fst).Nodup ∧ (∀ r ∈ recompositions ps, (r.2.map Prod.fst).Nodup) ∧
    ∀ s c, (get c (recompositions ps)).bind (get s) = (ps.reverse.find? fun p => p.1 == (s, c)).map Prod.snd := by
  have key : ∀ (ps : List ((Nat × Nat) × Nat)) (R : List (Nat × List (Nat × Nat))), (R.map Prod.fst).Nodup → (∀ r ∈ R, (r.2.map Prod.fst).Nodup) →
      let R' := ps.foldl (fun R p => put p.1.2 (put p.1.1 p.2 ((get p.1.2 R).getD [])) R) R
      (R'.map Prod.fst).Nodup ∧ (∀ r ∈ R', (r.2.map Prod.fst).Nodup) ∧
      ∀ s c, (get c R').bind (get s) = ((ps.reverse.find? fun p => p.1 == (s, c)).map Prod.snd).or ((get c R).bind (get s)) := by
    intro ps
    induction ps with
    | nil => intro R h1 h2; exact ⟨h1, h2, fun s c => rfl⟩
    | cons p ps ih =>
      intro R h1 h2
      obtain ⟨⟨s0, c0⟩, v0⟩ := p
      have hin : (((get c0 R).getD []).map Prod.fst).Nodup := by
        cases e : get c0 R with
        | none => simp
        | some d => exact h2 _ ((get_mem h1).1 e)
      have hput := keys_put c0 (put s0 v0 ((get c0 R).getD [])) R h1
      obtain ⟨g1, g2, g3⟩ := ih (put c0 (put s0 v0 ((get c0 R).getD [])) R) hput.1 (by
        rintro ⟨c, d⟩ hr
        rw [← get_mem hput.1, get_put] at hr
        by_cases hc : c = c0
        · rw [if_pos hc] at hr; cases hr; exact (keys_put _ _ _ hin).1
        · rw [if_neg hc] at hr; exact h2 _ ((get_mem h1).1 hr))
      refine ⟨g1, g2, fun s c => ?_⟩
      rw [List.foldl_cons, g3 s c, List.reverse_cons, List.find?_append]
      cases ps.reverse.find? fun p => p.1 == (s, c) with
      | some x => rfl
      | none =>
        rw [get_put]
        by_cases hc : c = c0
        · subst hc
          rw [if_pos rfl, Option.bind_some, get_put]
          by_cases hs : s = s0
          · subst hs; simp
          · rw [if_neg hs, List.find?_cons_of_neg (by simp [Ne.symm hs])]
            cases get c R with
            | none => rfl
            | some d => rfl
        · rw [if_neg hc, List.find?_cons_of_neg (by simp [Ne.symm hc])]
          rfl
  have := key ps [] (by simp) (by simp)
  refine ⟨this.1, this.2.1, fun s c => ?_⟩
  have h := this.2.2 s c
  rw [show (get c ([] : List (Nat × List (Nat × Nat)))).bind (get s) = none from rfl, Option.or_none] at h
  exact h

/-! ### The text -/

/-- The name of a function. -/
def recompName (cc : Nat) : Str := c!"recompose_" ++ fmt 10 cc

theorem recompName_inj {a c : Nat} (h : recompName a = recompName c) : a = c := fmt_inj (by decide) (by decide) (List.append_cancel_left h)

theorem word_recomp (cc : Nat) : word (recompName cc) = some (.ident (recompName cc)) := by
  refine word_cons rfl ?_
  simp [keyword]

theorem recomp_word (cc : Nat) : ∀ c ∈ recompName cc, isWord c = true := by
  intro c hc
  rcases List.mem_append.1 hc with h | h
  · clear hc; revert h c; decide
  · exact fmt_word (by decide) (by decide) c h

/-- A call with the variable `starter`. -/
def callLeaf (cc : Nat) : Leaf :=
  ⟨c!"recompose_" ++ (fmt 10 cc ++ c!"(starter)"), [.ident (recompName cc), .sym .lpar, .ident c!"starter", .sym .rpar], .call (recompName cc) (.var c!"starter")⟩

theorem callLeaf_good (cc : Nat) : (callLeaf cc).Good where
  lex h := by
    have h1 := lex_lit (a := c!"(starter)") (ts := [.sym .lpar, .ident c!"starter", .sym .rpar]) rfl h
    have h2 := lex_word (recomp_word cc) (word_recomp cc) (c := '(') rfl h1
    simpa [callLeaf, recompName, List.append_assoc] using h2
  parse _ := rfl

/-- `-1` -/
def minusLeaf : Leaf := ⟨c!"-1", [.sym .minus, .num 1], .neg (.num 1)⟩

theorem minusLeaf_good : minusLeaf.Good where
  lex h := lex_lit (a := c!"-") (ts := [.sym .minus]) rfl (lex_word (p := c!"1") (t := .num 1) (by decide) rfl rfl h)
  parse _ := rfl

/-- The tokens of a function for the second code points. -/
def recompToks (cc : Nat) (d : List (Nat × Nat)) : List Tok :=
  .key .static :: .key .int :: .ident (recompName cc) :: .sym .lpar :: .key .int :: .ident c!"starter" :: .sym .rpar :: .sym .lbrace ::
    switchToks c!"starter" (d.map fun s => (s.1, numLeaf s.2)) minusLeaf []

theorem switchToks_append (x : Str) (cases : List (Nat × Leaf)) (d : Leaf) (ts : List Tok) : switchToks x cases d [] ++ ts = switchToks x cases d ts := by
  simp [switchToks]

theorem lex_recomp {cs : Str} {ts : List Tok} {s : At} (h : feed .free cs = some (ts, s)) (cc : Nat) (d : List (Nat × Nat)) :
    feed .free (recompFunc cc d ++ cs) = some (recompToks cc (sorted d) ++ ts, s) := by
  have h0 := lex_lit (a := recompTail) (ts := [.key .default, .sym .colon, .key .return, .sym .minus, .num 1, .sym .semi, .sym .rbrace, .sym .rbrace]) rfl h
  have h1 := lex_labels (sep := c!"\n            return ") rfl h0 ((sorted d).map fun s => (s.1, numLeaf s.2)) (by
    intro c hc; obtain ⟨a, _, rfl⟩ := List.mem_map.1 hc; exact numLeaf_good _)
  rw [← labelToks_eq (sorted d) numLeaf] at h1
  have h2 := lex_lit (a := c!"(int starter)\n{\n    switch (starter) {\n") (ts := [.sym .lpar, .key .int, .ident c!"starter", .sym .rpar, .sym .lbrace,
    .key .switch, .sym .lpar, .ident c!"starter", .sym .rpar, .sym .lbrace]) (by decide) h1
  have h3 := lex_lit (a := c!"\nstatic int ") (ts := [.key .static, .key .int]) rfl (lex_word (recomp_word cc) (word_recomp cc) (c := '(') rfl h2)
  have e : recompFunc cc d ++ cs = c!"\nstatic int " ++ (recompName cc ++ (c!"(int starter)\n{\n    switch (starter) {\n" ++
      ((sorted d).flatMap (fun c => c!"        case " ++ (fmt 10 c.1 ++ (':' :: c!"\n            return " ++ ((numLeaf c.2).text ++ c!";\n")))) ++ (recompTail ++ cs)))) := by
    simp only [recompFunc, recompName, List.append_assoc, List.cons_append, List.nil_append]
    rfl
  rw [e]
  refine Eq.trans h3 ?_
  simp [recompToks, switchToks, minusLeaf]

theorem lex_recomps {cs : Str} {ts : List Tok} {s : At} (h : feed .free cs = some (ts, s)) : ∀ R : List (Nat × List (Nat × Nat)),
    feed .free (R.flatMap (fun r => recompFunc r.1 r.2) ++ cs) = some (R.flatMap (fun r => recompToks r.1 (sorted r.2)) ++ ts, s)
  | [] => h
  | r :: R => by
    have := lex_recomp (lex_recomps h R) r.1 r.2
    simpa [List.flatMap_cons, List.append_assoc] using this

/-- The body of a function for the second code points. -/
abbrev recompBody (d : List (Nat × Nat)) : S := switchBody c!"starter" ((sorted d).map fun s => (s.1, numLeaf s.2)) minusLeaf

/-- Its declaration. -/
def recompDecl (r : Nat × List (Nat × Nat)) : Decl := .func .int (recompName r.1) [c!"starter"] (recompBody r.2)

theorem parse_recomp (r : Nat × List (Nat × Nat)) (f : Nat) (ts : List Tok) {ds : List Decl} (h : pUnit f ts = some ds) :
    pUnit (f + 1) (recompToks r.1 (sorted r.2) ++ ts) = some (recompDecl r :: ds) := by
  have h1 := parse_switch c!"starter" (cases := (sorted r.2).map fun s => (s.1, numLeaf s.2)) (d := minusLeaf) (by
    intro c hc; obtain ⟨a, _, rfl⟩ := List.mem_map.1 hc; exact numLeaf_good _) minusLeaf_good ts
  simp only [recompToks, List.cons_append, switchToks_append]
  generalize switchToks c!"starter" ((sorted r.2).map fun s => (s.1, numLeaf s.2)) minusLeaf ts = us at h1 ⊢
  simp only [pUnit, pDecl, pType, List.length_cons, pParams, h1, h]
  rfl

theorem parse_recomps (f : Nat) (ts : List Tok) {es : List Decl} (h : pUnit f ts = some es) : ∀ R : List (Nat × List (Nat × Nat)),
    pUnit (f + R.length) (R.flatMap (fun r => recompToks r.1 (sorted r.2)) ++ ts) = some (R.map recompDecl ++ es)
  | [] => h
  | r :: R => by
    have := parse_recomp r _ _ (parse_recomps f ts h R)
    simpa [List.flatMap_cons, List.append_assoc, Nat.add_assoc] using this

/-- The functions are declared one after the other. -/
theorem load_recomps (H : Str → Option V) (es : List Decl) : ∀ (R : List (Nat × List (Nat × Nat))) (G : Globals), (R.map Prod.fst).Nodup →
    (∀ r ∈ R, (r.2.map Prod.fst).Nodup) → (∀ r ∈ R, ∀ g ∈ G, g.1 ≠ recompName r.1) →
    ∃ G' : Globals, load H (R.map recompDecl ++ es) G = load H es G' ∧ (∀ x, (∀ r ∈ R, recompName r.1 ≠ x) → find x G' = find x G) ∧
      (∀ r ∈ R, ∃ G'', find (recompName r.1) G' = some (.func (invoke H G'' .int [c!"starter"] (recompBody r.2))))
  | [], G, _, _, _ => ⟨G, rfl, fun _ _ => rfl, by simp⟩
  | r :: R, G, hn, hd, hg => by
    rw [List.map_cons, List.nodup_cons] at hn
    have hw : (recompBody r.2).wf := switch_wf _ _ (by
      rw [List.map_map, show (Prod.fst ∘ fun s : Nat × Nat => (s.1, numLeaf s.2)) = Prod.fst from rfl]
      exact ((sorted_perm r.2).map Prod.fst).nodup_iff.2 (hd r (by simp)))
    have h2 : find (recompName r.1) G = none := find_none (hg r (by simp))
    have h3 : load H ((r :: R).map recompDecl ++ es) G = load H (R.map recompDecl ++ es) ((recompName r.1, .func (invoke H G .int [c!"starter"] (recompBody r.2))) :: G) := by
      simp only [List.map_cons, List.cons_append, load, recompDecl, declare, hw, if_true, h2, Option.isSome_none, Bool.false_eq_true, if_false]
    obtain ⟨G', g1, g2, g3⟩ := load_recomps H es R ((recompName r.1, .func (invoke H G .int [c!"starter"] (recompBody r.2))) :: G) hn.2
      (fun q hq => hd q (by simp [hq])) (by
        intro q hq g hg'
        rcases List.mem_cons.1 hg' with rfl | hg'
        · intro e
          exact hn.1 (List.mem_map.2 ⟨q, hq, (recompName_inj e).symm⟩)
        · exact hg q (by simp [hq]) g hg')
    refine ⟨G', by rw [h3, g1], ?_, ?_⟩
    · intro x hx
      rw [g2 x fun q hq => hx q (by simp [hq]), find, if_neg (Ne.symm (hx r (by simp)))]
    · intro q hq
      rcases List.mem_cons.1 hq with rfl | hq
      · refine ⟨G, ?_⟩
        rw [g2 _ fun p hp e => hn.1 (List.mem_map.2 ⟨p, hp, recompName_inj e⟩), find, if_pos rfl]
      · exact g3 q hq

theorem le_flatMap {α : Type} {g : α → List Tok} (h : ∀ a, 1 ≤ (g a).length) : ∀ l : List α, l.length ≤ (l.flatMap g).length
  | [] => by simp
  | a :: l => by
    have := le_flatMap h l
    have := h a
    simp only [List.flatMap_cons, List.length_append, List.length_cons]; omega

theorem program_recomp (H : Str → Option V) {R : List (Nat × List (Nat × Nat))} (hn : (R.map Prod.fst).Nodup) (hd : ∀ r ∈ R, (r.2.map Prod.fst).Nodup) :
    ∃ G : Globals, program H (recompOut R) = .ok ((c!"_charstr_unicode_primary_composite", .func (invoke H G .int [c!"starter", c!"cc"]
      (switchBody c!"cc" ((sorted R).map fun r => (r.1, callLeaf r.1)) minusLeaf))) :: G) ∧
      ∀ r ∈ R, ∃ G', find (recompName r.1) G = some (.func (invoke H G' .int [c!"starter"] (recompBody r.2))) := by
  have hp := sorted_perm R
  have hn' : ((sorted R).map Prod.fst).Nodup := (hp.map Prod.fst).nodup_iff.2 hn
  have hd' : ∀ r ∈ sorted R, (r.2.map Prod.fst).Nodup := fun r hr => hd r (hp.mem_iff.1 hr)
  have hm : ∀ r ∈ R, r ∈ sorted R := fun r hr => hp.mem_iff.2 hr
  unfold recompOut
  generalize sorted R = Q at *
  have hg : ∀ c ∈ Q.map fun r => (r.1, callLeaf r.1), Leaf.Good c.2 := by
    intro c hc; obtain ⟨a, _, rfl⟩ := List.mem_map.1 hc; exact callLeaf_good _
  have h1 := lex_labels (sep := c!"\n            return ") rfl (cs := recompTail)
    (ts := [.key .default, .sym .colon, .key .return, .sym .minus, .num 1, .sym .semi, .sym .rbrace, .sym .rbrace]) (s := .free) (by decide) _ hg
  have h2 := lex_lit (a := c!"\nint _charstr_unicode_primary_composite(int starter, int cc)\n{\n    switch (cc) {\n")
    (ts := [.key .int, .ident c!"_charstr_unicode_primary_composite", .sym .lpar, .key .int, .ident c!"starter", .sym .comma, .key .int, .ident c!"cc", .sym .rpar, .sym .lbrace,
      .key .switch, .sym .lpar, .ident c!"cc", .sym .rpar, .sym .lbrace]) (by decide) h1
  have h3 := lex_lit (a := c!"#include \"charstr.h\"\n\n") (ts := []) rfl (lex_recomps h2 Q)
  have e : (Q.map fun r => (r.1, callLeaf r.1)).flatMap (fun c => c!"        case " ++ (fmt 10 c.1 ++ (':' :: c!"\n            return " ++ (c.2.text ++ c!";\n")))) =
      Q.flatMap fun r => caseLines r.1 (c!"recompose_" ++ (fmt 10 r.1 ++ c!"(starter)")) := by
    clear * -
    induction Q with
    | nil => rfl
    | cons r Q ih => rw [List.map_cons, List.flatMap_cons, List.flatMap_cons, ih]; rfl
  rw [e] at h3
  have h5 : lex (c!"#include \"charstr.h\"\n\n" ++ (Q.flatMap (fun r => recompFunc r.1 r.2) ++
      (c!"\nint _charstr_unicode_primary_composite(int starter, int cc)\n{\n    switch (cc) {\n" ++
      (Q.flatMap (fun r => caseLines r.1 (c!"recompose_" ++ (fmt 10 r.1 ++ c!"(starter)"))) ++ recompTail)))) =
      some (Q.flatMap (fun r => recompToks r.1 (sorted r.2)) ++
      .key .int :: .ident c!"_charstr_unicode_primary_composite" :: .sym .lpar :: .key .int :: .ident c!"starter" :: .sym .comma :: .key .int :: .ident c!"cc" :: .sym .rpar ::
      .sym .lbrace :: switchToks c!"cc" (Q.map fun r => (r.1, callLeaf r.1)) minusLeaf []) := by
    rw [lex, h3]
    rfl
  have h6 : parse (Q.flatMap (fun r => recompToks r.1 (sorted r.2)) ++
      .key .int :: .ident c!"_charstr_unicode_primary_composite" :: .sym .lpar :: .key .int :: .ident c!"starter" :: .sym .comma :: .key .int :: .ident c!"cc" :: .sym .rpar ::
      .sym .lbrace :: switchToks c!"cc" (Q.map fun r => (r.1, callLeaf r.1)) minusLeaf []) =
      some (Q.map recompDecl ++ [.func .int c!"_charstr_unicode_primary_composite" [c!"starter", c!"cc"]
        (switchBody c!"cc" (Q.map fun r => (r.1, callLeaf r.1)) minusLeaf)]) := by
    have h := parse_switch c!"cc" hg minusLeaf_good []
    generalize switchToks c!"cc" (Q.map fun r => (r.1, callLeaf r.1)) minusLeaf [] = ts at h
    generalize hus : (.key .int :: .ident c!"_charstr_unicode_primary_composite" :: .sym .lpar :: .key .int :: .ident c!"starter" :: .sym .comma :: .key .int ::
      .ident c!"cc" :: .sym .rpar :: .sym .lbrace :: ts : List Tok) = us
    have hu : ∀ f, pUnit (f + 2) us = some [.func .int c!"_charstr_unicode_primary_composite" [c!"starter", c!"cc"]
        (switchBody c!"cc" (Q.map fun r => (r.1, callLeaf r.1)) minusLeaf)] := by
      intro f
      rw [← hus]
      simp only [pUnit, pDecl, pType, List.length_cons, pParams, h]
    have hl := le_flatMap (g := fun r : Nat × List (Nat × Nat) => recompToks r.1 (sorted r.2)) (fun r => by simp [recompToks]) Q
    have hu2 : 1 ≤ us.length := by rw [← hus]; simp
    obtain ⟨f, hf⟩ : ∃ f, ((Q.flatMap (fun r => recompToks r.1 (sorted r.2)) ++ us).length + 1) = f + 2 + Q.length := by
      rw [List.length_append]
      exact ⟨(Q.flatMap fun r => recompToks r.1 (sorted r.2)).length + us.length - 1 - Q.length, by omega⟩
    rw [parse, hf]
    exact parse_recomps (f + 2) us (hu f) Q
  obtain ⟨G, g1, g2, g3⟩ := load_recomps H [.func .int c!"_charstr_unicode_primary_composite" [c!"starter", c!"cc"]
        (switchBody c!"cc" (Q.map fun r => (r.1, callLeaf r.1)) minusLeaf)] Q [] hn' hd' (by simp)
  refine ⟨G, ?_, fun r hr => g3 r (hm r hr)⟩
  rw [program, h5]
  simp only [h6, g1]
  have hw := switch_wf c!"cc" minusLeaf (cases := Q.map fun r => (r.1, callLeaf r.1)) (by
    rw [List.map_map, show (Prod.fst ∘ fun r : Nat × List (Nat × Nat) => (r.1, callLeaf r.1)) = Prod.fst from rfl]; exact hn')
  have hf : find c!"_charstr_unicode_primary_composite" G = none := by
    rw [g2 _ fun r _ => by simp [recompName]]
    rfl
  simp only [load, declare, hw, if_true, hf, Option.isSome_none, Bool.false_eq_true, if_false]

theorem eval_minus {H : Str → Option V} {G : Globals} {L : Locals} : Returns (minusLeaf.e.eval H G L) (.int (-1)) := by
  show Returns (E.eval H G L (.neg (.num 1))) _
  rw [E.eval, returns_bind (eval_num (by decide)), returns_liftC]
  rfl

/-- What the file that recomposition.py writes means: `p` if `d[c][s]` is `p`, and -1 if there is no such entry. -/
theorem recompOut_means (H : Str → Option V) {R : List (Nat × List (Nat × Nat))} (hn : (R.map Prod.fst).Nodup) (hd : ∀ r ∈ R, (r.2.map Prod.fst).Nodup) :
    (∀ s c p : Nat, (get c R).bind (get s) = some p → p < 2 ^ 31 → Means H (recompOut R) c!"_charstr_unicode_primary_composite" [.int s, .int c] (.int p)) ∧
    ∀ s c : Int, (∀ s' c' : Nat, (s' : Int) = s → (c' : Int) = c → (get c' R).bind (get s') = none) →
      Means H (recompOut R) c!"_charstr_unicode_primary_composite" [.int s, .int c] (.int (-1)) := by
  obtain ⟨G, hp, hG⟩ := program_recomp H hn hd
  have hk : (((sorted R).map fun r => (r.1, callLeaf r.1)).map Prod.fst).Nodup := by
    rw [List.map_map, show (Prod.fst ∘ fun r : Nat × List (Nat × Nat) => (r.1, callLeaf r.1)) = Prod.fst from rfl]
    exact ((sorted_perm R).map Prod.fst).nodup_iff.2 hn
  have inner : ∀ r ∈ R, ∀ G' : Globals, ∀ s : Int,
      (∀ s' p : Nat, (s' : Int) = s → (s', p) ∈ r.2 → p < 2 ^ 31 → Returns (invoke H G' .int [c!"starter"] (recompBody r.2) [.int s]) (.int p)) ∧
      ((∀ x ∈ r.2, (x.1 : Int) ≠ s) → Returns (invoke H G' .int [c!"starter"] (recompBody r.2) [.int s]) (.int (-1))) := by
    intro r hr G' s
    have hk : (((sorted r.2).map fun s => (s.1, numLeaf s.2)).map Prod.fst).Nodup := by
      rw [List.map_map, show (Prod.fst ∘ fun s : Nat × Nat => (s.1, numLeaf s.2)) = Prod.fst from rfl]
      exact ((sorted_perm r.2).map Prod.fst).nodup_iff.2 (hd r hr)
    constructor
    · rintro s' p rfl hm hb
      refine invoke_switch rfl (n := s') rfl (v := .int p) ?_ rfl
      rw [pick_hit hk (List.mem_map.2 ⟨(s', p), (sorted_perm r.2).mem_iff.2 hm, rfl⟩)]
      exact eval_num hb
    · intro h
      refine invoke_switch rfl (n := s) rfl (v := .int (-1)) ?_ rfl
      rw [pick_miss (by
        intro c hc
        obtain ⟨x, hx, rfl⟩ := List.mem_map.1 hc
        exact h x ((sorted_perm r.2).mem_iff.1 hx))]
      exact eval_minus
  have call : ∀ r ∈ R, ∀ (s c : Int) (v : V), (∀ G', Returns (invoke H G' .int [c!"starter"] (recompBody r.2) [.int s]) v) → (r.1 : Int) = c →
      Returns ((pick minusLeaf.e ((sorted R).map fun r => (r.1, callLeaf r.1)) c).eval H G ([c!"starter", c!"cc"].zip [.int s, .int c])) v := by
    rintro r hr s _ v hv rfl
    rw [pick_hit hk (List.mem_map.2 ⟨r, (sorted_perm R).mem_iff.2 hr, rfl⟩)]
    obtain ⟨G', hG'⟩ := hG r hr
    show Returns (E.eval H G _ (.call (recompName r.1) (.var c!"starter"))) _
    rw [E.eval, returns_bind (a := V.int s) (by rw [E.eval, returns_liftC]; rfl)]
    simp only [hG']
    exact hv G'
  refine ⟨fun s c p h hb => ⟨_, _, hp, by rw [find, if_pos rfl], invoke_switch rfl (n := c) rfl (v := .int p) ?_ rfl⟩,
    fun s c h => ⟨_, _, hp, by rw [find, if_pos rfl], invoke_switch rfl (n := c) rfl (v := .int (-1)) ?_ rfl⟩⟩
  · rw [Option.bind_eq_some_iff] at h
    obtain ⟨d, h1, h2⟩ := h
    have hr := (get_mem hn).1 h1
    exact call _ hr s c _ (fun G' => (inner _ hr G' s).1 s p rfl ((get_mem (hd _ hr)).1 h2) hb) rfl
  · by_cases hc : ∃ r ∈ R, (r.1 : Int) = c
    · obtain ⟨r, hr, rfl⟩ := hc
      refine call _ hr s _ _ (fun G' => (inner _ hr G' s).2 ?_) rfl
      rintro x hx rfl
      have := h x.1 r.1 rfl rfl
      rw [(get_mem hn).2 hr, Option.bind_some, (get_mem (hd r hr)).2 hx] at this
      cases this
    · rw [pick_miss (by
        intro p hp
        obtain ⟨r, hr, rfl⟩ := List.mem_map.1 hp
        exact fun e => hc ⟨r, (sorted_perm R).mem_iff.1 hr, e⟩)]
      exact eval_minus

end Verif.Emit
