import Verif.Proofs.Compose

/-! Proofs about `charstr_unicode_recompose`: what it writes and returns. -/

namespace Verif.Unicode
open Verif.Utf8 Verif.Spec.Utf8 Verif.Spec.Unicode

/-! ### The first stage -/

/-- The state between two calls of `recomposer_feed`. -/
def Rel (r : Recomposer) : Option (Nat × List Nat) → Prop
  | none => r.state = .init
  | some (s, b) => r.state = .started ∧ r.starter = s ∧ r.ccs = b

/-- A code point or `errno`, followed by all that can be read. -/
inductive Reads : Recomposer → Out → List Nat → Errno → Recomposer → Prop
  | stop {r x} : Reads r (.error x) [] x r
  | next {r c w x r'} : Reads (read r).1 (read r).2 w x r' → Reads r (.ok c) (c :: w) x r'

theorem reads_delivering {r : Recomposer} (h : r.state = .delivering) (hk : r.rd ≤ r.ccs.length) :
    Reads (read r).1 (read r).2 (r.ccs.drop r.rd) .eagain { r with state := .started, ccs := [], rd := r.ccs.length } := by
  induction hn : r.ccs.length - r.rd generalizing r with
  | zero =>
    have hlen : r.rd = r.ccs.length := by omega
    have h1 : r.ccs[r.rd]? = none := by simp [hlen]
    simp only [read, h, h1]
    rw [hlen, List.drop_length, ← hlen]
    exact .stop
  | succ n ih =>
    have hlt : r.rd < r.ccs.length := by omega
    have h1 : r.ccs[r.rd]? = some r.ccs[r.rd] := by simp [hlt]
    simp only [read, h, h1]
    rw [List.drop_eq_getElem_cons hlt]
    exact .next (ih (r := { r with rd := r.rd + 1, state := .delivering }) rfl (Nat.succ_le_of_lt hlt) (by simp only; omega))

theorem reads_terminated {r : Recomposer} (h : r.state = .deliveringTerminated) (hk : r.rd ≤ r.ccs.length) :
    Reads (read r).1 (read r).2 (r.ccs.drop r.rd) .enodata { r with state := .terminated, rd := r.ccs.length } := by
  induction hn : r.ccs.length - r.rd generalizing r with
  | zero =>
    have hlen : r.rd = r.ccs.length := by omega
    have h1 : r.ccs[r.rd]? = none := by simp [hlen]
    simp only [read, h, h1]
    rw [hlen, List.drop_length, ← hlen]
    exact .stop
  | succ n ih =>
    have hlt : r.rd < r.ccs.length := by omega
    have h1 : r.ccs[r.rd]? = some r.ccs[r.rd] := by simp [hlt]
    simp only [read, h, h1]
    rw [List.drop_eq_getElem_cons hlt]
    exact .next (ih (r := { r with rd := r.rd + 1, state := .deliveringTerminated }) rfl (Nat.succ_le_of_lt hlt) (by simp only; omega))

/-- The number of combining characters held back. -/
def glen (g : G) : Nat := match g.2 with | none => 0 | some (_, b) => b.length

theorem feed_spec (u : Ucd) {r : Recomposer} {g : G} (h : Rel r g.2) (hg : glen g ≤ 100) (c : Nat) : ∃ r' out, feed u r c = .ok (r', out) ∧
    ((100 < glen (gstep u g c) ∧ out = .error .enobufs) ∨ glen (gstep u g c) ≤ 100 ∧
      ∃ w r'', (gstep u g c).1 = g.1 ++ w ∧ Reads r' out w .eagain r'' ∧ Rel r'' (gstep u g c).2) := by
  obtain ⟨e, cur⟩ := g
  cases cur with
  | none =>
    have hst : r.state = .init := h
    simp only [feed, hst, gstep]
    by_cases hc : u.ccc c ≠ 0
    · rw [if_pos hc, if_pos hc]
      refine ⟨_, _, rfl, Or.inr ⟨by simp [glen], [c], r, rfl, ?_, h⟩⟩
      refine .next ?_
      simp only [read, hst]
      exact .stop
    · rw [if_neg hc, if_neg hc]
      exact ⟨_, _, rfl, Or.inr ⟨by simp [glen], [], _, by simp, .stop, rfl, rfl, rfl⟩⟩
  | some x =>
    obtain ⟨s, b⟩ := x
    obtain ⟨hst, rfl, rfl⟩ := h
    simp only [feed, hst, gstep]
    cases hp : (if blocked u r.ccs (u.ccc c) = true then none else u.composite r.starter c) with
    | some p =>
      simp only []
      exact ⟨_, _, rfl, Or.inr ⟨hg, [], _, by simp, .stop, rfl, rfl, rfl⟩⟩
    | none =>
      simp only []
      by_cases hc : u.ccc c ≠ 0
      · rw [if_pos hc, if_pos hc]
        simp only [glen] at hg ⊢
        by_cases h100 : r.ccs.length ≥ 100
        · rw [if_pos h100]
          exact ⟨_, _, rfl, Or.inl ⟨by simp only [List.length_append, List.length_singleton]; omega, rfl⟩⟩
        · rw [if_neg h100]
          exact ⟨_, _, rfl, Or.inr ⟨by simp only [List.length_append, List.length_singleton]; omega, [], _, by simp, .stop, rfl, rfl, rfl⟩⟩
      · rw [if_neg hc, if_neg hc]
        refine ⟨_, _, rfl, Or.inr ⟨by simp [glen], r.starter :: r.ccs,
          { r with state := .started, starter := c, ccs := [], rd := r.ccs.length }, rfl, .next ?_, ?_⟩⟩
        · exact reads_delivering (r := { r with starter := c, state := .delivering, rd := 0 }) rfl (Nat.zero_le _)
        · exact ⟨rfl, rfl, rfl⟩

/-! ### Writing -/

theorem deliver_spec {r r' : Recomposer} {out : Out} {w : List Nat} {x : Errno} (hr : Reads r out w x r') :
    ∀ {o : List Nat} {h : Hangul} {buf : List UInt8} {e : Nat}, (∀ c ∈ (w.foldl hstep (o, h)).1, IsScalar c) → (encs o).length ≤ e →
    e ≤ buf.length →
    ((encs (w.foldl hstep (o, h)).1).length ≤ e → Returns (deliver r h out (splice buf 0 (encs o)) (encs o).length (some e))
      (r', (w.foldl hstep (o, h)).2, some (x, (encs (w.foldl hstep (o, h)).1).length), splice buf 0 (encs (w.foldl hstep (o, h)).1))) ∧
    (e < (encs (w.foldl hstep (o, h)).1).length → ∃ r'' h'' buf', Returns (deliver r h out (splice buf 0 (encs o)) (encs o).length (some e))
      (r'', h'', none, buf') ∧ Keeps buf 0 e none buf') := by
  have mono : ∀ (w : List Nat) (o : List Nat) (h : Hangul), ∃ v, (w.foldl hstep (o, h)).1 = o ++ v := by
    intro w
    induction w with
    | nil => intro o h; exact ⟨[], by simp⟩
    | cons c w ih =>
      intro o h
      rw [List.foldl_cons]
      cases hf : hangulFeed h c with
      | mk h' n =>
        cases n with
        | none => simp only [hstep, hf]; exact ih o h'
        | some n =>
          simp only [hstep, hf]
          obtain ⟨v, hv⟩ := ih (o ++ [n]) h'
          exact ⟨n :: v, by rw [hv]; simp⟩
  induction hr with
  | stop =>
    intro o h buf e hsc ho he
    simp only [List.foldl_nil]
    constructor
    · intro _; rw [deliver]; simp
    · intro h; omega
  | @next r c w x r' hr ih =>
    intro o h buf e hsc ho he
    rw [List.foldl_cons] at hsc ⊢
    rw [deliver]
    cases hf : hangulFeed h c with
    | mk h' n =>
      cases n with
      | none =>
        simp only [hstep, hf] at hsc ⊢
        exact ih hsc ho he
      | some n =>
        simp only [hstep, hf] at hsc ⊢
        obtain ⟨v, hv⟩ := mono w (o ++ [n]) h'
        have hn : IsScalar n := hsc n (by rw [hv]; simp)
        have hlen : (splice buf 0 (encs o)).length = buf.length := splice_length (by omega)
        by_cases hfit : (encs o).length + (enc n).length ≤ e
        · rw [liftC_bind ((encode_scalar hn ho (by omega)).1 hfit)]
          have h1 : (encs o).length + (enc n).length = (encs (o ++ [n])).length := by simp
          have h2 : splice (splice buf 0 (encs o)) (encs o).length (enc n) = splice buf 0 (encs (o ++ [n])) := by
            have := splice_splice (out := buf) (q := 0) (a := encs o) (b := enc n) (by omega)
            rw [Nat.zero_add] at this
            rw [this]; simp
          simp only [h1, h2]
          exact ih hsc (by omega) he
        · obtain ⟨buf', h1, h2⟩ := (encode_scalar (buf := splice buf 0 (encs o)) hn ho (by omega)).2 (show e < _ by omega)
          constructor
          · intro hle
            rw [hv] at hle
            simp at hle; omega
          · intro _
            rw [liftC_bind h1]
            refine ⟨_, _, buf', by simp only []; rw [returns_pure], ?_⟩
            have hk : Keeps buf 0 e none (splice buf 0 (encs o)) := splice_keeps (by omega) he (by simp)
            exact ⟨h2.length.trans hk.length, by simp, h2.after.trans hk.after, by simp⟩

/-! ### Scalar values -/

theorem hstep_scalar {o : List Nat} {h : Hangul} {c : Nat} (h1 : ∀ d ∈ hflat (o, h), IsScalar d) (hc : IsScalar c) :
    ∀ d ∈ hflat (hstep (o, h) c), IsScalar d := by
  cases h with
  | none =>
    rw [hstep_none]
    intro d hd
    simp only [hflat, Option.toList, List.append_nil, List.mem_append, List.mem_singleton] at h1 hd
    rcases hd with hd | rfl
    · exact h1 d hd
    · exact hc
  | some n =>
    simp only [hflat, Option.toList, List.mem_append, List.mem_singleton] at h1 ⊢
    rcases hstep_some o n c with ⟨p, hp, e⟩ | ⟨_, e⟩
    · rw [e]
      intro d hd
      rcases hd with hd | hd
      · exact h1 d (Or.inl hd)
      · simp only [List.mem_singleton] at hd
        subst hd
        have := hp.hangul.2.2
        simp only [IsHangul] at this
        left; omega
    · rw [e]
      intro d hd
      rcases hd with hd | hd
      · exact h1 d (by simpa using hd)
      · simp only [List.mem_singleton] at hd
        rw [hd]; exact hc

theorem hfold_scalar {l : List Nat} (h : ∀ c ∈ l, IsScalar c) : ∀ d ∈ hg l, IsScalar d := by
  induction l using List.reverseRecOn with
  | nil => simp [hg_nil]
  | append_singleton l c ih =>
    simp only [hg, hfold_snoc]
    exact hstep_scalar (ih fun d hd => h d (by simp [hd])) (h c (by simp))

theorem gstep_scalar {u : Ucd} (t : Table u) {g : G} (h : ∀ d ∈ gflat g, IsScalar d) {c : Nat} (hc : IsScalar c) :
    ∀ d ∈ gflat (gstep u g c), IsScalar d := by
  obtain ⟨e, cur⟩ := g
  cases cur with
  | none =>
    intro d hd
    have : d ∈ e ++ [c] := by
      simp only [gstep] at hd
      split at hd <;> simpa [gflat] using hd
    rcases List.mem_append.1 this with h1 | h1
    · exact h d h1
    · rw [List.mem_singleton.1 h1]; exact hc
  | some x =>
    obtain ⟨s, b⟩ := x
    intro d hd
    simp only [gstep] at hd
    split at hd
    · rename_i p hp
      split at hp
      · cases hp
      · simp only [gflat, List.mem_append, List.mem_cons] at hd h
        rcases hd with hd | rfl | hd
        · exact h d (Or.inl hd)
        · exact t.scalar _ _ _ hp
        · exact h d (Or.inr (Or.inr hd))
    · have : d ∈ (e ++ s :: b) ++ [c] := by
        split at hd <;> simpa [gflat] using hd
      rcases List.mem_append.1 this with h1 | h1
      · exact h d h1
      · rw [List.mem_singleton.1 h1]; exact hc

theorem grun_scalar {u : Ucd} (t : Table u) {l : List Nat} (hl : ∀ c ∈ l, IsScalar c) : ∀ {g : G}, (∀ d ∈ gflat g, IsScalar d) →
    ∀ d ∈ gflat (grun u g l), IsScalar d := by
  induction l with
  | nil => intro g h; exact h
  | cons c l ih => intro g h; exact ih (fun d hd => hl d (by simp [hd])) (gstep_scalar t h (hl c (by simp)))

/-! ### The loop -/

/-- At no point more than a hundred combining characters are held back. -/
def GOk (u : Ucd) (g : G) (cps : List Nat) : Prop := ∀ l m, cps = l ++ m → glen (grun u g l) ≤ 100

theorem gok_cons {u : Ucd} {g : G} {c : Nat} {cps : List Nat} (h : glen g ≤ 100) : GOk u g (c :: cps) ↔ glen (gstep u g c) ≤ 100 ∧ GOk u (gstep u g c) cps := by
  constructor
  · intro hk
    exact ⟨hk [c] cps rfl, fun l m hl => hk (c :: l) m (by rw [hl]; rfl)⟩
  · rintro ⟨_, h2⟩ l m hl
    cases l with
    | nil => exact h
    | cons d l =>
      simp only [List.cons_append, List.cons.injEq] at hl
      obtain ⟨rfl, hl⟩ := hl
      exact h2 l m hl

theorem grun_mono (u : Ucd) (l : List Nat) : ∀ g : G, ∃ w, (grun u g l).1 = g.1 ++ w := by
  induction l with
  | nil => intro g; exact ⟨[], by simp [grun]⟩
  | cons c l ih =>
    intro g
    obtain ⟨w, hw⟩ := ih (gstep u g c)
    have : ∃ w, (gstep u g c).1 = g.1 ++ w := by
      obtain ⟨e, cur⟩ := g
      cases cur with
      | none =>
        simp only [gstep]
        split
        · exact ⟨[c], rfl⟩
        · exact ⟨[], by simp⟩
      | some x =>
        obtain ⟨s, b⟩ := x
        simp only [gstep]
        split
        · exact ⟨[], by simp⟩
        · split
          · exact ⟨[], by simp⟩
          · exact ⟨s :: b, rfl⟩
    obtain ⟨v, hv⟩ := this
    exact ⟨v ++ w, by show (grun u (gstep u g c) l).1 = _; rw [hw, hv]; simp⟩

theorem recomposeLoop_nil (u : Ucd) {p : Pos} (h : Input p []) (r : Recomposer) (hs : Hangul) (buf : List UInt8) (q : Nat) (e : Option Nat) :
    recomposeLoop u p r hs buf q e = pure (.ok (r, hs, q), buf) := by
  rw [recomposeLoop]
  rcases input_nil h with h0 | ⟨h0, r, hr⟩
  · rw [if_pos h0]
  · rw [if_neg h0, hr]; simp

theorem recomposeLoop_bad (u : Ucd) {p : Pos} {t : List UInt8} (h : Input p t) (ht : t ≠ []) (hb : ∀ p cp r, Loose p cp → t ≠ p ++ r)
    (r : Recomposer) (hs : Hangul) (buf : List UInt8) (q : Nat) (e : Option Nat) :
    recomposeLoop u p r hs buf q e = pure (.error .eilseq, buf) := by
  obtain ⟨h0, ⟨c, s, hc, hc0⟩, h3⟩ := input_cons h ht
  rw [recomposeLoop, if_neg h0, hc]
  simp only [if_neg hc0]
  rcases h3 with ⟨hd, _⟩ | ⟨pre, t', cp, q, hd, hl, he, _⟩
  · rw [liftC_bind hd]
  · exact absurd he (hb _ _ _ hl)

theorem recomposeLoop_cons (u : Ucd) {p : Pos} {pre t : List UInt8} {cp : Nat} (h : Input p (pre ++ t)) (hl : Loose pre cp)
    (r : Recomposer) (hs : Hangul) (buf : List UInt8) (q : Nat) (e : Option Nat) : ∃ p', Input p' t ∧ recomposeLoop u p r hs buf q e = (do
      let (r, out) ← liftC (feed u r cp)
      match ← deliver r hs out buf q e with
      | (_, _, none, buf) => pure (.error .eoverflow, buf)
      | (r, h, some (errno, q), buf) =>
        if errno ≠ .eagain then pure (.error errno, buf)
        else recomposeLoop u p' r h buf q e) := by
  obtain ⟨h0, ⟨c, s, hc, hc0⟩, h3⟩ := input_cons h (by intro h; exact loose_ne_nil hl (List.append_eq_nil_iff.1 h).1)
  rcases h3 with ⟨_, hd⟩ | ⟨pre', t', cp', q', hd, hl', he, hq⟩
  · exact absurd rfl (hd _ _ _ hl)
  · obtain ⟨rfl, rfl, rfl⟩ := loose_unique hl hl' he
    refine ⟨q', hq, ?_⟩
    rw [recomposeLoop, if_neg h0, hc]
    simp only [if_neg hc0]
    rw [liftC_bind hd]
    rfl

theorem recomposeLoop_spec {u : Ucd} (tb : Table u) {t : List UInt8} {cps : List Nat} {b : Bool} (hs : Scan Loose t cps b) :
    ∀ {p : Pos} {g : G} {r : Recomposer} {buf : List UInt8} {e : Nat}, Input p t → Rel r g.2 → glen g ≤ 100 → (∀ d ∈ gflat g, IsScalar d) →
    (encs (hfold g.1).1).length ≤ e → e ≤ buf.length →
    ∃ x buf', Returns (recomposeLoop u p r (hfold g.1).2 (splice buf 0 (encs (hfold g.1).1)) (encs (hfold g.1).1).length (some e)) (x, buf') ∧
      ((∃ r', x = .ok (r', (hfold (grun u g cps).1).2, (encs (hfold (grun u g cps).1).1).length) ∧ Rel r' (grun u g cps).2 ∧ b = true ∧
          GOk u g cps ∧ (encs (hfold (grun u g cps).1).1).length ≤ e ∧ buf' = splice buf 0 (encs (hfold (grun u g cps).1).1)) ∨
        Keeps buf 0 e none buf' ∧ (x = .error .eilseq ∧ b = false ∨ x = .error .enobufs ∧ ¬ GOk u g cps ∨
          x = .error .eoverflow ∧ e < (encs (hfold (grun u g cps).1).1).length)) := by
  have sc := scan_scalar hs
  induction hs with
  | nil =>
    intro p g r buf e hp hr hk hsc ho he
    rw [recomposeLoop_nil u hp]
    refine ⟨_, _, (returns_pure _ _).2 rfl, Or.inl ⟨r, rfl, hr, rfl, ?_, ho, rfl⟩⟩
    intro l m hl
    have : l = [] := (List.append_eq_nil_iff.1 hl.symm).1
    subst this
    exact hk
  | bad h1 h2 =>
    intro p g r buf e hp hr hk hsc ho he
    rw [recomposeLoop_bad u hp h1 h2]
    exact ⟨_, _, by rw [returns_pure], Or.inr ⟨splice_keeps (by omega) he (by simp), Or.inl ⟨rfl, rfl⟩⟩⟩
  | @cons pre cp rest cps b hl hs ih =>
    intro p g r buf e hp hr hk hsc ho he
    obtain ⟨p', hp', heq⟩ := recomposeLoop_cons u hp hl r (hfold g.1).2 (splice buf 0 (encs (hfold g.1).1)) (encs (hfold g.1).1).length (some e)
    rw [heq]
    obtain ⟨r', out, hf, hcase⟩ := feed_spec u hr hk cp
    rw [liftC_bind hf]
    simp only []
    have hkb : Keeps buf 0 e none (splice buf 0 (encs (hfold g.1).1)) := splice_keeps (by omega) he (by simp)
    rcases hcase with ⟨h100, rfl⟩ | ⟨h100, w, r'', hw, hreads, hrel⟩
    · rw [deliver]
      refine ⟨.error .enobufs, _, by rw [returns_bind ((returns_pure _ _).2 rfl)]; simp, Or.inr ⟨hkb, Or.inr (Or.inl ⟨rfl, ?_⟩)⟩⟩
      rw [gok_cons hk]
      rintro ⟨h, _⟩; omega
    · have hsc' := gstep_scalar tb hsc (sc cp (by simp))
      have hw' : w.foldl hstep (hfold g.1) = hfold (gstep u g cp).1 := by rw [hw]; simp [Unicode.hfold]
      have hscw : ∀ c ∈ (w.foldl hstep ((hfold g.1).1, (hfold g.1).2)).1, IsScalar c := by
        intro c hc
        rw [hw'] at hc
        have h1 : ∀ d ∈ (gstep u g cp).1, IsScalar d := by
          intro d hd
          apply hsc' d
          clear * - hd
          revert hd
          obtain ⟨e', cur⟩ := gstep u g cp
          intro hd
          cases cur with
          | none => exact hd
          | some x => simp only [gflat]; exact List.mem_append_left _ hd
        exact hfold_scalar h1 c (List.mem_append_left _ hc)
      have hd := deliver_spec hreads (o := (Unicode.hfold g.1).1) (h := (Unicode.hfold g.1).2) (buf := buf) (e := e) hscw ho he
      rw [hw'] at hd
      by_cases hfit : (encs (Unicode.hfold (gstep u g cp).1).1).length ≤ e
      · rw [returns_bind (hd.1 hfit)]
        simp only [ne_eq, not_true_eq_false, if_false]
        obtain ⟨x, buf', h1, h2⟩ := ih (fun c hc => sc c (by simp [hc])) (g := gstep u g cp) (r := r'') (buf := buf) (e := e) hp' hrel h100 hsc' hfit he
        refine ⟨x, buf', h1, ?_⟩
        rw [gok_cons hk]
        rcases h2 with ⟨r3, h3, h4, h5, h6, h7, h8⟩ | ⟨h3, h4⟩
        · exact Or.inl ⟨r3, h3, h4, h5, ⟨h100, h6⟩, h7, h8⟩
        · refine Or.inr ⟨h3, ?_⟩
          rcases h4 with h4 | ⟨h4, h5⟩ | h4
          · exact Or.inl h4
          · exact Or.inr (Or.inl ⟨h4, fun h => h5 h.2⟩)
          · exact Or.inr (Or.inr h4)
      · obtain ⟨r3, h3, buf', h4, h5⟩ := hd.2 (by omega)
        rw [returns_bind h4]
        refine ⟨.error .eoverflow, buf', by simp, Or.inr ⟨h5, Or.inr (Or.inr ⟨rfl, ?_⟩)⟩⟩
        obtain ⟨v, hv⟩ := grun_mono u cps (gstep u g cp)
        show e < (encs (Unicode.hfold (grun u (gstep u g cp) cps).1).1).length
        rw [hv]
        obtain ⟨v', hv'⟩ := hfold_mono (gstep u g cp).1 v
        rw [hv']
        simp; omega

/-! ### The whole call -/

theorem terminate_spec {r : Recomposer} {g : G} (h : Rel r g.2) : ∃ r' out w r'', terminate r = .ok (r', out) ∧
    gflat g = g.1 ++ w ∧ Reads r' out w .enodata r'' := by
  obtain ⟨e, cur⟩ := g
  cases cur with
  | none =>
    have hst : r.state = .init := h
    simp only [terminate, hst]
    exact ⟨_, _, [], _, rfl, by simp [gflat], .stop⟩
  | some x =>
    obtain ⟨s, b⟩ := x
    obtain ⟨hst, rfl, rfl⟩ := h
    simp only [terminate, hst]
    refine ⟨_, _, r.starter :: r.ccs, { r with state := .terminated, rd := r.ccs.length }, rfl, rfl, .next ?_⟩
    exact reads_terminated (r := { r with state := .deliveringTerminated, rd := 0 }) rfl (Nat.zero_le _)

theorem splice_nul {buf bs : List UInt8} {e : Nat} (h : bs.length < e) (he : e ≤ buf.length) :
    (splice buf 0 bs).set bs.length 0 = bs ++ 0 :: buf.drop (bs.length + 1) := by
  rw [splice_zero, List.set_append_right _ _ (Nat.le_refl _), Nat.sub_self]
  congr 1
  cases hdr : buf.drop bs.length with
  | nil => have := congrArg List.length hdr; simp at this; omega
  | cons c r =>
    rw [List.set_cons_zero]
    congr 1
    have := congrArg List.tail hdr
    simpa using this.symm

theorem recomposeEnd_spec {g : G} {r : Recomposer} {buf : List UInt8} {e : Nat} (hr : Rel r g.2) (hsc : ∀ d ∈ gflat g, IsScalar d)
    (ho : (encs (hfold g.1).1).length ≤ e) (he : e ≤ buf.length) :
    ((encs (hg (gflat g))).length < e → Returns (recomposeEnd r (hfold g.1).2 (splice buf 0 (encs (hfold g.1).1)) (encs (hfold g.1).1).length (some e))
      (.ptr (encs (hg (gflat g))).length, encs (hg (gflat g)) ++ 0 :: buf.drop ((encs (hg (gflat g))).length + 1))) ∧
    (e ≤ (encs (hg (gflat g))).length → ∃ buf', Returns (recomposeEnd r (hfold g.1).2 (splice buf 0 (encs (hfold g.1).1)) (encs (hfold g.1).1).length (some e))
      (.null .eoverflow, buf') ∧ Keeps buf 0 e none buf') := by
  obtain ⟨r', out, w, r'', ht, hw, hreads⟩ := terminate_spec hr
  have hw' : w.foldl hstep (hfold g.1) = hfold (gflat g) := by rw [hw]; simp [Unicode.hfold]
  have hall := hfold_scalar hsc
  have hd := deliver_spec hreads (o := (Unicode.hfold g.1).1) (h := (Unicode.hfold g.1).2) (buf := buf) (e := e)
    (by intro c hc; rw [hw'] at hc; exact hall c (List.mem_append_left _ hc)) ho he
  rw [hw'] at hd
  rw [recomposeEnd, liftC_bind ht]
  simp only []
  rcases hx : Unicode.hfold (gflat g) with ⟨o, h⟩
  rw [hx] at hd
  simp only at hd
  have hgl : hg (gflat g) = o ++ h.toList := by simp only [hg, hx, hflat]
  rw [hgl] at hall ⊢
  by_cases hfit : (encs o).length ≤ e
  · rw [returns_bind (hd.1 hfit)]
    simp only [ne_eq, not_true_eq_false, if_false]
    have hko : Keeps buf 0 e none (splice buf 0 (encs o)) := splice_keeps (by omega) he (by simp)
    have fin : ∀ bs : List UInt8, bs.length ≤ e → (bs.length < e → Returns (if (some e : Option Nat) = some bs.length then
          pure (.null .eoverflow, splice buf 0 bs) else do
          let buf ← liftC (wr (splice buf 0 bs) bs.length 0)
          pure (.ptr bs.length, buf) : D (Res × List UInt8)) (.ptr bs.length, bs ++ 0 :: buf.drop (bs.length + 1))) ∧
        (e ≤ bs.length → ∃ buf', Returns (if (some e : Option Nat) = some bs.length then
          pure (.null .eoverflow, splice buf 0 bs) else do
          let buf ← liftC (wr (splice buf 0 bs) bs.length 0)
          pure (.ptr bs.length, buf) : D (Res × List UInt8)) (.null .eoverflow, buf') ∧ Keeps buf 0 e none buf') := by
      intro bs hbs
      have hlen : (splice buf 0 bs).length = buf.length := splice_length (by omega)
      constructor
      · intro h
        rw [if_neg (by simp only [Option.some.injEq]; omega), liftC_bind (wr_ok (by omega) _), splice_nul h he]
        simp
      · intro h
        rw [if_pos (by simp only [Option.some.injEq]; omega)]
        exact ⟨_, by rw [returns_pure], splice_keeps (by omega) he (by simp)⟩
    cases h with
    | none =>
      simp only [Option.toList, List.append_nil]
      rw [liftC_bind rfl]
      exact fin (encs o) hfit
    | some n =>
      simp only [Option.toList]
      have hn : IsScalar n := hall n (by simp)
      have hlen : (splice buf 0 (encs o)).length = buf.length := hko.length
      by_cases hfn : (encs o).length + (enc n).length ≤ e
      · rw [liftC_bind ((encode_scalar hn hfit (by omega)).1 hfn)]
        have h1 : (encs o).length + (enc n).length = (encs (o ++ [n])).length := by simp
        have h2 : splice (splice buf 0 (encs o)) (encs o).length (enc n) = splice buf 0 (encs (o ++ [n])) := by
          have := splice_splice (out := buf) (q := 0) (a := encs o) (b := enc n) (by omega)
          rw [Nat.zero_add] at this
          rw [this]; simp
        simp only [h1, h2]
        exact fin _ (by omega)
      · obtain ⟨buf', h1, h2⟩ := (encode_scalar (buf := splice buf 0 (encs o)) hn hfit (by omega)).2 (show e < _ by omega)
        rw [liftC_bind h1]
        constructor
        · intro h; simp at h; omega
        · intro _
          exact ⟨buf', by simp, h2.length.trans hko.length, by simp, h2.after.trans hko.after, by simp⟩
  · obtain ⟨r3, h3, buf', h4, h5⟩ := hd.2 (by omega)
    rw [returns_bind h4]
    constructor
    · intro h; simp at h; omega
    · intro _
      exact ⟨buf', by simp, h5⟩

/-- All that can happen. -/
theorem recompose_spec {u : Ucd} (tb : Table u) {t : List UInt8} {cps : List Nat} {b : Bool} (hs : Scan Loose t cps b) {p : Pos}
    {buf : List UInt8} {e : Nat} (hp : Input p t) (he : e ≤ buf.length) :
    ∃ x buf', Returns (recompose u p buf (some e)) (x, buf') ∧
      (x = .ptr (encs (comp u cps)).length ∧ b = true ∧ GOk u ([], none) cps ∧ (encs (comp u cps)).length < e ∧
        buf' = encs (comp u cps) ++ 0 :: buf.drop ((encs (comp u cps)).length + 1) ∨
      buf'.length = buf.length ∧ buf'.drop e = buf.drop e ∧ (x = .null .eilseq ∧ b = false ∨ x = .null .enobufs ∧ ¬ GOk u ([], none) cps ∨
        x = .null .eoverflow ∧ e ≤ (encs (comp u cps)).length)) := by
  obtain ⟨x, buf', h1, h2⟩ := recomposeLoop_spec tb hs (p := p) (g := ([], none)) (r := Recomposer.new) (buf := buf) (e := e) hp rfl
    (by simp [glen]) (by simp [gflat]) (by simp [hfold]) he
  have h0 : hfold ([] : List Nat) = ([], none) := rfl
  simp only [h0, encs_nil, splice_nil, List.length_nil] at h1
  have hsc : ∀ d ∈ gflat (grun u ([], none) cps), IsScalar d := grun_scalar tb (scan_scalar hs) (by simp [gflat])
  have hle : (encs (hfold (grun u ([], none) cps).1).1).length ≤ (encs (comp u cps)).length := by
    have : ∃ w, gflat (grun u ([], none) cps) = (grun u ([], none) cps).1 ++ w := by
      rcases grun u ([], none) cps with ⟨e, cur⟩
      cases cur with
      | none => exact ⟨[], by simp [gflat]⟩
      | some x => exact ⟨x.1 :: x.2, rfl⟩
    obtain ⟨w, hw⟩ := this
    obtain ⟨v, hv⟩ := hfold_mono (grun u ([], none) cps).1 w
    simp only [comp, hg, hflat, hw, hv]
    simp
  rw [recompose, returns_bind h1]
  rcases h2 with ⟨r', rfl, h3, h4, h5, h6, rfl⟩ | ⟨h3, h4⟩
  · simp only []
    have h7 := recomposeEnd_spec (buf := buf) h3 hsc h6 he
    by_cases hf : (encs (comp u cps)).length < e
    · exact ⟨_, _, h7.1 hf, Or.inl ⟨rfl, h4, h5, hf, rfl⟩⟩
    · obtain ⟨buf', h8, h9⟩ := h7.2 (Nat.le_of_not_lt hf)
      exact ⟨_, _, h8, Or.inr ⟨h9.length, h9.after, Or.inr (Or.inr ⟨rfl, by omega⟩)⟩⟩
  · have hkeep := And.intro h3.length h3.after
    rcases h4 with ⟨rfl, h4⟩ | ⟨rfl, h4⟩ | ⟨rfl, h4⟩
    · exact ⟨_, _, by simp only []; rw [returns_pure], Or.inr ⟨hkeep.1, hkeep.2, Or.inl ⟨rfl, h4⟩⟩⟩
    · exact ⟨_, _, by simp only []; rw [returns_pure], Or.inr ⟨hkeep.1, hkeep.2, Or.inr (Or.inl ⟨rfl, h4⟩)⟩⟩
    · exact ⟨_, _, by simp only []; rw [returns_pure], Or.inr ⟨hkeep.1, hkeep.2, Or.inr (Or.inr ⟨rfl, by omega⟩)⟩⟩

end Verif.Unicode
