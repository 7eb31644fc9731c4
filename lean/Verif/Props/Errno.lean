import Verif.Model.Errno
import Verif.Props.ByteArray
import Verif.Props.Url

/-! Property C110: what the calls leave in `errno`. -/

set_option autoImplicit false

namespace Verif.Err
open Verif.BA

/-- The outcome of a computation given the outcome of the one without `errno` and the value that `errno` gets. -/
def Leaves {α : Type} (f : E α) (plain : C α) (e : Int) (errno : α → Int) : Prop :=
  f e = match plain with
    | .error x => .error x
    | .ok a => .ok (a, errno a)

theorem copyTail_true {a a' : BA} {pos : Nat} {bs : List UInt8} {r : Bool} (h : copyTail a pos bs = .ok (r, a')) : r = true := by
  simp only [copyTail] at h
  split at h
  · cases h
  · split at h
    · split at h
      · cases h
      · cases h; rfl
    · cases h; rfl

theorem resizeTail_true {a a' : BA} {n : Nat} {r : Bool} (h : resizeTail a n = .ok (r, a')) : r = true := by
  simp only [resizeTail] at h
  split at h
  · cases h
  · cases h; rfl

theorem quiet_true {c : C (Bool × BA)} {e x : Int} (h : ∀ r a', c = .ok (r, a') → r = true) (P : Prop) [Decidable P] :
    Leaves (quiet c) c e fun r => if r.1 = false ∧ P then x else e := by
  simp only [Leaves, quiet]
  cases c with
  | error x => rfl
  | ok r => simp [h r.1 r.2 rfl]

theorem ensureSpace_leaves (j : Junk) (a : BA) (len : Nat) (e : Int) :
    Leaves (ensureSpace j a len) (.ok (BA.ensureSpace j a len)) e fun r => if r = none then ENOSPC else e := by
  simp only [Leaves, ensureSpace, BA.ensureSpace]
  split
  · rfl
  · split <;> rfl

theorem copy_leaves (j : Junk) (a : BA) (pos : Nat) (bs : List UInt8) (e : Int) :
    Leaves (copy j a pos bs) (BA.copy j a pos bs) e fun r => if r.1 = false ∧ pos ≤ a.cursor then ENOSPC else e := by
  simp only [copy, BA.copy]
  by_cases h1 : pos > a.cursor
  · rw [if_pos h1, if_pos h1]
    have : ¬ pos ≤ a.cursor := by omega
    simp only [Leaves, this, and_false, if_false]; rfl
  · rw [if_neg h1, if_neg h1]
    split
    · have hs := ensureSpace_leaves j a (sub64 (add64 pos bs.length) a.cursor) e
      simp only [Leaves] at hs
      cases hr : BA.ensureSpace j a (sub64 (add64 pos bs.length) a.cursor) with
      | none =>
        rw [hr] at hs
        simp only [Leaves, bind, StateT.bind, hs, Except.bind]
        have : pos ≤ a.cursor := by omega
        simp [this, pure, StateT.pure, Except.pure]
      | some a' =>
        rw [hr] at hs
        have := quiet_true (c := copyTail a' pos bs) (e := e) (x := ENOSPC) (fun _ _ => copyTail_true) (pos ≤ a.cursor)
        simp only [Leaves] at this
        simp only [Leaves, bind, StateT.bind, hs, Except.bind]
        simpa using this
    · exact quiet_true (fun _ _ => copyTail_true) _

theorem append_leaves (j : Junk) (a : BA) (bs : List UInt8) (e : Int) :
    Leaves (append j a bs) (BA.append j a bs) e fun r => if r.1 = false then ENOSPC else e := by
  simp only [append, BA.append]
  have hs := ensureSpace_leaves j a bs.length e
  simp only [Leaves] at hs
  cases hr : BA.ensureSpace j a bs.length with
  | none =>
    rw [hr] at hs
    simp [Leaves, bind, StateT.bind, hs, Except.bind, pure, StateT.pure, Except.pure]
  | some a' =>
    rw [hr] at hs
    simp only [Leaves, bind, StateT.bind, hs, Except.bind, quiet]
    cases memmove a'.data a'.cursor bs with
    | error x => rfl
    | ok d =>
      dsimp only
      cases terminate { a' with data := d, cursor := add64 a'.cursor bs.length } with
      | error x => rfl
      | ok a'' => rfl

theorem streamTail_leaves (j : Junk) (a : BA) (cb : ReadCb) (cbErr : Nat → Int → Int) (len : Nat) (e : Int) :
    Leaves (streamTail j a cb cbErr len) (BA.streamTail j a cb len) e fun _ =>
      if len ≥ sub64 a.maxSize a.cursor then ENOSPC else cbErr len e := by
  simp only [streamTail, BA.streamTail]
  have hs := ensureSpace_leaves j a len e
  simp only [Leaves] at hs
  have hn : BA.ensureSpace j a len = none ↔ len ≥ sub64 a.maxSize a.cursor := by
    simp only [BA.ensureSpace]
    split
    · rename_i h; exact ⟨fun _ => h, fun _ => rfl⟩
    · rename_i h
      split <;> exact ⟨fun h' => (Option.some_ne_none _ h').elim, fun h' => absurd h' h⟩
  cases hr : BA.ensureSpace j a len with
  | none =>
    rw [hr] at hs
    simp only [Leaves, bind, StateT.bind, hs, Except.bind, if_pos (hn.1 hr)]
    rfl
  | some a' =>
    rw [hr] at hs
    have h2 : ¬ len ≥ sub64 a.maxSize a.cursor := fun h => by rw [hn.2 h] at hr; cases hr
    simp only [Leaves, bind, StateT.bind, hs, Except.bind, quiet, if_neg h2]
    cases memmove a'.data a'.cursor (cb len).1 with
    | error x => rfl
    | ok d =>
      simp only [modify, modifyGet, MonadStateOf.modifyGet, StateT.modifyGet, pure, Except.pure]
      split
      · cases terminate { a' with data := d, cursor := add64 a'.cursor (cb len).2.toNat } with
        | error x => rfl
        | ok a'' => rfl
      · rfl

theorem appendStream_leaves (j : Junk) (a : BA) (h : Inv a) (cb : ReadCb) (cbErr : Nat → Int → Int) (len : Nat) (e : Int) :
    Leaves (appendStream j a cb cbErr len) (BA.appendStream j a cb len) e fun _ =>
      if 0 < len ∧ a.cursor + 1 = a.maxSize then ENOSPC else cbErr (min len (a.maxSize - 1 - a.cursor)) e := by
  have g3 := h.max64; have g5 := h.curMax
  simp only [appendStream, BA.appendStream]
  rw [sub64_eq (by omega) g3]
  by_cases h1 : len ≥ a.maxSize - a.cursor
  · rw [if_pos h1, if_pos h1]
    by_cases h2 : a.maxSize - a.cursor = 1
    · rw [if_pos h2, if_pos h2]
      have : 0 < len ∧ a.cursor + 1 = a.maxSize := by omega
      simp only [Leaves, if_pos this]; rfl
    · rw [if_neg h2, if_neg h2, sub64_eq (by omega) (by omega)]
      have := streamTail_leaves j a cb cbErr (a.maxSize - a.cursor - 1) e
      rw [sub64_eq (by omega) g3, if_neg (by omega)] at this
      rw [if_neg (by omega), show min len (a.maxSize - 1 - a.cursor) = a.maxSize - a.cursor - 1 by omega]
      exact this
  · rw [if_neg h1, if_neg h1]
    have := streamTail_leaves j a cb cbErr len e
    rw [sub64_eq (by omega) g3, if_neg (by omega)] at this
    rw [if_neg (by omega), show min len (a.maxSize - 1 - a.cursor) = len by omega]
    exact this

theorem resize_leaves (j : Junk) (a : BA) (n : Nat) (c : UInt8) (e : Int) :
    Leaves (resize j a n c) (BA.resize j a n c) e fun r => if r.1 = false then ENOSPC else e := by
  simp only [resize, BA.resize]
  split
  · have hs := ensureSpace_leaves j a (sub64 n a.cursor) e
    simp only [Leaves] at hs
    cases hr : BA.ensureSpace j a (sub64 n a.cursor) with
    | none =>
      rw [hr] at hs
      simp [Leaves, bind, StateT.bind, hs, Except.bind, pure, StateT.pure, Except.pure]
    | some a' =>
      rw [hr] at hs
      simp only [Leaves, bind, StateT.bind, hs, Except.bind]
      cases hm : memmove a'.data a'.cursor (List.replicate (sub64 n a'.cursor) c) with
      | error x => rfl
      | ok d =>
        have := quiet_true (c := resizeTail { a' with data := d } n) (e := e) (x := ENOSPC) (fun _ _ => resizeTail_true) True
        simp only [Leaves, and_true] at this
        simpa [quiet] using this
  · have := quiet_true (c := resizeTail a n) (e := e) (x := ENOSPC) (fun _ _ => resizeTail_true) True
    simpa using this

/-- Run a call with `errno`; `cbErr` is what a stream's callback makes of it. -/
def runE (cbErr : Nat → Int → Int) (a : BA) : Op → E (Res × BA)
  | .copy j pos bs => do let r ← copy j a pos bs; pure (.bool r.1, r.2)
  | .copyString j pos s t => do let r ← copyString j a pos (s ++ 0 :: t); pure (.bool r.1, r.2)
  | .append j bs => do let r ← append j a bs; pure (.bool r.1, r.2)
  | .appendString j s t => do let r ← appendString j a (s ++ 0 :: t); pure (.bool r.1, r.2)
  | .stream j cb len => do let r ← appendStream j a cb cbErr len; pure (.int r.1, r.2)
  | .resize j n c => do let r ← resize j a n c; pure (.bool r.1, r.2)
  | .clear => do let r ← quiet (BA.clear a); pure (.unit, r)

/-- What `errno` is after a call on an array that holds `n` bytes and has room for `max - 1`: `ENOSPC` if the result would have more than `max - 1`
bytes, or a stream is asked for something when there is no room at all; otherwise what the callback makes of it, or what it was. -/
def errnoAfter (cbErr : Nat → Int → Int) (max n : Nat) (e : Int) : Op → Int
  | .copy _ pos bs => if pos ≤ n ∧ max ≤ pos + bs.length then ENOSPC else e
  | .copyString _ pos s _ => if pos ≤ n ∧ max ≤ pos + s.length then ENOSPC else e
  | .append _ bs => if max ≤ n + bs.length then ENOSPC else e
  | .appendString _ s _ => if max ≤ n + s.length then ENOSPC else e
  | .stream _ _ len => if 0 < len ∧ n + 1 = max then ENOSPC else cbErr (min len (max - 1 - n)) e
  | .resize _ k _ => if max ≤ k then ENOSPC else e
  | .clear => e

theorem leaves_bind {α β : Type} {f : E α} {c : C α} {e : Int} {g : α → Int} (h : Leaves f c e g) (k : α → β) {a : β}
    (hc : c.map k = .ok a) : ∃ x, c = .ok x ∧ k x = a ∧ (do let r ← f; pure (k r) : E β) e = .ok (a, g x) := by
  cases c with
  | error x => cases hc
  | ok x =>
    refine ⟨x, rfl, ?_, ?_⟩
    · simpa [Except.map] using hc
    · have : f e = .ok (x, g x) := h
      have hk : k x = a := by simpa [Except.map] using hc
      simp only [bind, StateT.bind, this, Except.bind, pure, StateT.pure, Except.pure, hk]

/-- C110, byte arrays: after any history of calls, the next call returns and stores what it does in the model without `errno`, and leaves in `errno`
what `errnoAfter` says, a function of the number of bytes, the limit and the arguments. -/
theorem byte_array_errno (junk : Junk) (max : Nat) (h0 : 0 < max) (h64 : max < 2 ^ 64) (ops : List Op) (hops : ∀ op ∈ ops, op.Ok)
    (op : Op) (hop : op.Ok) (cbErr : Nat → Int → Int) (e : Int) :
    ∃ a b a', make junk max = .ok a ∧ runAll a ops = .ok ((specAll max [] ops).1, b) ∧
      runE cbErr b op e = .ok (((op.spec max (specAll max [] ops).2).1, a'), errnoAfter cbErr max (view b).2 e op) ∧
      Shows a' max (op.spec max (specAll max [] ops).2).2 := by
  obtain ⟨a, e1, hi, hc, hm⟩ := make_spec junk max h0 h64
  obtain ⟨b, e2, i2, c2, m2⟩ := run_spec ops hi hops
  rw [hc, hm] at e2 c2
  obtain ⟨a', e3, i3, c3, m3⟩ := op_spec i2 op hop
  have hmax : b.maxSize = max := by rw [m2, hm]
  refine ⟨a, b, a', e1, e2, ?_, ?_⟩
  · rw [c2, hmax] at e3
    have hl := contents_length i2
    rw [c2] at hl
    have hcur : (view b).2 = b.cursor := rfl
    rw [hcur]
    have hroom := i2.curMax
    rw [hmax] at hroom
    have key : ∀ {f : E (Bool × BA)} {c : C (Bool × BA)} {P : Prop} [Decidable P] {r : Bool × List UInt8} {E' : Int},
        Leaves f c e (fun x => if x.1 = false ∧ P then ENOSPC else e) → (c.map fun x => ((.bool x.1 : Res), x.2)) = .ok (.bool r.1, a') →
        E' = (if r.1 = false ∧ P then ENOSPC else e) →
        (do let x ← f; pure ((.bool x.1 : Res), x.2) : E (Res × BA)) e = .ok ((.bool r.1, a'), E') := by
      intro f c P _ r E' hf hc hE
      obtain ⟨x, hx, hk, h⟩ := leaves_bind hf _ hc
      have h1 : x.1 = r.1 := by
        have := congrArg Prod.fst hk
        simpa using this
      rw [h1] at h
      rw [hE]; exact h
    have strip : ∀ (s t : List UInt8), 0 ∉ s → ∀ {β : Type} (k : List UInt8 → E β),
        (do let n ← quiet (strlen (s ++ 0 :: t)); k ((s ++ 0 :: t).take n) : E β) e = k s e := by
      intro s t hs β k
      rw [strlen_spec s t hs]
      simp [bind, StateT.bind, Except.bind, quiet]
    have copyE : ∀ (j : Junk) (pos : Nat) (bs : List UInt8), (if pos ≤ b.cursor ∧ max ≤ pos + bs.length then ENOSPC else e) =
        if (Verif.Spec.ByteArray.copy max (specAll max [] ops).2 pos bs).1 = false ∧ pos ≤ b.cursor then ENOSPC else e := by
      intro j pos bs
      simp only [Verif.Spec.ByteArray.copy, hl]
      by_cases h1 : pos ≤ b.cursor
      · by_cases h2 : pos + bs.length < max
        · simp [h1, h2]
        · have : max ≤ pos + bs.length := by omega
          simp [h1, h2, this]
      · simp [h1]
    have appE : ∀ (bs : List UInt8), (if max ≤ b.cursor + bs.length then ENOSPC else e) =
        if (Verif.Spec.ByteArray.append max (specAll max [] ops).2 bs).1 = false ∧ True then ENOSPC else e := by
      intro bs
      simp only [Verif.Spec.ByteArray.append, hl]
      by_cases h2 : b.cursor + bs.length < max
      · simp [h2]
      · have : max ≤ b.cursor + bs.length := by omega
        simp [h2, this]
    cases op with
    | copy j pos bs => exact key (copy_leaves j b pos bs e) e3 (copyE j pos bs)
    | copyString j pos s t =>
      simp only [Op.run, BA.copyString, strlen_spec s t hop.2, List.take_left] at e3
      have := key (copy_leaves j b pos s e) e3 (copyE j pos s)
      refine Eq.trans ?_ this
      simp only [runE, copyString, bind_assoc]
      exact strip s t hop.2 fun x => do let r ← copy j b pos x; pure (Res.bool r.1, r.2)
    | append j bs => exact key (P := True) (by simpa using append_leaves j b bs e) e3 (appE bs)
    | appendString j s t =>
      simp only [Op.run, BA.appendString, strlen_spec s t hop, List.take_left] at e3
      have := key (P := True) (by simpa using append_leaves j b s e) e3 (appE s)
      refine Eq.trans ?_ this
      simp only [runE, appendString, bind_assoc]
      exact strip s t hop fun x => do let r ← append j b x; pure (Res.bool r.1, r.2)
    | stream j cb len =>
      obtain ⟨x, hx, hk, h⟩ := leaves_bind (appendStream_leaves j b i2 cb cbErr len e) _ e3
      rw [hmax] at h
      exact h
    | resize j n c =>
      refine key (P := True) (by simpa using resize_leaves j b n c e) e3 ?_
      simp only [errnoAfter, Verif.Spec.ByteArray.resize, hl]
      by_cases h1 : n ≤ b.cursor
      · simp [h1]; omega
      · by_cases h2 : n < max
        · simp [h1, h2]
        · simp [h1, h2]; try omega
    | clear =>
      obtain ⟨x, hx, hk, h⟩ := leaves_bind (f := quiet (BA.clear b)) (c := BA.clear b) (g := fun _ => e) (by
        simp only [Leaves, quiet]; cases BA.clear b <;> rfl) _ e3
      exact h
  · have := shows_of_inv i3
    rwa [c3, c2, m3, hmax] at this

/-- An array of limit 4 with three bytes has no room for a fourth: `ENOSPC` from three calls; copying past the end is refused without a word. -/
example : ∃ a b, make (fun _ => 7) 4 = .ok a ∧ append (fun _ => 7) a [1, 2, 3] 5 = .ok ((true, b), 5) ∧
    (append (fun _ => 7) b [4] 5).map Prod.snd = .ok ENOSPC ∧ (resize (fun _ => 7) b 4 0 5).map Prod.snd = .ok ENOSPC ∧
    (appendStream (fun _ => 7) b (fun _ => ([], 0)) (fun _ _ => 9) 1 5).map Prod.snd = .ok ENOSPC ∧
    (appendStream (fun _ => 7) b (fun _ => ([], 0)) (fun _ _ => 9) 0 5).map Prod.snd = .ok 9 ∧
    copy (fun _ => 7) b 4 [] 5 = .ok ((false, b), 5) := by
  refine ⟨_, _, rfl, rfl, ?_⟩
  decide +kernel

/-- C110, byte arrays: a call that answers `false` has set `errno` to `ENOSPC`, with one exception, copying past the end, which leaves `errno`
alone; a call that answers `true` has left it alone. -/
theorem byte_array_refusal_errno (junk : Junk) (max : Nat) (h0 : 0 < max) (h64 : max < 2 ^ 64) (ops : List Op) (hops : ∀ op ∈ ops, op.Ok)
    (op : Op) (hop : op.Ok) (cbErr : Nat → Int → Int) (e e' : Int) (a b a' : BA) (rs : List Res) (ok : Bool)
    (hm : make junk max = .ok a) (hr : runAll a ops = .ok (rs, b)) (h : runE cbErr b op e = .ok ((.bool ok, a'), e')) :
    (ok = true → e' = e) ∧
    (ok = false → e' = ENOSPC ∨ e' = e ∧ ((∃ j pos bs, op = .copy j pos bs ∧ (view b).2 < pos) ∨
      ∃ j pos s t, op = .copyString j pos s t ∧ (view b).2 < pos)) := by
  obtain ⟨a1, b1, a1', m1, r1, h1, -⟩ := byte_array_errno junk max h0 h64 ops hops op hop cbErr e
  rw [hm] at m1; cases m1
  rw [hr] at r1; cases r1
  rw [h] at h1
  obtain ⟨a2, b2, m2, r2, sh⟩ := byte_array_refines junk max h0 h64 ops hops
  rw [hm] at m2; cases m2
  rw [hr] at r2; cases r2
  simp only [Except.ok.injEq, Prod.mk.injEq] at h1
  obtain ⟨⟨h2, -⟩, rfl⟩ := h1
  have hlen := sh.2.1
  have hroom := sh.2.2
  generalize (specAll max [] ops).2 = c at h2 hlen hroom
  cases op with
  | copy j pos bs =>
    simp only [Op.spec, Verif.Spec.ByteArray.copy, Res.bool.injEq] at h2
    simp only [errnoAfter]
    rw [hlen]
    split at h2
    · subst h2; rw [if_neg (by omega)]; simp
    · subst h2
      refine ⟨by simp, fun _ => ?_⟩
      by_cases hp : pos ≤ c.length
      · rw [if_pos (by omega)]; exact .inl rfl
      · rw [if_neg (by omega)]; exact .inr ⟨rfl, .inl ⟨j, pos, bs, rfl, by omega⟩⟩
  | copyString j pos s t =>
    simp only [Op.spec, Verif.Spec.ByteArray.copy, Res.bool.injEq] at h2
    simp only [errnoAfter]
    rw [hlen]
    split at h2
    · subst h2; rw [if_neg (by omega)]; simp
    · subst h2
      refine ⟨by simp, fun _ => ?_⟩
      by_cases hp : pos ≤ c.length
      · rw [if_pos (by omega)]; exact .inl rfl
      · rw [if_neg (by omega)]; exact .inr ⟨rfl, .inr ⟨j, pos, s, t, rfl, by omega⟩⟩
  | append j bs =>
    simp only [Op.spec, Verif.Spec.ByteArray.append, Res.bool.injEq] at h2
    simp only [errnoAfter]
    rw [hlen]
    split at h2
    · subst h2; rw [if_neg (by omega)]; simp
    · subst h2; rw [if_pos (by omega)]; simp
  | appendString j s t =>
    simp only [Op.spec, Verif.Spec.ByteArray.append, Res.bool.injEq] at h2
    simp only [errnoAfter]
    rw [hlen]
    split at h2
    · subst h2; rw [if_neg (by omega)]; simp
    · subst h2; rw [if_pos (by omega)]; simp
  | stream j cb len => simp [Op.spec] at h2
  | resize j n x =>
    simp only [Op.spec, Verif.Spec.ByteArray.resize, Res.bool.injEq] at h2
    simp only [errnoAfter]
    split at h2
    · subst h2; rw [if_neg (by omega)]; simp
    · split at h2
      · subst h2; rw [if_neg (by omega)]; simp
      · subst h2; rw [if_pos (by omega)]; simp
  | clear => simp [Op.spec] at h2

open Verif.Url in
/-- C110, `charstr_url_decode`: NULL with `EILSEQ` exactly if the string denotes nothing; otherwise the text, with `errno` left alone. -/
theorem url_decode_errno (s t : List UInt8) (h : 0 ∉ s) (plus : Bool) (junk : Junk) (e : Int) :
    urlDecode junk (s ++ 0 :: t) plus e =
      match Verif.Spec.Url.denote plus s with
      | none => .ok (none, EILSEQ)
      | some r => .ok (some (r ++ [0], r.length), e) := by
  have hd := url_decode_correct s t h plus junk
  simp only [Url.urlDecode] at hd
  simp only [urlDecode, bind, StateT.bind, quiet, Except.bind]
  cases hc : checkLoop (s ++ 0 :: t) 0 with
  | error x => rw [hc] at hd; cases hd
  | ok r =>
    rw [hc] at hd
    cases r with
    | none =>
      cases hn : Verif.Spec.Url.denote plus s with
      | none => rfl
      | some r => rw [hn] at hd; simp at hd
    | some n =>
      dsimp only at hd ⊢
      cases hl : decodeLoop plus (s ++ 0 :: t) (malloc junk (n + 1)) 0 with
      | error x => rw [hl] at hd; cases hd
      | ok d =>
        rw [hl] at hd
        cases hn : Verif.Spec.Url.denote plus s with
        | none => rw [hn] at hd; simp at hd
        | some r =>
          rw [hn] at hd
          simp only [Option.map_some, Except.ok.injEq, Option.some.injEq, Prod.mk.injEq] at hd
          obtain ⟨rfl, rfl⟩ := hd
          rfl

example : urlDecode (fun _ => 7) [37, 52, 49, 0] false 5 = .ok (some ([65, 0], 1), 5) ∧
    urlDecode (fun _ => 7) [37, 52, 0] false 5 = .ok (none, 84) := by decide +kernel

/-- C110, `charstr_vprintf`: NULL, with `EILSEQ` whatever the C library says, exactly if there is no text or it is too long for an `int`; otherwise
the text. -/
theorem vprintf_errno (text : Option (List UInt8)) (libErr : Int → Int) (e : Int) :
    (∃ e', vprintf text libErr e = .ok (none, e') ∧ e' = EILSEQ ∧ ∀ t, text = some t → 2 ^ 31 ≤ t.length) ∨
    ∃ e' t, vprintf text libErr e = .ok (some (t ++ [0]), e') ∧ text = some t ∧ t.length < 2 ^ 31 := by
  cases text with
  | none => exact .inl ⟨_, rfl, rfl, by simp⟩
  | some t =>
    by_cases h : t.length ≥ 2 ^ 31
    · refine .inl ⟨EILSEQ, ?_, rfl, by simpa using h⟩
      simp only [vprintf, if_pos h]; rfl
    · refine .inr ⟨libErr (libErr e), t, ?_, rfl, by omega⟩
      simp only [vprintf, if_neg h]; rfl

end Verif.Err
