import Verif.Model.Strings
import Verif.Proofs.Owned
import Verif.Proofs.ObjectsWorld
import Verif.Props.Charstr
import Verif.Props.Utf8
import Verif.Props.Url
import Verif.Props.Base64

/-! Programs on strings: memory and the abstract state agree. -/

namespace Verif.Strings
open Spec.Strings
open Function (update)
set_option autoImplicit false

/-! ### What is computed -/

theorem text_split {bs : List UInt8} (h : 0 ∈ bs) : 0 ∉ text bs ∧ ∃ u, bs = text bs ++ 0 :: u := by
  induction bs with
  | nil => cases h
  | cons c bs ih =>
    by_cases hc : c = 0
    · subst hc; exact ⟨by simp [text], bs, by simp [text]⟩
    · obtain ⟨h1, u, h2⟩ := ih (by simpa [Ne.symm hc] using h)
      have e : text (c :: bs) = c :: text bs := by simp [text, hc]
      rw [e]
      exact ⟨by simp [Ne.symm hc, h1], u, by rw [List.cons_append, ← h2]⟩

theorem isWs_blank : Charstr.isWs = blank := by
  funext c; revert c; apply u8_all; decide +kernel

theorem actual_plain : Url.actual = plain := by
  funext c; revert c; apply u8_all; decide +kernel

theorem custom_eq (r u : List UInt8) : Url.custom r u = custom r u := by
  funext c; simp only [Url.custom, custom, actual_plain]

/-- Texts as wide as the code computes, but for a percent sign by itself. -/
def Exact (f : UInt8 → List UInt8) : Prop := ∀ c, f c = [37] ∨ (f c).length = if (f c).head? = some 37 then 3 else 1

theorem encodedLength_exact {enc : Url.Encoder} {f : UInt8 → List UInt8} (g : Url.Good enc f) (x : Exact f) (s t : List UInt8) (h : 0 ∉ s) : ∀ k,
    Url.encodedLength enc (s ++ 0 :: t) k = .ok (k + (s.flatMap f).length + 2 * s.countP (f · = [37])) := by
  induction s with
  | nil => intro k; simp [Url.encodedLength]
  | cons c s ih =>
    intro k
    simp only [List.mem_cons, not_or] at h
    obtain ⟨rest, he⟩ := g.entry c
    have hw : Url.encodingWidth enc c = .ok ((f c).length + 2 * if f c = [37] then 1 else 0) := by
      simp only [Url.encodingWidth, he]
      obtain ⟨y, r, hy⟩ := List.exists_cons_of_ne_nil (g.width c).1
      have hx := x c
      rw [hy] at hx ⊢
      simp only [List.cons_append, Charstr.peek, List.head?_cons, Option.some.injEq, List.cons.injEq] at hx ⊢
      by_cases h37 : y = 37
      · subst h37
        rcases hx with ⟨-, rfl⟩ | hx
        · simp
        · rw [if_pos rfl] at hx
          have hr : r ≠ [] := by rintro rfl; simp at hx
          simp only [if_true, true_and, hr, if_false, hx]
      · simp only [h37, false_and, if_false, false_or] at hx ⊢
        simp [h37, hx]
    simp only [List.cons_append, Url.encodedLength, Ne.symm h.1, if_false, hw, ih h.2, List.flatMap_cons, List.length_append, List.countP_cons]
    congr 1
    by_cases hf : f c = [37] <;> simp only [hf, decide_true, decide_false, if_true, if_false] <;> simp <;> omega

theorem customEncode_exact {enc : Url.Encoder} {f : UInt8 → List UInt8} (g : Url.Good enc f) (x : Exact f) (junk : Nat → UInt8) (s t : List UInt8)
    (h : 0 ∉ s) : ∃ rest, rest.length = 2 * s.countP (f · = [37]) ∧ Url.customEncode junk enc (s ++ 0 :: t) = .ok (s.flatMap f ++ 0 :: rest) := by
  simp only [Url.customEncode, encodedLength_exact g x s t h, Nat.zero_add]
  rw [Url.encodeLoop_spec g s t h _ _ (by rw [Url.malloc_length]; omega), splice_zero]
  refine ⟨_, ?_, by rw [List.append_assoc]; rfl⟩
  change (List.drop _ _).length = _
  rw [List.length_drop, Url.malloc_length, List.length_append, List.length_singleton]
  omega

theorem plain_exact : Exact plain ∧ ∀ c, plain c ≠ [37] := by
  refine ⟨?_, ?_⟩
  · unfold Exact; apply u8_all; decide +kernel
  · apply u8_all; decide +kernel

theorem custom_exact (r u : List UInt8) (hr : 0 ∉ r) : Exact (custom r u) := by
  intro c
  unfold custom
  split
  · by_cases hc : c = 37
    · simp [hc]
    · simp [hc]
  · split
    · rename_i hc
      rw [(Url.pct_ok c (by rintro rfl; exact hr hc)).1]
      simp
    · exact plain_exact.1 c

theorem fresh_length (junk : Nat → UInt8) (n : Nat) : (fresh junk n).length = n := Url.malloc_length junk n

/-- `base64_decode_simple` on any string. -/
theorem decodeSimple_out (fr : Nat → List UInt8) (hf : ∀ n, (fr n).length = n) {bs : List UInt8} (h : 0 ∈ bs) (hl : bs.length < 2 ^ 63) :
    (Base64.decodeSimple fr bs = .ok none ∧ Fn.base64Decode.Out bs none) ∨
      ∃ t, Base64.decodeSimple fr bs = .ok (some (t ++ [0], t.length)) ∧ Fn.base64Decode.Out bs (some t) := by
  have ht : Spec.Base64.text bs (2 ^ 64 - 1) = text bs := by
    rw [Spec.Base64.text, List.take_of_length_le (by omega), text]
  have d1 : Base64.dflt 0xFF 43 = 43 := by decide
  have d2 : Base64.dflt 0xFF 47 = 47 := by decide
  have hr : Base64.Readable bs (2 ^ 64 - 1) := Or.inr h
  have ha : Spec.Base64.Alphabet (Base64.dflt 0xFF 43) (Base64.dflt 0xFF 47) := by rw [d1, d2]; exact Base64.alphabet_std
  have hv : ∀ dest d, Spec.Base64.Valid 43 47 true (text bs) d →
      Base64.decodeBuffer bs (2 ^ 64 - 1) dest 0xFF 0xFF true = .ok (.count d.length, over dest d) := by
    intro dest d hd
    refine Base64.decode_valid _ _ _ _ _ _ hr hl ha _ ?_
    rw [d1, d2, ht]; exact hd
  obtain ⟨r, d, e, -, he⟩ := Base64.base64_decode_safe bs (2 ^ 64 - 1) [] 0xFF 0xFF true hr hl
  cases r with
  | eoverflow => exact absurd rfl he
  | eilseq =>
    refine Or.inl ⟨by simp only [Base64.decodeSimple, e, bind, Except.bind, pure, Except.pure], fun d' hd' => ?_, fun _ _ _ => rfl⟩
    rw [hv [] d' hd'] at e
    cases e
  | count n =>
    obtain ⟨r2, part, e2, hp, -⟩ := Base64.base64_decode_safe bs (2 ^ 64 - 1) ((fr (n + 1)).take n) 0xFF 0xFF true hr hl
    have hpl : part.length = n := by rw [hp, List.length_take, hf]; omega
    refine Or.inr ⟨part, ?_, fun d' hd' => ?_, fun h1 h2 h3 => ?_⟩
    · simp only [Base64.decodeSimple, e, e2, bind, Except.bind]
      rw [wr_ok (by simp [hpl, hf])]
      simp only [pure, Except.pure]
      have : (fr (n + 1)).drop n = [(fr (n + 1))[n]'(by rw [hf]; omega)] := by
        rw [List.drop_eq_getElem_cons (by rw [hf]; omega), List.drop_eq_nil_of_le (by rw [hf])]
      rw [this, ← hpl]
      simp
    · have e3 := hv [] d' hd'
      rw [e3] at e
      have hn : d'.length = n := by cases e; rfl
      have e4 := hv ((fr (n + 1)).take n) d' hd'
      rw [e4] at e2
      simp only [Except.ok.injEq, Prod.mk.injEq] at e2
      have hl : ((fr (n + 1)).take n).length = n := by simp [hf]
      rw [← e2.2, over_full (by omega), hl, ← hn, List.take_length]
    · obtain ⟨d2', -, e5⟩ := (Base64.base64_decode_accepts_exactly_partial bs (2 ^ 64 - 1) [] 0xFF 0xFF true hr hl ha
        (by rw [ht]; exact h1) (by rw [ht]; exact h2)).2 (by rw [ht, d1, d2]; exact h3)
      rw [e5] at e
      cases e

/-- Each function that makes one string makes the right one, or NULL when it should. -/
theorem fnC_spec (junk : Nat → UInt8) {bs : List UInt8} {fn : Fn} (h : fn.needs bs) :
    (fnC junk bs fn = .ok none ∧ fn.Out bs none) ∨
      ∃ t, fnC junk bs fn = .ok (some (t ++ [0], if fn.sized then some t.length else none)) ∧ fn.Out bs (some t) := by
  cases fn with
  | dup =>
    obtain ⟨h1, u, h2⟩ := text_split h
    refine Or.inr ⟨text bs, ?_, rfl⟩
    have := (Charstr.dup_correct (text bs) u [] h1).1
    rw [← h2] at this
    simp [fnC, this, bind, Except.bind, pure, Except.pure, Fn.sized]
  | dupsub n =>
    refine Or.inr ⟨bs.take n, ?_, rfl⟩
    have hn : n ≤ bs.length := h
    have := (Charstr.dup_correct [] (bs.drop n) (bs.take n) (by simp)).2.2.1
    rw [List.take_append_drop, List.length_take, Nat.min_eq_left hn] at this
    simp [fnC, this, bind, Except.bind, pure, Except.pure, Fn.sized]
  | strip =>
    obtain ⟨h1, u, h2⟩ := text_split h
    obtain ⟨r, h3, h4⟩ := (Charstr.strip_spec (text bs) u h1).1
    rw [← h2] at h3
    rw [isWs_blank] at h4
    exact Or.inr ⟨r, by simp [fnC, h3, bind, Except.bind, pure, Except.pure, Fn.sized], r, rfl, h4⟩
  | sanitize =>
    obtain ⟨h1, u, h2⟩ := text_split h
    obtain ⟨r, h3, -, h4, -⟩ := Utf8.utf8_sanitize_replaces (fresh junk) (fresh_length junk) (text bs) u h1
    rw [← h2] at h3
    exact Or.inr ⟨r, by simp [fnC, h3, bind, Except.bind, pure, Except.pure, Fn.sized], r, rfl, h4⟩
  | urlEncode =>
    obtain ⟨h1, u, h2⟩ := text_split h
    have g := Url.actual_good
    rw [actual_plain] at g
    obtain ⟨rest, hl, h3⟩ := customEncode_exact g plain_exact.1 junk (text bs) u h1
    have h0 : (text bs).countP (plain · = [37]) = 0 := by
      rw [List.countP_eq_zero]
      intro c _
      simpa using plain_exact.2 c
    rw [h0] at hl
    obtain rfl := List.length_eq_zero_iff.1 hl
    rw [← h2] at h3
    exact Or.inr ⟨_, by simp only [fnC, Url.urlEncode, h3, bind, Except.bind, pure, Except.pure, Fn.sized]; rfl, rfl⟩
  | urlDecode plus =>
    obtain ⟨h1, u, h2⟩ := text_split h
    have h3 := Url.url_decode_correct (text bs) u h1 plus junk
    rw [← h2] at h3
    cases hd : Spec.Url.denote plus (text bs) with
    | none => rw [hd] at h3; exact Or.inl ⟨by simp [fnC, h3, bind, Except.bind, pure, Except.pure], hd.symm⟩
    | some t =>
      rw [hd] at h3
      exact Or.inr ⟨t, by simp [fnC, h3, bind, Except.bind, pure, Except.pure, Fn.sized], hd.symm⟩
  | base64Encode n =>
    obtain ⟨hn, hn'⟩ := h
    have h3 := Base64.base64_encode_simple_correct (fresh junk) (fresh_length junk) (bs.take n) (by rw [List.length_take]; omega)
    exact Or.inr ⟨_, by simp [fnC, hn, h3, bind, Except.bind, pure, Except.pure, Fn.sized], rfl⟩
  | base64Decode =>
    rcases decodeSimple_out (fresh junk) (fresh_length junk) h.1 h.2 with ⟨h1, h2⟩ | ⟨t, h1, h2⟩
    · exact Or.inl ⟨by simp [fnC, h1, bind, Except.bind, pure, Except.pure], h2⟩
    · exact Or.inr ⟨t, by simp [fnC, h1, bind, Except.bind, pure, Except.pure, Fn.sized], h2⟩

/-! Encoders in memory. -/

theorem reserve_width (s : List UInt8) : ∀ (enc enc' : Url.Encoder), (∀ e ∈ enc, e.length = 4) → Url.reserveLoop enc s = .ok enc' → ∀ e ∈ enc', e.length = 4 := by
  induction s with
  | nil => intro enc enc' _ h; cases h
  | cons c s ih =>
    intro enc enc' h1 h2
    simp only [Url.reserveLoop] at h2
    split at h2
    · cases h2; exact h1
    · refine ih _ _ (fun e he => ?_) h2
      rcases List.mem_or_eq_of_mem_set he with he | rfl
      · exact h1 e he
      · rfl

theorem unreserve_width (s : List UInt8) : ∀ (enc enc' : Url.Encoder), enc.length = 256 → (∀ e ∈ enc, e.length = 4) → Url.unreserveLoop enc s = .ok enc' →
    ∀ e ∈ enc', e.length = 4 := by
  induction s with
  | nil => intro enc enc' _ _ h; cases h
  | cons c s ih =>
    intro enc enc' hl h1 h2
    simp only [Url.unreserveLoop] at h2
    split at h2
    · cases h2; exact h1
    · refine ih _ _ (by simpa using hl) (fun e he => ?_) h2
      rcases List.mem_or_eq_of_mem_set he with he | rfl
      · exact h1 e he
      · have hc : c.toNat < enc.length := by rw [hl]; exact c.toNat_lt
        have := h1 _ (List.getElem_mem hc)
        rw [List.getD_eq_getElem?_getD, List.getElem?_eq_getElem hc]
        simp [this]

theorem table_flatten_aux (l : List (List UInt8)) : (∀ e ∈ l, e.length = 4) → ∀ i (hi : i < l.length), (l.flatten.drop (4 * i)).take 4 = l[i] := by
  induction l with
  | nil => intro _ i hi; simp at hi
  | cons e l ih =>
    intro h i hi
    have he := h e (List.mem_cons_self ..)
    cases i with
    | zero => simp [← he]
    | succ i =>
      rw [List.flatten_cons, show 4 * (i + 1) = e.length + 4 * i by omega, List.drop_append, List.drop_eq_nil_of_le (by omega), List.nil_append,
        Nat.add_sub_cancel_left]
      simpa using ih (fun e he => h e (List.mem_cons_of_mem _ he)) i (by simpa using hi)

theorem flatten_length (l : List (List UInt8)) : (∀ e ∈ l, e.length = 4) → l.flatten.length = 4 * l.length := by
  induction l with
  | nil => intro _; rfl
  | cons e l ih =>
    intro h
    rw [List.flatten_cons, List.length_append, h e (List.mem_cons_self ..), ih fun x hx => h x (List.mem_cons_of_mem _ hx), List.length_cons]
    omega

theorem table_flatten {enc : Url.Encoder} (hl : enc.length = 256) (h : ∀ e ∈ enc, e.length = 4) : table enc.flatten = enc := by
  refine List.ext_getElem (by simp [table, hl]) fun i h1 h2 => ?_
  simp only [table, List.getElem_map, List.getElem_range]
  exact table_flatten_aux enc h i h2

/-- Memory of an encoder. -/
def Encodes (b : List UInt8) (f : UInt8 → List UInt8) : Prop := Url.Good (table b) f ∧ Exact f ∧ b.length = 1024

theorem create_encodes {rs us : List UInt8} (hr : 0 ∈ rs) (hu : 0 ∈ us) :
    ∃ enc, Url.createUrlEncoder rs us = .ok enc ∧ Encodes enc.flatten (custom (text rs) (text us)) := by
  obtain ⟨h1, u1, h2⟩ := text_split hr
  obtain ⟨h3, u2, h4⟩ := text_split hu
  obtain ⟨enc, e, hl, g⟩ := Url.create_spec (text rs) (text us) u1 u2 h1 h3
  rw [← h2, ← h4] at e
  have hw : ∀ x ∈ enc, x.length = 4 := by
    unfold Url.createUrlEncoder at e
    cases e1 : Url.reserveLoop Url.urlEncoder rs with
    | error x => rw [e1] at e; cases e
    | ok enc1 =>
      rw [e1] at e
      have w0 : ∀ x ∈ Url.urlEncoder, x.length = 4 := by decide +kernel
      have w1 := reserve_width rs _ _ w0 e1
      obtain ⟨enc2, e2, hl2, -⟩ := Url.reserve_spec (text rs) u1 h1 Url.urlEncoder Url.actual Url.table_length Url.actual_good.entry
      rw [← h2, e1] at e2
      cases e2
      exact unreserve_width us _ _ hl2 w1 e
  exact ⟨enc, e, by rw [Encodes, table_flatten hl hw, ← custom_eq]; exact ⟨g, by rw [custom_eq]; exact custom_exact _ _ h1, by rw [flatten_length enc hw, hl]⟩⟩

/-! ### Memory -/

/-- One block. -/
def At (base m : Mem) (a : Nat) : Option Thing → Prop
  | none => m.get a = base.get a
  | some (.string b) => a ≠ 0 ∧ base.get a = none ∧ m.get a = some (.bytes b)
  | some (.encoder f) => a ≠ 0 ∧ base.get a = none ∧ ∃ b, m.get a = some (.bytes b) ∧ Encodes b f

/-- Memory holds the blocks of `s`, and is like `base` elsewhere. -/
def Inv (base : Mem) (s : State) (m : Mem) : Prop := ∀ a, At base m a (s a)

variable {A : Alloc} {m0 base m m' : Mem} {s : State}

theorem Inv.fresh (h : Inv base s m) {p : Nat} (hp : m.get p = none) : s p = none ∧ base.get p = none := by
  have := h p
  cases hs : s p with
  | none => rw [hs] at this; exact ⟨rfl, by rw [← this]; exact hp⟩
  | some t =>
    rw [hs] at this
    cases t with
    | string b => rw [this.2.2] at hp; cases hp
    | encoder f => obtain ⟨-, -, b, e, -⟩ := this; rw [e] at hp; cases hp

theorem Inv.new (h : Inv base s m) (hx : ∀ a, m0.get a ≠ none → base.get a = m0.get a) {p : Nat} (h0 : p ≠ 0) (hp : m.get p = none) :
    Fresh (Objects.external m0) s p := by
  obtain ⟨h1, h2⟩ := h.fresh hp
  refine ⟨h0, h1, ?_⟩
  have : m0.get p = none := by
    by_contra hn
    have := hx p hn
    rw [h2] at this
    exact hn this.symm
  simp [Objects.external, this]

theorem Inv.congr (h : Inv base s m) (e : ∀ x, m'.get x = m.get x) : Inv base s m' := by
  intro a
  have := h a
  unfold At at this ⊢
  split at this <;> simp_all

/-- One block changes. -/
theorem Inv.upd (h : Inv base s m) {p : Nat} {t : Option Thing} (ht : At base m' p t) (e : ∀ x, x ≠ p → m'.get x = m.get x) : Inv base (update s p t) m' := by
  intro a
  by_cases ha : a = p
  · subst ha; rw [Function.update_self]; exact ht
  · rw [Function.update_of_ne ha]
    have := h a
    unfold At at this ⊢
    split at this
    · rw [e a ha]; exact this
    · rw [e a ha]; exact this
    · rw [e a ha]; exact this

theorem Inv.reads (h : Inv base s m) (hx : ∀ a, m0.get a ≠ none → base.get a = m0.get a) {a off : Nat} {bs : List UInt8}
    (hr : Reads (Objects.external m0) s a off bs) : a ≠ 0 ∧ ∃ b, m.get a = some (.bytes b) ∧ b.drop off = bs := by
  obtain ⟨b, h1, h2, rfl⟩ := hr
  rcases h1 with h1 | h1
  · have := h a
    rw [h1] at this
    exact ⟨this.1, b, this.2.2, rfl⟩
  · simp only [Objects.external] at h1
    split at h1
    · cases h1
    · rename_i h0
      have hm : m0.get a = some (.bytes b) := by
        split at h1
        · rename_i c e; cases h1; exact e
        · cases h1
      have hb := hx a (by rw [hm]; simp)
      rw [hm] at hb
      refine ⟨h0, b, ?_, rfl⟩
      have := h a
      cases hs : s a with
      | none => rw [hs] at this; rw [this, hb]
      | some t =>
        rw [hs] at this
        cases t with
        | string b => have := this.2.1; rw [hb] at this; cases this
        | encoder f => have := this.2.1; rw [hb] at this; cases this

theorem Inv.string (h : Inv base s m) {p : Nat} {b : List UInt8} (hs : s p = some (.string b)) : p ≠ 0 ∧ base.get p = none ∧ m.get p = some (.bytes b) := by
  have := h p; rw [hs] at this; exact this

theorem Inv.encoder (h : Inv base s m) {p : Nat} {f : UInt8 → List UInt8} (hs : s p = some (.encoder f)) :
    p ≠ 0 ∧ base.get p = none ∧ ∃ b, m.get p = some (.bytes b) ∧ Encodes b f := by
  have := h p; rw [hs] at this; exact this

/-- Taking all strings out of a list. -/
theorem drainM_spec (l : Nat) : ∀ (xs : List (Nat × Nat)) {m : Mem}, CList.Rep m l xs →
    Does (drainM l) m (fun r m' => r = Owned.vals xs ∧ CList.Rep m' l [] ∧ (∀ a ∈ CList.addrs xs, m'.get a = none) ∧ CList.Same m m' (l :: CList.addrs xs)) := by
  intro xs
  induction xs with
  | nil =>
    intro m h
    rw [drainM]
    refine Does.bind ⟨_, _, CList.empty_spec h, does_pos (by simp) (Does.pure ⟨rfl, h, by simp [CList.addrs], fun _ _ => rfl⟩)⟩
  | cons x xs ih =>
    intro m h
    obtain ⟨e, v⟩ := x
    have h0 : e ≠ 0 := (CList.Rep.cell (ys := []) h).1
    rw [drainM]
    refine Does.bind ⟨_, _, CList.empty_spec h, does_neg (by simp) ?_⟩
    have hpop : Does (CList.popFirst l) m (fun r m' => r = v ∧ CList.Rep m' l xs ∧ m'.get e = none ∧ CList.Same m m' (l :: CList.addrs ((e, v) :: xs))) := by
      unfold CList.popFirst
      refine Does.bind ⟨_, _, CList.getFirst_spec h, does_neg h0 ?_⟩
      refine Does.bind ⟨_, _, CList.getValue_spec (ys := []) h, ?_⟩
      exact Does.bind ((CList.remove_spec (ys := []) h).mono fun _ m1 g => Does.pure ⟨rfl, g⟩)
    refine Does.bind (hpop.mono fun r m1 ⟨hr, g1, g2, g3⟩ => ?_)
    subst hr
    refine Does.bind ((ih g1).mono fun r m2 ⟨hr, k1, k2, k3⟩ => Does.pure ⟨by rw [hr]; rfl, k1, fun a ha => ?_, fun a ha => ?_⟩)
    · rcases List.mem_cons.1 ha with rfl | ha
      · by_cases hx : a ∈ CList.addrs xs
        · exact k2 a hx
        · have hne : a ≠ l := by
            rintro rfl
            have h1 := (CList.Rep.cell (ys := []) h).2
            rw [h.header] at h1
            cases h1
          rw [k3 a (by simp [hne, hx]), g2]
      · exact k2 a ha
    · simp only [CList.addrs, List.map_cons, List.mem_cons, not_or] at ha
      rw [k3 a (by simp only [CList.addrs, List.mem_cons, not_or]; exact ⟨ha.1, ha.2.2⟩), g3 a (by simp only [CList.addrs, List.map_cons, List.mem_cons, not_or]; exact ha)]

/-- The strings that a splitting function leaves with the user. -/
structure Left (m0 m : Mem) (ps : List Nat) (ds : List (List UInt8)) : Prop where
  strings : List.Forall₂ (fun p d => p ≠ 0 ∧ m.get p = some (.bytes d)) ps ds
  nodup : ps.Nodup
  fresh : ∀ p ∈ ps, m0.get p = none
  same : ∀ a, a ∉ ps → m.get a = m0.get a

theorem takeAllM_spec {m1 : Mem} {l : Nat} {xs : List (Nat × Nat)} {ds : List (List UInt8)} (h : Owned.Owns m m1 l xs ds) :
    Does (takeAllM l) m1 (fun r m' => r = .ptrs (Owned.vals xs) ∧ Left m m' (Owned.vals xs) ds) := by
  have hnd := List.nodup_append.1 h.nodup
  unfold takeAllM
  refine Does.bind ((drainM_spec l xs h.rep).mono fun r m2 ⟨hr, g1, g2, g3⟩ => ?_)
  subst hr
  refine Does.bind ((CList.destroy_spec g1).mono fun _ m3 g4 => Does.pure ⟨rfl, ?_⟩)
  have hmem : ∀ a, m3.get a = if a ∈ l :: CList.addrs xs then none else m1.get a := by
    intro a
    rw [g4 a]
    by_cases hl : a = l
    · simp [hl]
    · rw [if_neg (by simp [CList.addrs, hl])]
      by_cases hx : a ∈ CList.addrs xs
      · rw [if_pos (List.mem_cons_of_mem _ hx), g2 a hx]
      · rw [if_neg (by simp [hl, hx]), g3 a (by simp [hl, hx])]
  have hv : ∀ p ∈ Owned.vals xs, p ∉ l :: CList.addrs xs := fun p hp hp' => hnd.2.2 p hp' p hp rfl
  refine ⟨?_, hnd.2.1, fun p hp => h.fresh p (List.mem_append_right _ hp), fun a ha => ?_⟩
  · have hs := h.strings
    rw [Owned.vals, List.forall₂_map_left_iff]
    exact Owned.forall₂_weaken hs fun v hv' => by rw [hmem, if_neg (hv v hv')]
  · rw [hmem]
    by_cases hx : a ∈ l :: CList.addrs xs
    · rw [if_pos hx, h.fresh a (List.mem_append_left _ hx)]
    · rw [if_neg hx]
      exact h.same a (by rw [List.mem_append]; tauto)

theorem split_left {a off : Nat} {fn : SplitFn} {b : List UInt8} (hA : A.Good) (hi : Inv base s m) (hx : ∀ a, m0.get a ≠ none → base.get a = m0.get a)
    (h0 : a ≠ 0) (ha : m.get a = some (.bytes b)) (ht : 0 ∈ b.drop off) (ho : splitOk (Objects.external m0) s fn) :
    Does (splitM A fn a off) m (fun r m' => ∃ ps ts, r = .ptrs ps ∧ Pieces (Objects.external m0) s (text (b.drop off)) fn ts ∧
      Left m m' ps (ts.map (· ++ [0]))) := by
  obtain ⟨h1, u, h2⟩ := text_split ht
  cases fn with
  | split d max =>
    obtain ⟨ts, e, hs⟩ := Charstr.split_correct d ho max _ u h1
    rw [← h2] at e
    exact Does.bind ((Owned.splitM_spec hA h0 ha off d max e).mono fun l m1 ⟨xs, g⟩ => (takeAllM_spec g).mono fun r m2 g => ⟨_, ts, g.1, hs, g.2⟩)
  | atoms =>
    obtain ⟨ts, e, hs⟩ := Charstr.split_atoms_correct _ u h1
    rw [← h2] at e
    rw [isWs_blank] at hs
    exact Does.bind ((Owned.splitAtomsM_spec hA h0 ha off e).mono fun l m1 ⟨xs, g⟩ => (takeAllM_spec g).mono fun r m2 g => ⟨_, ts, g.1, hs, g.2⟩)
  | str ad od max =>
    obtain ⟨bs, hr, hz⟩ := ho
    obtain ⟨hd0, bd, had, e0⟩ := hi.reads hx hr
    subst e0
    obtain ⟨h3, u', h4⟩ := text_split hz
    obtain ⟨ts, e, hs, -⟩ := Charstr.split_str_correct (text (bd.drop od)) u' _ u h3 h1 max
    rw [← h2, ← h4] at e
    exact Does.bind ((Owned.splitStrM_spec hA h0 ha hd0 had off od max e).mono fun l m1 ⟨xs, g⟩ =>
      (takeAllM_spec g).mono fun r m2 g => ⟨_, ts, g.1, ⟨_, hr, hz, hs⟩, g.2⟩)
  | intoArray d max =>
    obtain ⟨ts, e, hs⟩ := Charstr.split_correct d ho max _ u h1
    obtain ⟨qs, e', -, hq, hq'⟩ := Charstr.split_into_array_correct d ho max _ u h1 (List.replicate (max + 1) none) (by simp)
    rw [e] at e'
    cases e'
    rw [← h2] at e
    have hp0 := hA.nonnull m
    have hpn := hA.fresh m
    refine Does.bind (does_alloc hA ?_)
    generalize A.pick m = array at hp0 hpn
    have hne : array ≠ a := by rintro rfl; rw [hpn] at ha; cases ha
    refine Does.bind ((Owned.splitIntoArrayM_spec hA h0 (by rw [Mem.get_set_ne hne]; exact ha) hp0 (Mem.get_set_self _ _ _) off d max (by simp) e).mono
      fun i m2 ⟨ps, hi', g⟩ => ?_)
    have hlen := g.strings.length_eq
    refine Does.bind (does_readSlots hp0 g.slots (Does.bind (does_free hp0 g.slots (Does.pure ⟨ps, ts, ?_, hs, ?_⟩))))
    · have : i + 1 = (ps.map some).length := by rw [List.length_map, hi', hlen]; omega
      rw [this, List.take_left, List.reduceOption, List.filterMap_map]
      simp
    · have hnd := List.nodup_cons.1 g.nodup
      have hkeep : ∀ p ∈ ps, array ≠ p := fun p hp e => hnd.1 (e ▸ hp)
      refine ⟨Owned.fills_weaken g.strings fun p hp => Mem.get_del_ne (hkeep p hp), hnd.2, fun p hp => ?_, fun x hx => ?_⟩
      · have := g.fresh p hp
        rwa [Mem.get_set_ne (hkeep p hp)] at this
      · by_cases hxa : array = x
        · subst hxa; rw [Mem.get_del_self, hpn]
        · rw [Mem.get_del_ne hxa, g.same x (by simp [Ne.symm hxa, hx]), Mem.get_set_ne hxa]

/-- The strings of a list become blocks of the user. -/
theorem Inv.left (h : Inv base s m) {ps : List Nat} {ts : List (List UInt8)} (hl : Left m m' ps (ts.map (· ++ [0]))) :
    ∃ s', List.Forall₂ (fun p t => s' p = some (.string (t ++ [0]))) ps ts ∧ (∀ x, x ∉ ps → s' x = s x) ∧ Inv base s' m' := by
  classical
  let s' : State := fun x => if x ∈ ps then (match m'.get x with | some (.bytes b) => some (.string b) | _ => none) else s x
  have hst := hl.strings
  rw [List.forall₂_map_right_iff] at hst
  have hin : ∀ p t, p ∈ ps → m'.get p = some (.bytes t) → s' p = some (.string t) := by
    intro p t hp ht
    simp only [s', if_pos hp, ht]
  refine ⟨s', ?_, fun x hx => if_neg hx, fun a => ?_⟩
  · have : ∀ (qs : List Nat) (us : List (List UInt8)), (∀ q ∈ qs, q ∈ ps) →
        List.Forall₂ (fun p t => p ≠ 0 ∧ m'.get p = some (.bytes (t ++ [0]))) qs us → List.Forall₂ (fun p t => s' p = some (.string (t ++ [0]))) qs us := by
      intro qs us hq hf
      induction hf with
      | nil => exact .nil
      | cons h1 _ ih => exact .cons (hin _ _ (hq _ (List.mem_cons_self ..)) h1.2) (ih fun q hq' => hq q (List.mem_cons_of_mem _ hq'))
    exact this ps ts (fun _ h => h) hst
  · by_cases ha : a ∈ ps
    · obtain ⟨t, h0, ht⟩ : ∃ t, a ≠ 0 ∧ m'.get a = some (.bytes t) := by
        have : ∀ (qs : List Nat) (us : List (List UInt8)), a ∈ qs →
            List.Forall₂ (fun p t => p ≠ 0 ∧ m'.get p = some (.bytes (t ++ [0]))) qs us → ∃ t, a ≠ 0 ∧ m'.get a = some (.bytes t) := by
          intro qs us hq hf
          induction hf with
          | nil => cases hq
          | cons h1 _ ih =>
            rcases List.mem_cons.1 hq with rfl | hq
            · exact ⟨_, h1⟩
            · exact ih hq
        exact this ps ts ha hst
      rw [hin a t ha ht]
      exact ⟨h0, (h.fresh (hl.fresh a ha)).2, ht⟩
    · have e : s' a = s a := if_neg ha
      rw [e]
      have := h a
      unfold At at this ⊢
      split at this
      · rw [hl.same a ha]; exact this
      · rw [hl.same a ha]; exact this
      · rw [hl.same a ha]; exact this

/-- Formats. -/
theorem formatted_spec (h : Inv base s m) (hx : ∀ a, m0.get a ≠ none → base.get a = m0.get a) (parts : List Part)
    (ho : ∀ a off, .str a off ∈ parts → HasText (Objects.external m0) s a off) :
    ∃ t, formatted m parts = some t ∧ Prints (Objects.external m0) s parts t ∧
      ∀ m', (∀ a, m.get a ≠ none → m'.get a = m.get a) → formatted m' parts = formatted m parts := by
  induction parts with
  | nil => exact ⟨[], rfl, .nil, fun _ _ => rfl⟩
  | cons x parts ih =>
    obtain ⟨t, h1, h2, h3⟩ := ih fun a off hp => ho a off (List.mem_cons_of_mem _ hp)
    cases x with
    | lit u => exact ⟨u ++ t, by simp [formatted, h1], .lit h2, fun m' hm => by simp only [formatted, h3 m' hm]⟩
    | str a off =>
      obtain ⟨bs, hr, hz⟩ := ho a off (List.mem_cons_self ..)
      obtain ⟨-, b, hb, rfl⟩ := h.reads hx hr
      refine ⟨_, by simp only [formatted, hb, h1, Option.map_some], .str hr hz h2, fun m' hm => ?_⟩
      simp only [formatted, hm a (by rw [hb]; simp), hb, h3 m' hm]

/-- A new block. -/
theorem does_new (hA : A.Good) {α : Type} {k : Nat → M α} {c : Cell} {Q : α → Mem → Prop}
    (h : ∀ p m', p ≠ 0 → m.get p = none → m'.get p = some c → (∀ x, x ≠ p → m'.get x = m.get x) → Does (k p) m' Q) :
    Does (M.alloc A c >>= k) m Q :=
  Does.bind (does_alloc hA (h _ _ (hA.nonnull m) (hA.fresh m) (Mem.get_set_self _ _ _) fun _ hx => Mem.get_set_ne (Ne.symm hx) _))

/-- A block changed in place. -/
theorem inPlace_sim {p off : Nat} {b x : List UInt8} {f : List UInt8 → C (List UInt8)} (h : Inv base s m) (hs : s p = some (.string b))
    (hf : f (b.drop off) = .ok x) : Does (inPlaceM p off f) m (fun r m' => r = .unit ∧ Inv base (update s p (some (.string (b.take off ++ x)))) m') := by
  obtain ⟨h0, h1, h2⟩ := h.string hs
  refine Does.bind (does_readBytes h0 h2 (Does.bind (does_lift ((returns_liftC _ _).2 hf) (Does.bind (does_write h0 h2 (Does.pure ⟨rfl, ?_⟩))))))
  exact h.upd ⟨h0, h1, Mem.get_set_self _ _ _⟩ fun y hy => Mem.get_set_ne (Ne.symm hy) _

/-- A block freed. -/
theorem free_sim {p : Nat} {c : Cell} (h : Inv base s m) (h0 : p ≠ 0) (hb : base.get p = none) (hc : m.get p = some c) :
    Does (M.free p) m (fun _ m' => Inv base (update s p none) m') :=
  does_free h0 hc (h.upd (t := none) (by rw [At, Mem.get_del_self, hb]) fun y hy => Mem.get_del_ne (Ne.symm hy))

theorem call_sim (hA : A.Good) (hx : ∀ a, m0.get a ≠ none → base.get a = m0.get a) (h : Inv base s m) {op : Op} (ho : ok (Objects.external m0) s op) :
    Does (callM A op) m (fun r m' => ∃ s', Step (Objects.external m0) s op r s' ∧ Inv base s' m') := by
  cases op with
  | make junk fn a off =>
    obtain ⟨bs, hr, hn⟩ := ho
    obtain ⟨h0, b, hb, rfl⟩ := h.reads hx hr
    refine Does.bind (does_readBytes h0 hb (Does.bind ?_))
    rcases fnC_spec junk hn with ⟨e, ho⟩ | ⟨t, e, ho⟩
    · exact does_lift ((returns_liftC _ _).2 e) (Does.pure ⟨s, .makeNull hr hn ho, h⟩)
    · refine does_lift ((returns_liftC _ _).2 e) (does_new hA fun p m' hp0 hpn hp hsame => Does.pure ⟨_, .make hr hn ho (h.new hx hp0 hpn), ?_⟩)
      exact h.upd ⟨hp0, (h.fresh hpn).2, hp⟩ hsame
  | split fn a off =>
    obtain ⟨⟨bs, hr, hz⟩, ho⟩ := ho
    obtain ⟨h0, b, hb, rfl⟩ := h.reads hx hr
    refine (split_left hA h hx h0 hb hz ho).mono ?_
    rintro _ m' ⟨ps, ts, rfl, h1, h2⟩
    obtain ⟨s', h3, h4, h5⟩ := h.left h2
    refine ⟨s', .split hr hz h1 h2.nodup (fun p hp => h.new hx ?_ (h2.fresh p hp)) h3 h4, h5⟩
    exact (Owned.fills_live h2.strings p hp).1
  | printf junk parts =>
    obtain ⟨t, h1, h2, h3⟩ := formatted_spec h hx parts ho
    refine Does.bind ((Owned.vprintfM_spec hA (fresh_length junk) h3 rfl).mono fun p m' g => Does.pure ?_)
    rw [h1] at g
    by_cases ht : t.length < 2 ^ 31
    · simp only [Option.filter, ht, decide_true, if_true, Option.map_some, Owned.Gives] at g
      obtain ⟨hp0, hpn, hp, hsame⟩ := g
      exact ⟨_, .printf h2 ht (h.new hx hp0 hpn), h.upd ⟨hp0, (h.fresh hpn).2, hp⟩ fun x hx => hsame x (by simpa using hx)⟩
    · simp only [Option.filter, ht, decide_false, Owned.Gives] at g
      obtain ⟨rfl, hsame⟩ := g
      exact ⟨s, .printfNull h2 (by omega), h.congr hsame⟩
  | makeEncoder r roff u uoff =>
    obtain ⟨⟨rs, hr, hrz⟩, us, hu, huz⟩ := ho
    obtain ⟨hr0, rb, hrb, rfl⟩ := h.reads hx hr
    obtain ⟨hu0, ub, hub, rfl⟩ := h.reads hx hu
    obtain ⟨enc, e, g⟩ := create_encodes hrz huz
    refine Does.bind (does_readBytes hr0 hrb (Does.bind (does_readBytes hu0 hub (Does.bind (does_lift ((returns_liftC _ _).2 e)
      (does_new hA fun p m' hp0 hpn hp hsame => Does.pure ⟨_, .makeEncoder hr hrz hu huz (h.new hx hp0 hpn), ?_⟩))))))
    exact h.upd ⟨hp0, (h.fresh hpn).2, _, hp, g⟩ hsame
  | customEncode junk e a off =>
    obtain ⟨⟨bs, hr, hz⟩, f, hf⟩ := ho
    obtain ⟨h0, b, hb, rfl⟩ := h.reads hx hr
    obtain ⟨he0, -, tb, htb, g⟩ := h.encoder hf
    obtain ⟨h1, u, h2⟩ := text_split hz
    obtain ⟨rest, hl, e⟩ := customEncode_exact g.1 g.2.1 junk _ u h1
    rw [← h2] at e
    refine Does.bind (does_readBytes he0 htb (Does.bind (does_readBytes h0 hb (Does.bind (does_lift ((returns_liftC _ _).2 e)
      (does_new hA fun p m' hp0 hpn hp hsame => Does.pure ⟨_, .customEncode hf hr hz hl (h.new hx hp0 hpn), ?_⟩))))))
    exact h.upd ⟨hp0, (h.fresh hpn).2, hp⟩ hsame
  | destroyEncoder e =>
    obtain ⟨f, hf⟩ := ho
    obtain ⟨he0, hb, tb, htb, -⟩ := h.encoder hf
    exact Does.bind ((free_sim h he0 hb htb).mono fun _ m' g => Does.pure ⟨_, .destroyEncoder hf, g⟩)
  | recase up p off =>
    obtain ⟨b, hs, hz⟩ := ho
    obtain ⟨h1, u, h2⟩ := text_split hz
    have hoff : off ≤ b.length := by
      by_contra hn
      rw [List.drop_eq_nil_of_le (by omega)] at hz
      cases hz
    have e : b = b.take off ++ text (b.drop off) ++ 0 :: u := by rw [List.append_assoc, ← h2, List.take_append_drop]
    have hf : (if up then Charstr.ucaseStr else Charstr.lcaseStr) (b.drop off) = .ok ((text (b.drop off)).map (recase up) ++ 0 :: u) := by
      have := Charstr.case_str _ u h1
      rw [← h2] at this
      cases up
      · exact this.1
      · exact this.2
    refine (inPlace_sim h hs hf).mono ?_
    rintro _ m' ⟨rfl, g⟩
    rw [← List.append_assoc] at g
    exact ⟨_, .recase (by rw [← e]; exact hs) (by rw [List.length_take]; omega) h1, g⟩
  | recaseSub up p off n =>
    obtain ⟨b, hs, hn⟩ := ho
    have hl : ((b.drop off).take n).length = n := by rw [List.length_take, List.length_drop]; omega
    have e : b = b.take off ++ (b.drop off).take n ++ (b.drop off).drop n := by rw [List.append_assoc, List.take_append_drop, List.take_append_drop]
    have hf : (if up then Charstr.ucaseSubstr (b.drop off) n else Charstr.lcaseSubstr (b.drop off) n) =
        .ok (((b.drop off).take n).map (recase up) ++ (b.drop off).drop n) := by
      have := Charstr.case_substr ((b.drop off).take n) ((b.drop off).drop n)
      rw [List.take_append_drop, hl] at this
      cases up
      · exact this.1
      · exact this.2
    refine (inPlace_sim (f := fun s => if up then Charstr.ucaseSubstr s n else Charstr.lcaseSubstr s n) h hs hf).mono ?_
    rintro _ m' ⟨rfl, g⟩
    rw [← List.append_assoc] at g
    exact ⟨_, .recaseSub (by rw [← e]; exact hs) (by rw [List.length_take]; omega) hl, g⟩
  | poke p i c =>
    obtain ⟨b, hs, hi⟩ := ho
    refine (inPlace_sim (f := fun s => wr s i c) (x := b.set i c) h hs ?_).mono ?_
    · rw [List.drop_zero, wr_ok hi]
    · rintro _ m' ⟨rfl, g⟩
      exact ⟨_, .poke hs, by simpa using g⟩
  | look p =>
    obtain ⟨b, hs⟩ := ho
    obtain ⟨h0, -, hb⟩ := h.string hs
    exact Does.bind (does_readBytes h0 hb (Does.pure ⟨s, .look hs, h⟩))
  | free p =>
    rcases ho with rfl | ⟨b, hs⟩
    · exact Does.bind ⟨_, _, run_free_null m, Does.pure ⟨s, .freeNull, h⟩⟩
    · obtain ⟨h0, hb, hm⟩ := h.string hs
      exact Does.bind ((free_sim h h0 hb hm).mono fun _ m' g => Does.pure ⟨_, .free hs, g⟩)

end Verif.Strings
