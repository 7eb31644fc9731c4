import Verif.Proofs.Recompose
import Verif.Proofs.QuickCheck

/-! Normalization forms: canonical equivalence, room, and the quick checks. -/

namespace Verif.Unicode
open Verif.Utf8 Verif.Spec.Utf8 Verif.Spec.Unicode

/-- What canonical equivalence relies on in the tables. -/
structure Tables (u : Ucd) : Prop extends Table u where
  pair : ∀ s c p, u.composite s c = some p → u.decomp p = some [s, c]
  atomic : ∀ c, IsHangul c → u.decomp c = none

theorem isHangul_syllable {c : Nat} (h : IsSyllable c) : IsHangul c := by
  obtain ⟨l, v, t, hl, hv, ht, rfl⟩ := h
  simp only [IsHangul, syllable]; omega

/-! ### Canonical equivalence -/

mutual
/-- What results from a full decomposition cannot be decomposed. -/
theorem full_atoms {u : Ucd} (tb : Tables u) {cp : Nat} {d : List Nat} : Full u.decomp cp d → ∀ c ∈ d, u.decomp c = none ∧ ¬ IsSyllable c
  | .mapped _ h2 => fullAll_atoms tb h2
  | @Full.hangul _ l v t h hl hv ht => by
    intro c hc
    have hc' : c = 0x1100 + l ∨ c = 0x1161 + v ∨ c = 0x11A7 + t ∧ 0 < t := by
      simp only [jamo] at hc
      split at hc <;> simp at hc <;> omega
    refine ⟨tb.atomic c (by simp only [IsHangul]; omega), ?_⟩
    rintro ⟨l', v', t', _, _, _, he⟩
    simp only [syllable] at he
    omega
  | .self h1 h2 => by
    intro c hc
    rw [List.mem_singleton.1 hc]
    exact ⟨h1, h2⟩
theorem fullAll_atoms {u : Ucd} (tb : Tables u) {cps d : List Nat} : FullAll u.decomp cps d → ∀ c ∈ d, u.decomp c = none ∧ ¬ IsSyllable c
  | .nil => by simp
  | .cons h1 h2 => by
    intro c hc
    rcases List.mem_append.1 hc with hc | hc
    · exact full_atoms tb h1 c hc
    · exact fullAll_atoms tb h2 c hc
end

theorem fullAll_self {u : Ucd} (tb : Tables u) {cps d : List Nat} (h : FullAll u.decomp cps d) : ∀ c ∈ d, Full u.decomp c [c] := fun c hc =>
  .self (fullAll_atoms tb h c hc).1 (fullAll_atoms tb h c hc).2

theorem fullAll_of_self {dm : Nat → Option (List Nat)} {l : List Nat} (h : ∀ c ∈ l, Full dm c [c]) : FullAll dm l l := by
  induction l with
  | nil => exact .nil
  | cons c l ih => exact .cons (a := [c]) (h c (by simp)) (ih fun d hd => h d (by simp [hd]))

/-- A composite decomposes into what its parts decompose into. -/
theorem composite_full {u : Ucd} (tb : Tables u) {s c p : Nat} {f : List Nat} (h : Composite (pairs u) s c p) (hs : Full u.decomp s f)
    (hc : Full u.decomp c [c]) : Full u.decomp p (f ++ [c]) := by
  cases h with
  | table h => exact .mapped (tb.pair _ _ _ h) (.cons hs (fullAll_one.2 hc))
  | @lv l v hl hv =>
    have hL : Full u.decomp (0x1100 + l) [0x1100 + l] := by
      refine .self (tb.atomic _ (by simp only [IsHangul]; omega)) ?_
      rintro ⟨l', v', t', _, _, _, he⟩
      simp only [syllable] at he
      omega
    rw [full_unique hL hs]
    have := Full.hangul (dm := u.decomp) (t := 0) (tb.atomic _ (isHangul_syllable ⟨l, v, 0, hl, hv, by omega, rfl⟩)) hl hv (by omega)
    simpa [jamo] using this
  | @lvt l v t hl hv h0 ht =>
    have hS := Full.hangul (dm := u.decomp) (t := 0) (tb.atomic _ (isHangul_syllable ⟨l, v, 0, hl, hv, by omega, rfl⟩)) hl hv (by omega)
    rw [full_unique hS hs]
    have := Full.hangul (dm := u.decomp) (t := t) (tb.atomic _ (isHangul_syllable ⟨l, v, t, hl, hv, ht, rfl⟩)) hl hv ht
    rw [jamo, if_neg (by omega)] at this
    simpa [jamo] using this

theorem composite_starter {u : Ucd} (t : Table u) {s c p : Nat} (h : Composite (pairs u) s c p) (hs : u.ccc s = 0) : u.ccc p = 0 := by
  rcases composite_iff.1 h with h | h
  · exact t.starter _ _ _ h hs
  · exact t.hangul p h.hangul.2.2

/-- `y` is canonically equivalent to the fully decomposed `d`, with the non-starters not composed. -/
structure Equiv (u : Ucd) (d y : List Nat) : Prop where
  eqv : ∃ f, FullAll u.decomp y f ∧ ord u.ccc f = ord u.ccc d
  self : ∀ c ∈ y, u.ccc c ≠ 0 → Full u.decomp c [c]

theorem step_equiv {u : Ucd} (tb : Tables u) {d y y' : List Nat} {c : Nat} (h : ComposeStep u.ccc (pairs u) y c y') (he : Equiv u d y)
    (hc : Full u.decomp c [c]) : Equiv u (d ++ [c]) y' := by
  obtain ⟨⟨f, hf, ho⟩, hself⟩ := he
  cases h with
  | @compose a s b _ p h1 h2 h3 h4 =>
    obtain ⟨fa, fsb, hfa, hfsb, rfl⟩ := fullAll_append hf
    cases hfsb with
    | @cons _ _ fs fb hfs hfb =>
      have hb : fb = b := fullAll_unique (fullAll_of_self fun x hx => hself x (by simp [hx]) (h2 x hx)) hfb
      subst hb
      have hlt : ∀ x ∈ fb, 0 < u.ccc x ∧ u.ccc x < u.ccc c := by
        intro x hx
        refine ⟨Nat.pos_of_ne_zero (h2 x hx), ?_⟩
        by_contra hn
        exact h3 ⟨x, hx, Or.inr (by omega)⟩
      refine ⟨⟨fa ++ ((fs ++ [c]) ++ fb), hfa.append (.cons (composite_full tb h4 hfs hc) hfb), ?_⟩, ?_⟩
      · have := ord_move (x := fa ++ fs) (y := []) hlt
        calc ord u.ccc (fa ++ ((fs ++ [c]) ++ fb)) = ord u.ccc ((fa ++ fs) ++ c :: fb ++ []) := by simp
          _ = ord u.ccc ((fa ++ fs) ++ fb ++ [c]) := this.symm
          _ = ord u.ccc (ord u.ccc (fa ++ (fs ++ fb)) ++ [c]) := by rw [ord_ord_append]; simp
          _ = ord u.ccc (d ++ [c]) := by rw [ho, ord_ord_append]
      · intro x hx hx0
        rcases List.mem_append.1 hx with hx | hx
        · exact hself x (by simp [hx]) hx0
        · rcases List.mem_cons.1 hx with rfl | hx
          · exact absurd (composite_starter tb.toTable h4 h1) hx0
          · exact hself x (by simp [hx]) hx0
  | keep h1 =>
    refine ⟨⟨f ++ [c], hf.append (fullAll_one.2 hc), ?_⟩, ?_⟩
    · rw [← ord_ord_append, ho, ord_ord_append]
    · intro x hx hx0
      rcases List.mem_append.1 hx with hx | hx
      · exact hself x hx hx0
      · rw [List.mem_singleton.1 hx]; exact hc

theorem compose_equiv {u : Ucd} (tb : Tables u) {y l y' : List Nat} (h : Compose u.ccc (pairs u) y l y') :
    ∀ {d}, Equiv u d y → (∀ c ∈ l, Full u.decomp c [c]) → Equiv u (d ++ l) y' := by
  induction h with
  | nil => intro d h _; simpa using h
  | @cons x c x' l y h1 _ ih =>
    intro d h hl
    have := ih (step_equiv tb h1 h (hl c (by simp))) (fun e he => hl e (by simp [he]))
    simpa using this

/-- Composition keeps the canonical decomposition. -/
theorem compose_nfd {u : Ucd} (tb : Tables u) {d y : List Nat} (h : Compose u.ccc (pairs u) [] d y) (hs : ∀ c ∈ d, Full u.decomp c [c])
    (ho : Ordered u.ccc d) : NFD u.decomp u.ccc y d := by
  have h0 : Equiv u [] [] := ⟨⟨[], .nil, rfl⟩, by simp⟩
  obtain ⟨⟨f, h1, h2⟩, _⟩ := compose_equiv tb h h0 hs
  simp only [List.nil_append] at h2
  exact nfd_iff.2 ⟨f, h1, by rw [h2, ord_self ho]⟩

theorem nfd_self_ordered {u : Ucd} (tb : Tables u) {x d : List Nat} (h : NFD u.decomp u.ccc x d) :
    (∀ c ∈ d, Full u.decomp c [c]) ∧ Ordered u.ccc d := by
  obtain ⟨f, h1, rfl⟩ := nfd_iff.1 h
  exact ⟨fun c hc => fullAll_self tb h1 c ((ord_perm f).mem_iff.1 hc), ord_ordered f⟩

theorem nfc_equiv {u : Ucd} (tb : Tables u) {x y d : List Nat} (h : NFC u.decomp u.ccc (pairs u) x y) (hd : NFD u.decomp u.ccc x d) :
    NFD u.decomp u.ccc y d := by
  obtain ⟨d', h1, h2⟩ := h
  rw [nfd_unique hd h1]
  obtain ⟨h3, h4⟩ := nfd_self_ordered tb h1
  exact compose_nfd tb h2 h3 h4

theorem nfc_idem {u : Ucd} (tb : Tables u) {x y : List Nat} (h : NFC u.decomp u.ccc (pairs u) x y) : NFC u.decomp u.ccc (pairs u) y y := by
  obtain ⟨d, h1, h2⟩ := h
  exact ⟨d, nfc_equiv tb ⟨d, h1, h2⟩ h1, h2⟩

theorem nfd_idem {u : Ucd} (tb : Tables u) {x y : List Nat} (h : NFD u.decomp u.ccc x y) : NFD u.decomp u.ccc y y := by
  obtain ⟨h1, h2⟩ := nfd_self_ordered tb h
  exact nfd_iff.2 ⟨y, fullAll_of_self h1, (ord_self h2).symm⟩

/-! ### Room -/

theorem composite_width {u : Ucd} (t : Table u) {s c p : Nat} (h : Composite (pairs u) s c p) :
    (enc p).length ≤ (enc s).length + (enc c).length := by
  rcases composite_iff.1 h with h | h
  · simp only [enc_length]; exact t.width _ _ _ h
  · exact h.width

theorem compose_length {u : Ucd} (t : Table u) {x l y : List Nat} (h : Compose u.ccc (pairs u) x l y) :
    (encs y).length ≤ (encs x).length + (encs l).length := by
  induction h with
  | nil => simp
  | @cons x c x' l y h1 _ ih =>
    have : (encs x').length ≤ (encs x).length + (enc c).length := by
      cases h1 with
      | compose _ _ _ h =>
        have := composite_width t h
        simp; omega
      | keep => simp
    simp; omega

/-! ### The limit of a hundred -/

theorem comp_last {u : Ucd} (t : Table u) {e b : List Nat} {s : Nat} (hs : u.ccc s = 0) (hb : ∀ c ∈ b, u.ccc c ≠ 0) :
    ∃ a s', hg (e ++ s :: b) = a ++ s' :: b ∧ u.ccc s' = 0 := by
  rw [show e ++ s :: b = (e ++ [s]) ++ b by simp, hg_append (fun c hc => t.notHangul (hb c hc))]
  rcases hg_snoc e s with ⟨x, n, p, _, h2, h3⟩ | ⟨_, h3⟩
  · exact ⟨x, p, by rw [h3]; simp, t.hangul p h2.hangul.2.2⟩
  · exact ⟨hg e, s, by rw [h3]; simp, hs⟩

theorem gok_iff {u : Ucd} (t : Table u) (cps : List Nat) : GOk u ([], none) cps ↔ ¬ Excess u.ccc (pairs u) 100 cps := by
  constructor
  · rintro h ⟨l, m, a, s, b, hcps, hc, hs, hb, hlen⟩
    have hc' := (compose_iff t).1 hc
    have h1 := h l m hcps
    have hinv := grun_inv t (ginv_nil u) l
    simp only [comp] at hc'
    rcases hgr : grun u ([], none) l with ⟨e, cur⟩
    rw [hgr] at hc' h1 hinv
    cases cur with
    | none =>
      simp only [gflat] at hc'
      have : hg e = e := by
        have := hg_append (l := []) (b := e) (fun c hc => t.notHangul (hinv c hc))
        simpa [hg_nil] using this
      rw [this] at hc'
      exact hinv s (by rw [← hc']; simp) hs
    | some x =>
      obtain ⟨s', b'⟩ := x
      simp only [gflat, glen] at hc' h1
      obtain ⟨a', s'', h2, h3⟩ := comp_last (e := e) t hinv.1 hinv.2
      rw [h2] at hc'
      obtain ⟨_, _, rfl⟩ := last_unique hc' hs h3 hb hinv.2
      omega
  · intro h l m hcps
    by_contra hn
    apply h
    have hinv := grun_inv t (ginv_nil u) l
    have hc := comp_compose t l
    simp only [comp] at hc
    rcases hg : grun u ([], none) l with ⟨e, cur⟩
    rw [hg] at hn hinv hc
    cases cur with
    | none => simp [glen] at hn
    | some x =>
      obtain ⟨s', b'⟩ := x
      simp only [gflat, glen] at hn hc
      obtain ⟨a', s'', h2, h3⟩ := comp_last (e := e) t hinv.1 hinv.2
      rw [h2] at hc
      exact ⟨l, m, a', s'', b', hcps, hc, h3, hinv.2, by omega⟩

/-- Texts without long runs of non-starters stay within the limit. -/
theorem gok_of_runs {u : Ucd} {cps : List Nat} (h : ∀ x b y, cps = x ++ b ++ y → (∀ c ∈ b, u.ccc c ≠ 0) → b.length ≤ 100) :
    GOk u ([], none) cps := by
  have key : ∀ l : List Nat, ∃ x b, l = x ++ b ∧ (∀ c ∈ b, u.ccc c ≠ 0) ∧ glen (grun u ([], none) l) ≤ b.length := by
    intro l
    induction l using List.reverseRecOn with
    | nil => exact ⟨[], [], rfl, by simp, by simp [grun, glen]⟩
    | append_singleton l c ih =>
      obtain ⟨x, b, hl, hb, hg⟩ := ih
      have hr : grun u ([], none) (l ++ [c]) = gstep u (grun u ([], none) l) c := by simp [grun]
      rw [hr]
      rcases hgl : grun u ([], none) l with ⟨e, cur⟩
      rw [hgl] at hg
      by_cases hc : u.ccc c ≠ 0
      · refine ⟨x, b ++ [c], by rw [hl]; simp, ?_, ?_⟩
        · intro d hd
          rcases List.mem_append.1 hd with hd | hd
          · exact hb d hd
          · rw [List.mem_singleton.1 hd]; exact hc
        · simp only [List.length_append, List.length_singleton]
          cases cur with
          | none => simp [gstep, hc, glen]
          | some y =>
            obtain ⟨s, b'⟩ := y
            simp only [glen] at hg
            simp only [gstep]
            split
            · simp only [glen]; omega
            · simp only [if_pos hc, glen, List.length_append, List.length_singleton]; omega
      · refine ⟨l ++ [c], [], by simp, by simp, ?_⟩
        cases cur with
        | none => simp [gstep, hc, glen]
        | some y =>
          obtain ⟨s, b'⟩ := y
          simp only [gstep]
          have hc0 : u.ccc c = 0 := by simpa using hc
          cases b' with
          | nil =>
            split
            · simp [glen]
            · rw [if_neg hc]; simp [glen]
          | cons z b' =>
            have : blocked u (z :: b') (u.ccc c) = true := (blocked_iff u _ _).2 ⟨z, by simp, by omega⟩
            rw [if_pos this]
            simp [hc, glen]
  intro l m hl
  obtain ⟨x, b, h1, h2, h3⟩ := key l
  exact Nat.le_trans h3 (h x b m (by rw [hl, h1]) h2)

/-! ### Quick checks -/

theorem not_bad_ordered {u : Ucd} {d : Nat} {cps : List Nat} (h : bad u d 0 cps = false) : Ordered u.ccc cps ∧ ∀ c ∈ cps, u.flags c &&& d = 0 := by
  have hb : ¬ bad u d 0 cps = true := by rw [h]; simp
  rw [bad_iff] at hb
  constructor
  · intro x a b y he hab
    exact hb ⟨x ++ [a], b, y, by rw [he]; simp, Or.inr ⟨hab.2, Or.inr ⟨x, a, rfl, hab.1⟩⟩⟩
  · intro c hc
    obtain ⟨x, y, rfl⟩ := List.append_of_mem hc
    by_contra hn
    exact hb ⟨x, c, y, rfl, Or.inl hn⟩

theorem bad_of {u : Ucd} {d : Nat} {cps : List Nat} (h : Ordered u.ccc cps) (h' : ∀ c ∈ cps, u.flags c &&& d = 0) : bad u d 0 cps = false := by
  cases hb : bad u d 0 cps with
  | false => rfl
  | true =>
    obtain ⟨x, c, y, rfl, h1 | ⟨h1, h2 | ⟨x', a, rfl, h2⟩⟩⟩ := (bad_iff u d cps 0).1 hb
    · exact absurd (h' c (by simp)) h1
    · omega
    · exact absurd ⟨h2, h1⟩ (h x' a c y (by simp))

/-- The flags for the decomposed form agree with the decompositions. -/
structure FlagsD (u : Ucd) : Prop where
  disallowed : ∀ c, IsScalar c → (u.flags c &&& nfdDisallowed = 0 ↔ u.decomp c = none ∧ ¬ IsSyllable c)
  maybe : ∀ c, u.flags c &&& nfdMaybe = 0

theorem nfd_self_iff {u : Ucd} (tb : Tables u) (fl : FlagsD u) {x : List Nat} (hx : ∀ c ∈ x, IsScalar c) :
    NFD u.decomp u.ccc x x ↔ bad u nfdDisallowed 0 x = false := by
  constructor
  · intro h
    obtain ⟨h1, h2⟩ := nfd_self_ordered tb h
    refine bad_of h2 fun c hc => ?_
    rw [fl.disallowed c (hx c hc)]
    exact full_atoms tb (h1 c hc) c (by simp)
  · intro h
    obtain ⟨h1, h2⟩ := not_bad_ordered h
    refine nfd_iff.2 ⟨x, fullAll_of_self fun c hc => ?_, (ord_self h1).symm⟩
    obtain ⟨h3, h4⟩ := (fl.disallowed c (hx c hc)).1 (h2 c hc)
    exact .self h3 h4

/-! ### The quick check for the composed form -/

/-- Never composed with a starter before it. -/
def Inert (u : Ucd) (c : Nat) : Prop := ∀ s p, u.ccc s = 0 → ¬ Composite (pairs u) s c p

/-- What a code point without the flags is like. -/
inductive Stable (u : Ucd) (c : Nat) : Prop
  | mark : u.ccc c ≠ 0 → u.decomp c = none → Inert u c → Stable u c
  | starter {s r} : u.ccc c = 0 → Full u.decomp c (s :: r) → u.ccc s = 0 → Inert u s → Compose u.ccc (pairs u) [] (ord u.ccc (s :: r)) [c] → Stable u c

/-- The flags for the composed form agree with the decompositions and the compositions. -/
def FlagsC (u : Ucd) : Prop := ∀ c, IsScalar c → u.flags c &&& nfcDisallowed = 0 → u.flags c &&& nfcMaybe = 0 → Stable u c

/-- Characters that are composed with the starter, and others. -/
inductive Mix (u : Ucd) : Nat → List Nat → List Nat → Nat → List Nat → Prop
  | nil {p m} : Mix u p m [] p m
  | compose {p m r p' w c n} : Composite (pairs u) p r p' → ¬ Blocked u.ccc m r → Mix u p' m w c n → Mix u p m (r :: w) c n
  | keep {p m a w c n} : Inert u a → u.ccc a ≠ 0 → Mix u p (m ++ [a]) w c n → Mix u p m (a :: w) c n

theorem mix_compose {u : Ucd} (t : Table u) {p c : Nat} {m w n : List Nat} (h : Mix u p m w c n) (a : List Nat) (hp : u.ccc p = 0)
    (hm : ∀ x ∈ m, u.ccc x ≠ 0) : Compose u.ccc (pairs u) (a ++ p :: m) w (a ++ c :: n) := by
  induction h with
  | nil => exact .nil
  | compose h1 h2 _ ih => exact .cons (.compose hp hm h2 h1) (ih (composite_starter t h1 hp) hm)
  | @keep p m b w c n h1 h2 _ ih =>
    refine .cons (.keep fun _ s' _ p' _ hs' _ _ => h1 s' p' hs') ?_
    have := ih hp (by
      intro x hx
      rcases List.mem_append.1 hx with hx | hx
      · exact hm x hx
      · rw [List.mem_singleton.1 hx]; exact h2)
    simpa using this

theorem mix_grows {u : Ucd} {p c : Nat} {m w n : List Nat} (h : Mix u p m w c n) : ∀ x ∈ m, x ∈ n := by
  induction h with
  | nil => exact fun x hx => hx
  | compose _ _ _ ih => exact ih
  | keep _ _ _ ih => exact fun x hx => ih x (by simp [hx])

theorem mix_front {u : Ucd} {p c a : Nat} {m w n : List Nat} (h : Mix u p m w c n) (h0 : u.ccc a ≠ 0) (hw : ∀ x ∈ w, u.ccc a < u.ccc x)
    (hn : ∀ x ∈ n, u.ccc x ≤ u.ccc a) : Mix u p (m ++ [a]) w c (n ++ [a]) := by
  induction h with
  | nil => exact .nil
  | @compose p m r p' w c n h1 h2 h3 ih =>
    refine .compose h1 ?_ (ih (fun x hx => hw x (by simp [hx])) hn)
    rintro ⟨x, hx, hx'⟩
    rcases List.mem_append.1 hx with hx | hx
    · exact h2 ⟨x, hx, hx'⟩
    · rw [List.mem_singleton.1 hx] at hx'
      have := hw r (by simp)
      omega
  | @keep p m b w c n h1 h2 h3 ih =>
    have h4 := hn b (mix_grows h3 b (by simp))
    have h5 := hw b (by simp)
    omega

theorem mix_insert {u : Ucd} {a : Nat} (hi : Inert u a) (h0 : u.ccc a ≠ 0) {w2 : List Nat} (hw : ∀ x ∈ w2, u.ccc a < u.ccc x) :
    ∀ {w1 : List Nat} {p c : Nat} {m n : List Nat}, Mix u p m (w1 ++ w2) c n → (∀ x ∈ n, u.ccc x ≤ u.ccc a) →
    Mix u p m (w1 ++ a :: w2) c (n ++ [a]) := by
  intro w1
  induction w1 with
  | nil => intro p c m n h hn; exact .keep hi h0 (mix_front h h0 hw hn)
  | cons x w1 ih =>
    intro p c m n h hn
    generalize hl : x :: w1 ++ w2 = l at h
    cases h with
    | nil => simp at hl
    | compose h1 h2 h3 =>
      simp only [List.cons_append, List.cons.injEq] at hl
      obtain ⟨rfl, rfl⟩ := hl
      exact .compose h1 h2 (ih h3 hn)
    | keep h1 h2 h3 =>
      simp only [List.cons_append, List.cons.injEq] at hl
      obtain ⟨rfl, rfl⟩ := hl
      exact .keep h1 h2 (ih h3 hn)

/-- Where a non-starter comes to stand. -/
theorem ord_snoc {ccc : Nat → Nat} {w : List Nat} {a : Nat} (h0 : ccc a ≠ 0) (hw : Ordered ccc w) :
    ∃ w1 w2, w = w1 ++ w2 ∧ (∀ x ∈ w2, ccc a < ccc x) ∧ ord ccc (w ++ [a]) = w1 ++ a :: w2 := by
  have key : ∀ w : List Nat, ∃ w1 w2, w = w1 ++ w2 ∧ (∀ x ∈ w2, ccc a < ccc x) ∧ ∀ y b, w1 = y ++ [b] → ccc b ≤ ccc a := by
    intro w
    induction w using List.reverseRecOn with
    | nil => exact ⟨[], [], rfl, by simp, by simp⟩
    | append_singleton w b ih =>
      by_cases hb : ccc a < ccc b
      · obtain ⟨w1, w2, h1, h2, h3⟩ := ih
        refine ⟨w1, w2 ++ [b], by rw [h1]; simp, fun x hx => ?_, h3⟩
        rcases List.mem_append.1 hx with hx | hx
        · exact h2 x hx
        · rw [List.mem_singleton.1 hx]; exact hb
      · refine ⟨w ++ [b], [], by simp, by simp, fun y c hy => ?_⟩
        obtain ⟨_, h2⟩ := List.append_inj' hy rfl
        cases h2; omega
  obtain ⟨w1, w2, rfl, h2, h3⟩ := key w
  refine ⟨w1, w2, rfl, h2, ?_⟩
  have h4 := ord_move_low (ccc := ccc) (x := w1) (y := []) (b := w2) (c := a) (by omega) h2
  rw [h4, ord_self]
  · simp
  · rw [List.append_nil, ordered_iff_chain, List.isChain_append]
    refine ⟨ordered_iff_chain.1 hw.append_left, ?_, ?_⟩
    · have h5 := ordered_iff_chain.1 hw.append_right
      cases w2 with
      | nil => simp
      | cons b w2 =>
        rw [List.isChain_cons_cons]
        have := h2 b (by simp)
        exact ⟨by omega, h5⟩
    · intro x hx y hy
      simp only [List.head?_cons, Option.mem_def, Option.some.injEq] at hy
      subst hy
      obtain ⟨w1', rfl⟩ : ∃ z, w1 = z ++ [x] := by
        rw [Option.mem_def, List.getLast?_eq_some_iff] at hx
        obtain ⟨z, hz⟩ := hx
        exact ⟨z, hz⟩
      have := h3 w1' x rfl
      omega

theorem mix_ord {u : Ucd} {p c : Nat} {r : List Nat} (h : Mix u p [] r c []) (hr : Ordered u.ccc r) {n : List Nat}
    (hn : n.Pairwise fun x y => u.ccc x ≤ u.ccc y) (hi : ∀ a ∈ n, Inert u a ∧ u.ccc a ≠ 0) : Mix u p [] (ord u.ccc (r ++ n)) c n := by
  induction n using List.reverseRecOn with
  | nil => rw [List.append_nil, ord_self hr]; exact h
  | append_singleton n a ih =>
    rw [List.pairwise_append] at hn
    have ih := ih hn.1 (fun x hx => hi x (by simp [hx]))
    have ha := hi a (by simp)
    rw [← List.append_assoc, ← ord_ord_append]
    obtain ⟨w1, w2, h1, h2, h3⟩ := ord_snoc ha.2 (ord_ordered (ccc := u.ccc) (r ++ n))
    rw [h3]
    rw [h1] at ih
    exact mix_insert ha.1 ha.2 h2 ih (fun x hx => hn.2.2 x hx a (by simp))

theorem compose_len {ccc : Nat → Nat} {pc : Nat → Nat → Nat → Prop} {x l y : List Nat} (h : Compose ccc pc x l y) : x.length ≤ y.length := by
  induction h with
  | nil => exact Nat.le_refl _
  | cons h1 _ ih =>
    cases h1 with
    | compose => simp at ih ⊢; omega
    | keep => simp at ih; omega

theorem compose_mix {u : Ucd} (t : Table u) {r : List Nat} : ∀ {s c : Nat}, Compose u.ccc (pairs u) [s] r [c] → Mix u s [] r c [] := by
  induction r with
  | nil =>
    intro s c h
    generalize hx : [s] = x at h
    generalize hy : [c] = y at h
    cases h
    subst hx
    cases hy
    exact .nil
  | cons d r ih =>
    intro s c h
    cases h with
    | cons h1 h2 =>
      generalize hx : [s] = x at h1
      cases h1 with
      | @compose a s' b _ p h3 h4 h5 h6 =>
        have : a = [] ∧ s = s' ∧ b = [] := by
          cases a with
          | nil => simpa using hx
          | cons _ _ => simp at hx
        obtain ⟨rfl, rfl, rfl⟩ := this
        exact .compose h6 h5 (ih h2)
      | keep =>
        subst hx
        have := compose_len h2
        simp at this

theorem ord_starter {ccc : Nat → Nat} {s : Nat} (hs : ccc s = 0) (a b : List Nat) : ord ccc (a ++ s :: b) = ord ccc a ++ s :: ord ccc b := by
  have h1 : ord ccc (s :: b) = s :: ord ccc b := by
    rw [ord_cons]
    cases ord ccc b with
    | nil => rfl
    | cons x l => simp only [ins]; rw [if_neg (by omega)]
  have h2 : ∀ c (l m : List Nat), ins ccc c (l ++ s :: m) = ins ccc c l ++ s :: m := by
    intro c l m
    induction l with
    | nil => simp only [List.nil_append, ins]; rw [if_neg (by omega)]; rfl
    | cons x l ih =>
      simp only [List.cons_append, ins]
      split
      · rw [ih]; rfl
      · rfl
  induction a with
  | nil => exact h1
  | cons c a ih => rw [List.cons_append, ord_cons, ih, h2, ord_cons]

/-- A text passing the quick check is its own composed form. -/
theorem stable_nfc {u : Ucd} (tb : Tables u) {x : List Nat} (ho : Ordered u.ccc x) (hs : ∀ c ∈ x, Stable u c) :
    NFC u.decomp u.ccc (pairs u) x x := by
  have marks : ∀ n : List Nat, (∀ c ∈ n, Stable u c) → (∀ c ∈ n, u.ccc c ≠ 0) → FullAll u.decomp n n ∧ ∀ c ∈ n, Inert u c ∧ u.ccc c ≠ 0 := by
    intro n h1 h2
    have : ∀ c ∈ n, u.decomp c = none ∧ Inert u c := by
      intro c hc
      cases h1 c hc with
      | mark _ h3 h4 => exact ⟨h3, h4⟩
      | starter h3 => exact absurd h3 (h2 c hc)
    refine ⟨fullAll_of_self fun c hc => .self (this c hc).1 fun hsy => ?_, fun c hc => ⟨(this c hc).2, h2 c hc⟩⟩
    exact h2 c hc (tb.hangul c (isHangul_syllable hsy))
  have split : ∀ x : List Nat, (∀ c ∈ x, u.ccc c ≠ 0) ∨ ∃ a c n, x = a ++ c :: n ∧ u.ccc c = 0 ∧ ∀ d ∈ n, u.ccc d ≠ 0 := by
    intro x
    induction x using List.reverseRecOn with
    | nil => left; simp
    | append_singleton x c ih =>
      by_cases hc : u.ccc c = 0
      · right; exact ⟨x, c, [], rfl, hc, by simp⟩
      · rcases ih with ih | ⟨a, s, n, rfl, hs, hn⟩
        · left
          intro d hd
          rcases List.mem_append.1 hd with hd | hd
          · exact ih d hd
          · rw [List.mem_singleton.1 hd]; exact hc
        · right
          refine ⟨a, s, n ++ [c], by simp, hs, fun d hd => ?_⟩
          rcases List.mem_append.1 hd with hd | hd
          · exact hn d hd
          · rw [List.mem_singleton.1 hd]; exact hc
  have sorted : ∀ n : List Nat, Ordered u.ccc n → (∀ c ∈ n, u.ccc c ≠ 0) → n.Pairwise fun x y => u.ccc x ≤ u.ccc y := by
    intro n h1 h2
    have h3 : n.IsChain fun x y => u.ccc x ≤ u.ccc y := by
      rw [ordered_iff_chain] at h1
      refine (List.IsChain.imp_of_mem_imp ?_ h1)
      intro a b _ hb hab
      have := h2 b hb
      omega
    have : IsTrans Nat fun x y => u.ccc x ≤ u.ccc y := ⟨fun _ _ _ h h' => Nat.le_trans h h'⟩
    exact List.isChain_iff_pairwise.1 h3
  -- Every string: the decomposition exists, and composing it gives the string.
  have main : ∀ k (x : List Nat), x.length ≤ k → Ordered u.ccc x → (∀ c ∈ x, Stable u c) →
      ∃ f, FullAll u.decomp x f ∧ Compose u.ccc (pairs u) [] (ord u.ccc f) x := by
    intro k
    induction k with
    | zero =>
      intro x hx _ _
      have : x = [] := List.length_eq_zero_iff.1 (by omega)
      subst this
      exact ⟨[], .nil, .nil⟩
    | succ k ih =>
      intro x hx ho hs
      rcases split x with hall | ⟨a, c, n, rfl, hc, hn⟩
      · obtain ⟨h1, h2⟩ := marks x hs hall
        refine ⟨x, h1, ?_⟩
        rw [ord_self ho]
        have : ∀ l y : List Nat, (∀ c ∈ l, Inert u c) → Compose u.ccc (pairs u) y l (y ++ l) := by
          intro l
          induction l with
          | nil => intro y _; simpa using Compose.nil
          | cons d l ih =>
            intro y hl
            have := ih (y ++ [d]) (fun e he => hl e (by simp [he]))
            refine .cons (.keep fun _ s' _ p' _ hs' _ _ => hl d (by simp) s' p' hs') ?_
            simpa using this
        exact this x [] (fun c hc => (h2 c hc).1)
      · obtain ⟨fa, h1, h2⟩ := ih a (by simp at hx; omega) ho.append_left (fun d hd => hs d (by simp [hd]))
        have hcn := ho.append_right
        obtain ⟨h3, h4⟩ := marks n (fun d hd => hs d (by simp [hd])) hn
        cases hs c (by simp) with
        | mark h5 => exact absurd hc h5
        | @starter s r _ h6 h7 h8 h9 =>
          refine ⟨fa ++ ((s :: r) ++ n), h1.append (.cons h6 h3), ?_⟩
          rw [List.cons_append, ord_starter h7]
          refine Compose.append h2 (.cons (.keep fun _ s' _ p' _ hs' _ _ => h8 s' p' hs') ?_)
          have h10 := ord_starter (ccc := u.ccc) h7 [] r
          simp only [List.nil_append, show ord u.ccc [] = [] from rfl] at h10
          rw [h10] at h9
          cases h9 with
          | cons h11 h12 =>
            have h13 : ∀ y, ComposeStep u.ccc (pairs u) [] s y → y = [s] := by
              intro y hy
              generalize hx : ([] : List Nat) = x at hy
              cases hy with
              | compose => simp at hx
              | keep => subst hx; rfl
            rw [h13 _ h11] at h12
            have h14 := mix_ord (compose_mix tb.toTable h12) (ord_ordered r) (sorted n hcn.tail hn) h4
            rw [ord_ord_append] at h14
            exact mix_compose tb.toTable h14 a h7 (by simp)
  obtain ⟨f, h1, h2⟩ := main _ x (Nat.le_refl _) ho hs
  exact ⟨ord u.ccc f, nfd_iff.2 ⟨f, h1, rfl⟩, h2⟩

end Verif.Unicode
