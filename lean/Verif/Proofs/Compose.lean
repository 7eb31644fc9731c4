import Verif.Proofs.Decompose

/-! Proofs about `charstr_unicode_recompose`: what its two stages compute is the composition of the standard. -/

namespace Verif.Unicode
open Verif.Utf8 Verif.Spec.Utf8 Verif.Spec.Unicode

/-- The pairs of the table. -/
abbrev pairs (u : Ucd) (s c p : Nat) : Prop := u.composite s c = some p

/-- The conjoining jamo taking part in composition, and the syllables. -/
def IsHangul (c : Nat) : Prop :=
  0x1100 ≤ c ∧ c < 0x1113 ∨ 0x1161 ≤ c ∧ c < 0x1176 ∨ 0x11A7 < c ∧ c < 0x11C3 ∨ 0xAC00 ≤ c ∧ c < 0xD7A4

instance (c : Nat) : Decidable (IsHangul c) := by unfold IsHangul; infer_instance

/-- What the composition relies on in the tables. -/
structure Table (u : Ucd) : Prop where
  starter : ∀ s c p, u.composite s c = some p → u.ccc s = 0 → u.ccc p = 0
  hangul : ∀ c, IsHangul c → u.ccc c = 0
  fst : ∀ s c p, u.composite s c = some p → ¬ IsHangul s
  snd : ∀ s c p, u.composite s c = some p → ¬ IsHangul c
  res : ∀ s c p, u.composite s c = some p → ¬ IsHangul p
  scalar : ∀ s c p, u.composite s c = some p → IsScalar p
  width : ∀ s c p, u.composite s c = some p → width p ≤ width s + width c

/-! ### The Hangul stage -/

/-- Composition of section 3.12. -/
inductive HC : Nat → Nat → Nat → Prop
  | lv {l v} : l < 19 → v < 21 → HC (0x1100 + l) (0x1161 + v) (syllable l v 0)
  | lvt {l v t} : l < 19 → v < 21 → 0 < t → t < 28 → HC (syllable l v 0) (0x11A7 + t) (syllable l v t)

theorem composite_iff {pc : Nat → Nat → Nat → Prop} {s c p : Nat} : Composite pc s c p ↔ pc s c p ∨ HC s c p := by
  constructor
  · intro h
    cases h with
    | table h => exact Or.inl h
    | lv h1 h2 => exact Or.inr (.lv h1 h2)
    | lvt h1 h2 h3 h4 => exact Or.inr (.lvt h1 h2 h3 h4)
  · rintro (h | h)
    · exact .table h
    · cases h with
      | lv h1 h2 => exact .lv h1 h2
      | lvt h1 h2 h3 h4 => exact .lvt h1 h2 h3 h4

theorem HC.hangul {n c p : Nat} (h : HC n c p) : IsHangul n ∧ IsHangul c ∧ IsHangul p := by
  cases h <;> simp only [IsHangul, syllable] <;> omega

theorem HC.unique {n c p p' : Nat} (h : HC n c p) (h' : HC n c p') : p = p' := by
  generalize hn : n = n' at h'
  generalize hc : c = c' at h'
  cases h <;> cases h' <;> simp only [syllable] at * <;> omega

/-- Not a second character of a Hangul composition. -/
theorem HC.second {n c p : Nat} (h : HC n c p) : 0x1161 ≤ c ∧ c < 0x1176 ∨ 0x11A7 < c ∧ c < 0x11C3 := by
  cases h <;> omega

theorem HC.width {n c p : Nat} (h : HC n c p) : (enc p).length ≤ (enc n).length + (enc c).length := by
  have hw : ∀ x, 0x1000 ≤ x → x < 0x10000 → (enc x).length = 3 := by
    intro x h1 h2
    rw [enc_length, Spec.Utf8.width, if_neg (by omega), if_neg (by omega), if_pos h2]
  have h3 := h.hangul
  simp only [IsHangul] at h3
  rw [hw n (by omega) (by omega), hw c (by omega) (by omega), hw p (by omega) (by omega)]
  omega

theorem hangulFeed_some (n c : Nat) : (∃ p, HC n c p ∧ hangulFeed (some n) c = (some p, none)) ∨
    (∀ p, ¬ HC n c p) ∧ hangulFeed (some n) c = (some c, some n) := by
  simp only [hangulFeed]
  split
  · rename_i h
    left
    have h1 : HC (0x1100 + (n - 0x1100)) (0x1161 + (c - 0x1161)) (syllable (n - 0x1100) (c - 0x1161) 0) := .lv (by omega) (by omega)
    rw [show 0x1100 + (n - 0x1100) = n by omega, show 0x1161 + (c - 0x1161) = c by omega] at h1
    have hv : (0xAC00 + (((n : Int) - 0x1100) * 21 + ((c : Int) - 0x1161)) * 28).toNat = syllable (n - 0x1100) (c - 0x1161) 0 := by
      simp only [syllable]; omega
    exact ⟨_, h1, by rw [hv]⟩
  · rename_i h
    split
    · rename_i h'
      obtain ⟨h2, h3, h4, h5, h6⟩ := h'
      rw [Int.tmod_eq_emod_of_nonneg h2] at h4
      left
      have h1 : HC (syllable ((n - 0xAC00) / 588) ((n - 0xAC00) % 588 / 28) 0) (0x11A7 + (c - 0x11A7))
        (syllable ((n - 0xAC00) / 588) ((n - 0xAC00) % 588 / 28) (c - 0x11A7)) := .lvt (by omega) (by omega) (by omega) (by omega)
      rw [show syllable ((n - 0xAC00) / 588) ((n - 0xAC00) % 588 / 28) 0 = n by simp only [syllable]; omega,
        show 0x11A7 + (c - 0x11A7) = c by omega] at h1
      have hv : ((n : Int) + ((c : Int) - 0x11A7)).toNat = syllable ((n - 0xAC00) / 588) ((n - 0xAC00) % 588 / 28) (c - 0x11A7) := by
        simp only [syllable]; omega
      exact ⟨_, h1, by rw [hv]⟩
    · rename_i h'
      right
      refine ⟨fun p hp => ?_, rfl⟩
      cases hp with
      | lv h1 h2 => exact h (by omega)
      | @lvt l v t h1 h2 h3 h4 =>
        apply h'
        simp only [syllable]
        refine ⟨by omega, by omega, ?_, by omega, by omega⟩
        rw [Int.tmod_eq_emod_of_nonneg (by omega)]
        omega

/-- One step of the Hangul stage: what has been put out, and the state. -/
def hstep (x : List Nat × Hangul) (c : Nat) : List Nat × Hangul :=
  match hangulFeed x.2 c with
  | (h, none) => (x.1, h)
  | (h, some n) => (x.1 ++ [n], h)

def hfold (l : List Nat) : List Nat × Hangul := l.foldl hstep ([], none)

def hflat (x : List Nat × Hangul) : List Nat := x.1 ++ x.2.toList

/-- The result of the Hangul stage. -/
def hg (l : List Nat) : List Nat := hflat (hfold l)

theorem hfold_snoc (l : List Nat) (c : Nat) : hfold (l ++ [c]) = hstep (hfold l) c := by simp [hfold]

theorem hstep_none (o : List Nat) (c : Nat) : hstep (o, none) c = (o, some c) := rfl

theorem hstep_some (o : List Nat) (n c : Nat) : (∃ p, HC n c p ∧ hstep (o, some n) c = (o, some p)) ∨
    (∀ p, ¬ HC n c p) ∧ hstep (o, some n) c = (o ++ [n], some c) := by
  simp only [hstep]
  rcases hangulFeed_some n c with ⟨p, h, e⟩ | ⟨h, e⟩
  · left; exact ⟨p, h, by rw [e]⟩
  · right; exact ⟨h, by rw [e]⟩

theorem hfold_last (l : List Nat) : (l = [] ∧ hfold l = ([], none)) ∨ l ≠ [] ∧ ∃ o n, hfold l = (o, some n) := by
  induction l using List.reverseRecOn with
  | nil => exact Or.inl ⟨rfl, rfl⟩
  | append_singleton l c ih =>
    right
    refine ⟨by simp, ?_⟩
    rw [hfold_snoc]
    rcases ih with ⟨_, h⟩ | ⟨_, o, n, h⟩
    · rw [h]; exact ⟨_, _, rfl⟩
    · rw [h]
      rcases hstep_some o n c with ⟨p, _, e⟩ | ⟨_, e⟩ <;> exact ⟨_, _, e⟩

theorem hg_snoc (l : List Nat) (c : Nat) : (∃ x n p, hg l = x ++ [n] ∧ HC n c p ∧ hg (l ++ [c]) = x ++ [p]) ∨
    (∀ x n p, hg l = x ++ [n] → ¬ HC n c p) ∧ hg (l ++ [c]) = hg l ++ [c] := by
  simp only [hg, hfold_snoc]
  rcases hfold_last l with ⟨_, h⟩ | ⟨_, o, n, h⟩
  · rw [h]
    right
    exact ⟨by intro x n p h; simp [hflat] at h, rfl⟩
  · rw [h]
    rcases hstep_some o n c with ⟨p, h1, e⟩ | ⟨h1, e⟩
    · left; exact ⟨o, n, p, rfl, h1, by rw [e]; rfl⟩
    · right
      refine ⟨?_, by rw [e]; simp [hflat]⟩
      intro x n' p hx
      simp only [hflat, Option.toList] at hx
      obtain ⟨_, h3⟩ := List.append_inj' hx rfl
      cases h3
      exact h1 p

theorem hg_nil : hg [] = [] := rfl

theorem hg_one {l : List Nat} {c : Nat} (h : ¬ IsHangul c) : hg (l ++ [c]) = hg l ++ [c] := by
  rcases hg_snoc l c with ⟨x, n, p, _, h1, _⟩ | ⟨_, h1⟩
  · exact absurd h1.hangul.2.1 h
  · exact h1

theorem hg_append {l b : List Nat} (h : ∀ c ∈ b, ¬ IsHangul c) : hg (l ++ b) = hg l ++ b := by
  induction b generalizing l with
  | nil => simp
  | cons c b ih =>
    rw [show l ++ c :: b = (l ++ [c]) ++ b by simp, ih (fun d hd => h d (by simp [hd])), hg_one (h c (by simp))]
    simp

theorem hg_back {l x : List Nat} {n : Nat} (h : hg l = x ++ [n]) (hn : ¬ IsHangul n) : ∃ l', l = l' ++ [n] ∧ hg l' = x := by
  induction l using List.reverseRecOn with
  | nil => rw [hg_nil] at h; simp at h
  | append_singleton l c _ =>
    rcases hg_snoc l c with ⟨x', n', p, h1, h2, h3⟩ | ⟨h1, h3⟩
    · rw [h] at h3
      obtain ⟨_, h4⟩ := List.append_inj' h3 rfl
      cases h4
      exact absurd h2.hangul.2.2 hn
    · rw [h] at h3
      obtain ⟨h5, h4⟩ := List.append_inj' h3 rfl
      cases h4
      exact ⟨l, rfl, h5.symm⟩

theorem hg_back_all {b : List Nat} : ∀ {l x : List Nat}, hg l = x ++ b → (∀ c ∈ b, ¬ IsHangul c) → ∃ l', l = l' ++ b ∧ hg l' = x := by
  induction b using List.reverseRecOn with
  | nil => intro l x h _; exact ⟨l, by simp, by simpa using h⟩
  | append_singleton b c ih =>
    intro l x h hb
    rw [← List.append_assoc] at h
    obtain ⟨l1, h1, h2⟩ := hg_back h (hb c (by simp))
    obtain ⟨l2, h3, h4⟩ := ih h2 (fun d hd => hb d (by simp [hd]))
    exact ⟨l2, by rw [h1, h3]; simp, h4⟩

/-- What has been put out stays. -/
theorem hfold_mono (l m : List Nat) : ∃ w, (hfold (l ++ m)).1 = (hfold l).1 ++ w := by
  induction m using List.reverseRecOn with
  | nil => exact ⟨[], by simp⟩
  | append_singleton m c ih =>
    obtain ⟨w, ih⟩ := ih
    rw [← List.append_assoc, hfold_snoc]
    rcases hx : hfold (l ++ m) with ⟨o, h⟩
    rw [hx] at ih
    simp only at ih
    cases h with
    | none => exact ⟨w, by rw [hstep_none]; exact ih⟩
    | some n =>
      rcases hstep_some o n c with ⟨p, _, e⟩ | ⟨_, e⟩
      · exact ⟨w, by rw [e]; exact ih⟩
      · exact ⟨w ++ [n], by rw [e]; simp [ih]⟩

/-! ### The first stage -/

/-- What has been passed on, and the starter with the characters after it. -/
abbrev G := List Nat × Option (Nat × List Nat)

def gflat : G → List Nat
  | (e, none) => e
  | (e, some (s, b)) => e ++ s :: b

def gstep (u : Ucd) : G → Nat → G
  | (e, none), c => if u.ccc c ≠ 0 then (e ++ [c], none) else (e, some (c, []))
  | (e, some (s, b)), c =>
    match if blocked u b (u.ccc c) then none else u.composite s c with
    | some p => (e, some (p, b))
    | none => if u.ccc c ≠ 0 then (e, some (s, b ++ [c])) else (e ++ s :: b, some (c, []))

def grun (u : Ucd) (g : G) (l : List Nat) : G := l.foldl (gstep u) g

/-- Starters and non-starters are where they belong. -/
def GInv (u : Ucd) : G → Prop
  | (e, none) => ∀ c ∈ e, u.ccc c ≠ 0
  | (_, some (s, b)) => u.ccc s = 0 ∧ ∀ c ∈ b, u.ccc c ≠ 0

theorem blocked_iff (u : Ucd) (b : List Nat) (c : Nat) : blocked u b c = true ↔ ∃ x ∈ b, u.ccc x ≥ c := by
  induction b with
  | nil => simp [blocked]
  | cons a b ih =>
    simp only [blocked]
    split
    · rename_i h; simp [h]
    · rename_i h; simp [ih, h]

theorem blocked_spec {u : Ucd} {b : List Nat} {c : Nat} (hb : ∀ x ∈ b, u.ccc x ≠ 0) : blocked u b (u.ccc c) = true ↔ Blocked u.ccc b c := by
  rw [blocked_iff]
  constructor
  · rintro ⟨x, h1, h2⟩; exact ⟨x, h1, Or.inr h2⟩
  · rintro ⟨x, h1, h2 | h2⟩
    · exact absurd h2 (hb x h1)
    · exact ⟨x, h1, h2⟩

theorem last_unique {ccc : Nat → Nat} {a a' b b' : List Nat} {s s' : Nat} (h : a ++ s :: b = a' ++ s' :: b') (hs : ccc s = 0) (hs' : ccc s' = 0)
    (hb : ∀ x ∈ b, ccc x ≠ 0) (hb' : ∀ x ∈ b', ccc x ≠ 0) : a = a' ∧ s = s' ∧ b = b' := by
  rcases List.append_eq_append_iff.1 h with ⟨w, h1, h2⟩ | ⟨w, h1, h2⟩
  · cases w with
    | nil => simp only [List.nil_append, List.cons.injEq, List.append_nil] at h1 h2; exact ⟨h1.symm, h2.1, h2.2⟩
    | cons x w =>
      simp only [List.cons_append, List.cons.injEq] at h2
      exact absurd hs' (hb s' (by rw [h2.2]; simp))
  · cases w with
    | nil => simp only [List.nil_append, List.cons.injEq, List.append_nil] at h1 h2; exact ⟨h1, h2.1.symm, h2.2.symm⟩
    | cons x w =>
      simp only [List.cons_append, List.cons.injEq] at h2
      exact absurd hs (hb' s (by rw [h2.2]; simp))

theorem GInv.last {u : Ucd} {g : G} (h : GInv u g) {a b : List Nat} {s : Nat} (he : gflat g = a ++ s :: b) (hs : u.ccc s = 0)
    (hb : ∀ x ∈ b, u.ccc x ≠ 0) : g = (a, some (s, b)) := by
  obtain ⟨e, cur⟩ := g
  cases cur with
  | none =>
    simp only [gflat] at he
    exact absurd hs (h s (by rw [he]; simp))
  | some x =>
    obtain ⟨s', b'⟩ := x
    simp only [gflat] at he
    obtain ⟨rfl, rfl, rfl⟩ := last_unique he h.1 hs h.2 hb
    rfl

theorem gstep_inv {u : Ucd} (t : Table u) {g : G} (h : GInv u g) (c : Nat) : GInv u (gstep u g c) := by
  obtain ⟨e, cur⟩ := g
  cases cur with
  | none =>
    simp only [gstep]
    split
    · rename_i hc
      intro d hd
      rcases List.mem_append.1 hd with hd | hd
      · exact h d hd
      · rw [List.mem_singleton.1 hd]; exact hc
    · rename_i hc
      exact ⟨by simpa using hc, by simp⟩
  | some x =>
    obtain ⟨s, b⟩ := x
    simp only [gstep]
    split
    · rename_i p hp
      split at hp
      · cases hp
      · exact ⟨t.starter _ _ _ hp h.1, h.2⟩
    · split
      · rename_i hc
        refine ⟨h.1, fun d hd => ?_⟩
        rcases List.mem_append.1 hd with hd | hd
        · exact h.2 d hd
        · rw [List.mem_singleton.1 hd]; exact hc
      · rename_i hc
        exact ⟨by simpa using hc, by simp⟩

theorem Table.notHangul {u : Ucd} (t : Table u) {c : Nat} (h : u.ccc c ≠ 0) : ¬ IsHangul c := fun hc => h (t.hangul c hc)

/-- How the first stage handles a character: it composes, or it appends. -/
theorem gstep_flat {u : Ucd} {g : G} (h : GInv u g) (c : Nat) :
    (∃ e s b p, g = (e, some (s, b)) ∧ ¬ Blocked u.ccc b c ∧ u.composite s c = some p ∧ gstep u g c = (e, some (p, b))) ∨
    (∀ e s b p, g = (e, some (s, b)) → ¬ Blocked u.ccc b c → u.composite s c ≠ some p) ∧ gflat (gstep u g c) = gflat g ++ [c] := by
  obtain ⟨e, cur⟩ := g
  cases cur with
  | none =>
    right
    refine ⟨by intro e s b p h; simp at h, ?_⟩
    simp only [gstep]
    split <;> simp [gflat]
  | some x =>
    obtain ⟨s, b⟩ := x
    simp only [gstep]
    by_cases hbl : blocked u b (u.ccc c) = true
    · right
      refine ⟨?_, ?_⟩
      · intro e' s' b' p he hnb
        simp only [Prod.mk.injEq, Option.some.injEq] at he
        obtain ⟨rfl, rfl, rfl⟩ := he
        exact absurd ((blocked_spec h.2).1 hbl) hnb
      · rw [if_pos hbl]
        simp only []
        split <;> simp [gflat]
    · rw [if_neg hbl]
      cases hp : u.composite s c with
      | some p =>
        left
        exact ⟨e, s, b, p, rfl, fun hb => hbl ((blocked_spec h.2).2 hb), hp, rfl⟩
      | none =>
        right
        refine ⟨?_, ?_⟩
        · intro e' s' b' p he hnb
          simp only [Prod.mk.injEq, Option.some.injEq] at he
          obtain ⟨rfl, rfl, rfl⟩ := he
          rw [hp]; simp
        · simp only []
          split <;> simp [gflat]

/-- Both stages together make a step of the standard. -/
theorem gstep_compose {u : Ucd} (t : Table u) {g : G} (h : GInv u g) (c : Nat) :
    ComposeStep u.ccc (pairs u) (hg (gflat g)) c (hg (gflat (gstep u g c))) := by
  rcases gstep_flat h c with ⟨e, s, b, p, rfl, hnb, hp, heq⟩ | ⟨hno, heq⟩
  · rw [heq]
    simp only [gflat]
    have hb : ∀ x ∈ b, ¬ IsHangul x := fun x hx => t.notHangul (h.2 x hx)
    rw [hg_append (b := s :: b), hg_append (b := p :: b)]
    · exact .compose h.1 h.2 hnb (.table hp)
    · intro x hx
      rcases List.mem_cons.1 hx with rfl | hx
      · exact t.res _ _ _ hp
      · exact hb x hx
    · intro x hx
      rcases List.mem_cons.1 hx with rfl | hx
      · exact t.fst _ _ _ hp
      · exact hb x hx
  · rw [heq]
    rcases hg_snoc (gflat g) c with ⟨x, n, p, h1, h2, h3⟩ | ⟨h1, h3⟩
    · rw [h1, h3]
      refine .compose (a := x) (b := []) (t.hangul n h2.hangul.1) (by simp) ?_ (composite_iff.2 (Or.inr h2))
      rintro ⟨y, hy, _⟩
      simp at hy
    · rw [h3]
      refine .keep ?_
      intro a s b p he hs hb hnb hp
      rcases composite_iff.1 hp with hp | hp
      · have hall : ∀ x ∈ s :: b, ¬ IsHangul x := by
          intro x hx
          rcases List.mem_cons.1 hx with rfl | hx
          · exact t.fst _ _ _ hp
          · exact t.notHangul (hb x hx)
        obtain ⟨l', h4, h5⟩ := hg_back_all he hall
        exact hno _ _ _ _ (h.last h4 hs hb) hnb hp
      · have hc0 : u.ccc c = 0 := t.hangul c hp.hangul.2.1
        cases b with
        | nil => exact h1 a s p he hp
        | cons x b => exact hnb ⟨x, by simp, Or.inr (by omega)⟩

theorem grun_inv {u : Ucd} (t : Table u) {g : G} (h : GInv u g) (l : List Nat) : GInv u (grun u g l) := by
  induction l generalizing g with
  | nil => exact h
  | cons c l ih => exact ih (gstep_inv t h c)

theorem grun_compose {u : Ucd} (t : Table u) {g : G} (h : GInv u g) (l : List Nat) :
    Compose u.ccc (pairs u) (hg (gflat g)) l (hg (gflat (grun u g l))) := by
  induction l generalizing g with
  | nil => exact .nil
  | cons c l ih => exact .cons (gstep_compose t h c) (ih (gstep_inv t h c))

/-- What the two stages compute of a string. -/
def comp (u : Ucd) (l : List Nat) : List Nat := hg (gflat (grun u ([], none) l))

theorem ginv_nil (u : Ucd) : GInv u ([], none) := by intro c hc; simp at hc

theorem comp_compose {u : Ucd} (t : Table u) (l : List Nat) : Compose u.ccc (pairs u) [] l (comp u l) :=
  grun_compose t (ginv_nil u) l

theorem composite_unique {u : Ucd} (t : Table u) {s c p p' : Nat} (h : Composite (pairs u) s c p) (h' : Composite (pairs u) s c p') : p = p' := by
  rcases composite_iff.1 h with h | h <;> rcases composite_iff.1 h' with h' | h'
  · rw [pairs] at h h'; rw [h] at h'; exact Option.some.inj h'
  · exact absurd h'.hangul.1 (t.fst _ _ _ h)
  · exact absurd h.hangul.1 (t.fst _ _ _ h')
  · exact h.unique h'

theorem step_unique {u : Ucd} (t : Table u) {x y y' : List Nat} {c : Nat} (h : ComposeStep u.ccc (pairs u) x c y)
    (h' : ComposeStep u.ccc (pairs u) x c y') : y = y' := by
  cases h with
  | @compose a s b _ p h1 h2 h3 h4 =>
    generalize hx : a ++ s :: b = x at h'
    cases h' with
    | compose h5 h6 h7 h8 =>
      obtain ⟨rfl, rfl, rfl⟩ := last_unique hx h1 h5 h2 h6
      rw [composite_unique t h4 h8]
    | keep h5 => exact absurd h4 (h5 _ _ _ _ hx.symm h1 h2 h3)
  | keep h1 =>
    cases h' with
    | compose h5 h6 h7 h8 => exact absurd h8 (h1 _ _ _ _ rfl h5 h6 h7)
    | keep _ => rfl

theorem compose_unique {u : Ucd} (t : Table u) {x l y : List Nat} (h : Compose u.ccc (pairs u) x l y) :
    ∀ {y'}, Compose u.ccc (pairs u) x l y' → y = y' := by
  induction h with
  | nil => intro y' h; cases h; rfl
  | cons h1 _ ih =>
    intro y' h
    cases h with
    | cons h3 h4 =>
      have := step_unique t h1 h3
      subst this
      exact ih h4

theorem compose_iff {u : Ucd} (t : Table u) {l y : List Nat} : Compose u.ccc (pairs u) [] l y ↔ y = comp u l :=
  ⟨fun h => compose_unique t h (comp_compose t l), fun h => h ▸ comp_compose t l⟩

theorem Compose.append {ccc : Nat → Nat} {pc : Nat → Nat → Nat → Prop} {x l y m z : List Nat} (h : Compose ccc pc x l y) (h' : Compose ccc pc y m z) :
    Compose ccc pc x (l ++ m) z := by
  induction h with
  | nil => exact h'
  | cons h1 _ ih => exact .cons h1 (ih h')

end Verif.Unicode
