import Verif.Spec.Utf8

/-!
Specification of Unicode normalization (The Unicode Standard 13.0, sections 3.11 and 3.12), independent of the code.

The character data are parameters: the decomposition mapping `dm`, the canonical combining class `ccc` and the pairs `pc s c p` making up a
primary composite other than a Hangul syllable.
-/

namespace Verif.Spec.Unicode

/-- The text an input pointer stands for: the bytes before the first NUL or before `end`, whichever comes first. `s` are the bytes from the
pointer to the end of its object, `lim` is the distance of `end`, if there is one; `end` is not outside the object. -/
def Input (p : List UInt8 × Option Nat) (t : List UInt8) : Prop :=
  ∃ r, p.1 = t ++ r ∧ (0 : UInt8) ∉ t ∧ (p.2 = some t.length ∨ (∃ r', r = 0 :: r') ∧ ∀ n, p.2 = some n → t.length ≤ n ∧ n ≤ p.1.length)

/-- Reading encodings accepted by `A` from left to right: the code points read, and whether the text was read to its end. -/
inductive Scan (A : List UInt8 → Nat → Prop) : List UInt8 → List Nat → Bool → Prop
  | nil : Scan A [] [] true
  | bad {t} : t ≠ [] → (∀ p cp r, A p cp → t ≠ p ++ r) → Scan A t [] false
  | cons {p cp r cps b} : A p cp → Scan A r cps b → Scan A (p ++ r) (cp :: cps) b

/-- Section 3.12: the syllable with indices `l`, `v` and `t`. -/
def syllable (l v t : Nat) : Nat := 0xAC00 + (l * 21 + v) * 28 + t

/-- Section 3.12: the jamo with these indices; `t = 0` stands for no trailing consonant. -/
def jamo (l v t : Nat) : List Nat := if t = 0 then [0x1100 + l, 0x1161 + v] else [0x1100 + l, 0x1161 + v, 0x11A7 + t]

/-- The code point is a precomposed Hangul syllable. -/
def IsSyllable (cp : Nat) : Prop := ∃ l v t, l < 19 ∧ v < 21 ∧ t < 28 ∧ cp = syllable l v t

mutual
/-- D68 without the reordering: apply the mappings until no character has one. -/
inductive Full (dm : Nat → Option (List Nat)) : Nat → List Nat → Prop
  | mapped {cp l d} : dm cp = some l → FullAll dm l d → Full dm cp d
  | hangul {l v t} : dm (syllable l v t) = none → l < 19 → v < 21 → t < 28 → Full dm (syllable l v t) (jamo l v t)
  | self {cp} : dm cp = none → ¬ IsSyllable cp → Full dm cp [cp]
/-- The same for each character of a string. -/
inductive FullAll (dm : Nat → Option (List Nat)) : List Nat → List Nat → Prop
  | nil : FullAll dm [] []
  | cons {cp cps a b} : Full dm cp a → FullAll dm cps b → FullAll dm (cp :: cps) (a ++ b)
end

/-- D108, D109: exchange of a reorderable pair. -/
inductive Exchange (ccc : Nat → Nat) : List Nat → List Nat → Prop
  | mk {x y a b} : ccc a > ccc b → ccc b > 0 → Exchange ccc (x ++ a :: b :: y) (x ++ b :: a :: y)

/-- Any number of exchanges. -/
inductive Exchanges (ccc : Nat → Nat) : List Nat → List Nat → Prop
  | refl {x} : Exchanges ccc x x
  | step {x y z} : Exchange ccc x y → Exchanges ccc y z → Exchanges ccc x z

/-- No reorderable pair is left. -/
def Ordered (ccc : Nat → Nat) (l : List Nat) : Prop := ∀ x a b y, l = x ++ a :: b :: y → ¬ (ccc a > ccc b ∧ ccc b > 0)

/-- D68, D118: `y` is the canonical decomposition (normalization form D) of `x`. -/
def NFD (dm : Nat → Option (List Nat)) (ccc : Nat → Nat) (x y : List Nat) : Prop :=
  ∃ d, FullAll dm x d ∧ Exchanges ccc d y ∧ Ordered ccc y

/-- D114: `p` is the primary composite of `s` and `c`, by the table or by section 3.12. -/
inductive Composite (pc : Nat → Nat → Nat → Prop) : Nat → Nat → Nat → Prop
  | table {s c p} : pc s c p → Composite pc s c p
  | lv {l v} : l < 19 → v < 21 → Composite pc (0x1100 + l) (0x1161 + v) (syllable l v 0)
  | lvt {l v t} : l < 19 → v < 21 → 0 < t → t < 28 → Composite pc (syllable l v 0) (0x11A7 + t) (syllable l v t)

/-- D115: with `b` between a starter and `c`, `c` is blocked from the starter. -/
def Blocked (ccc : Nat → Nat) (b : List Nat) (c : Nat) : Prop := ∃ x ∈ b, ccc x = 0 ∨ ccc x ≥ ccc c

/-- D117, one step: `c` follows the string `x` that has already been composed. It is composed with the last starter if it can be. -/
inductive ComposeStep (ccc : Nat → Nat) (pc : Nat → Nat → Nat → Prop) : List Nat → Nat → List Nat → Prop
  | compose {a s b c p} : ccc s = 0 → (∀ x ∈ b, ccc x ≠ 0) → ¬ Blocked ccc b c → Composite pc s c p →
      ComposeStep ccc pc (a ++ s :: b) c (a ++ p :: b)
  | keep {x c} : (∀ a s b p, x = a ++ s :: b → ccc s = 0 → (∀ x ∈ b, ccc x ≠ 0) → ¬ Blocked ccc b c → ¬ Composite pc s c p) →
      ComposeStep ccc pc x c (x ++ [c])

/-- D117 from the left to the right: `Compose x l y` if composing `l` after the composed `x` yields `y`. -/
inductive Compose (ccc : Nat → Nat) (pc : Nat → Nat → Nat → Prop) : List Nat → List Nat → List Nat → Prop
  | nil {x} : Compose ccc pc x [] x
  | cons {x c x' l y} : ComposeStep ccc pc x c x' → Compose ccc pc x' l y → Compose ccc pc x (c :: l) y

/-- D120: `y` is the normalization form C of `x`. -/
def NFC (dm : Nat → Option (List Nat)) (ccc : Nat → Nat) (pc : Nat → Nat → Nat → Prop) (x y : List Nat) : Prop :=
  ∃ d, NFD dm ccc x d ∧ Compose ccc pc [] d y

/-- Composing some beginning of the string leaves a starter followed by more than `n` non-starters. -/
def Excess (ccc : Nat → Nat) (pc : Nat → Nat → Nat → Prop) (n : Nat) (x : List Nat) : Prop :=
  ∃ l m a s b, x = l ++ m ∧ Compose ccc pc [] l (a ++ s :: b) ∧ ccc s = 0 ∧ (∀ c ∈ b, ccc c ≠ 0) ∧ b.length > n

/-- The UTF-8 encoding of a string. -/
def encs (cps : List Nat) : List UInt8 := cps.flatMap Verif.Spec.Utf8.enc

end Verif.Spec.Unicode
