import Verif.Spec.Charstr
import Verif.Spec.Utf8
import Verif.Spec.Url
import Verif.Spec.Base64
import Mathlib.Logic.Function.Basic
import Mathlib.Data.List.Forall2

/-!
Programs on strings as their user sees them: every function that makes a string hands out a new block that belongs to the user until it is freed.
Nothing here mentions memory, except the blocks of the user's own that calls read from. A block has its text and a NUL; only a custom URL encoder
adds two bytes for each percent sign that is left as it is.
-/

namespace Verif.Spec.Strings
set_option autoImplicit false

/-- The text at the start of some bytes. -/
def text (c : List UInt8) : List UInt8 := c.takeWhile (· ≠ 0)

/-- White space as the classes of characters have it: codes 8 to 11 and 32. The documentation differs (C54). -/
def blank (c : UInt8) : Bool := c = 32 || c = 8 || c = 9 || c = 10 || c = 11

/-- The functions that make one string from one: `charstr_dupstr`, `charstr_dupsubstr` of `n` bytes, `charstr_strip`, `charstr_sanitize_utf8`,
`charstr_url_encode`, `charstr_url_decode`, `base64_encode_simple` of `n` bytes, `base64_decode_simple`. -/
inductive Fn
  | dup
  | dupsub (n : Nat)
  | strip
  | sanitize
  | urlEncode
  | urlDecode (plusIsSpace : Bool)
  | base64Encode (n : Nat)
  | base64Decode

/-- What must be readable from the pointer on: a text and its NUL, or `n` bytes. No block of memory has 2^63 bytes. -/
def Fn.needs (bs : List UInt8) : Fn → Prop
  | .dupsub n => n ≤ bs.length
  | .base64Encode n => n ≤ bs.length ∧ n < 2 ^ 63
  | .base64Decode => 0 ∈ bs ∧ bs.length < 2 ^ 63
  | _ => 0 ∈ bs

/-- Whether the function also stores the length of the result. -/
def Fn.sized : Fn → Bool
  | .urlDecode _ | .base64Decode => true
  | _ => false

/-- How the default URL encoder writes a byte: as documented, but for `"`, `}` and `]` (C63). -/
def plain (c : UInt8) : List UInt8 := if c = 34 ∨ c = 125 then [c] else if c = 93 then Url.pct c else Url.documented c

/-- How an encoder with reserved and unreserved characters writes a byte. -/
def custom (reserve unreserve : List UInt8) (c : UInt8) : List UInt8 :=
  if c ∈ unreserve then [c] else if c ∈ reserve then Url.pct c else plain c

/-- The text that the function makes of the bytes at its argument; `none` is NULL. -/
def Fn.Out (bs : List UInt8) : Fn → Option (List UInt8) → Prop
  | .dup, r => r = some (text bs)
  | .dupsub n, r => r = some (bs.take n)
  | .strip, r => ∃ t, r = some t ∧ Charstr.Stripped blank (text bs) t
  | .sanitize, r => ∃ t, r = some t ∧ Utf8.Sanitized Utf8.Loose (text bs) t
  | .urlEncode, r => r = some ((text bs).flatMap plain)
  | .urlDecode plus, r => r = Url.denote plus (text bs)
  | .base64Encode n, r => r = some (Base64.encode 43 47 (bs.take n))
  | .base64Decode, r => (∀ d, Base64.Valid 43 47 true (text bs) d → r = some d) ∧
      ((127 : UInt8) ∉ text bs → (255 : UInt8) ∉ text bs → (¬ ∃ d, Base64.Valid 43 47 true (text bs) d) → r = none)

/-- The functions that make many strings from one: `charstr_split`, `charstr_split_into_array`, `charstr_split_atoms`, `charstr_split_str`. -/
inductive SplitFn
  | split (d : UInt8) (max : Nat)
  | intoArray (d : UInt8) (max : Nat)
  | atoms
  | str (a off max : Nat)

/-- A part of a format: fixed text, or `%s` with its argument. -/
inductive Part
  | lit (t : List UInt8)
  | str (a off : Nat)

/-- The calls. A string argument is a pointer to a block and an offset into it. What new memory holds is part of the call and means nothing here. -/
inductive Op
  /-- one of the functions `Fn` -/
  | make (junk : Nat → UInt8) (fn : Fn) (a off : Nat)
  /-- one of the functions `SplitFn`; the strings are taken from the list or array, which is then destroyed -/
  | split (fn : SplitFn) (a off : Nat)
  /-- `charstr_printf` -/
  | printf (junk : Nat → UInt8) (parts : List Part)
  /-- `charstr_create_url_encoder` -/
  | makeEncoder (r roff u uoff : Nat)
  /-- `charstr_url_custom_encode` -/
  | customEncode (junk : Nat → UInt8) (e a off : Nat)
  /-- `charstr_destroy_url_encoder` -/
  | destroyEncoder (e : Nat)
  /-- `charstr_lcase_str` and `charstr_ucase_str` -/
  | recase (up : Bool) (p off : Nat)
  /-- `charstr_lcase_substr` and `charstr_ucase_substr` of `n` bytes -/
  | recaseSub (up : Bool) (p off n : Nat)
  /-- the user stores a byte -/
  | poke (p i : Nat) (c : UInt8)
  /-- the user looks at a block -/
  | look (p : Nat)
  /-- `fsfree` -/
  | free (p : Nat)

/-- What a call returns. -/
inductive Res
  | unit
  | ptr (p : Nat) (size : Option Nat)
  | ptrs (ps : List Nat)
  | bytes (b : List UInt8)
  deriving DecidableEq

/-- A block made by a call. -/
inductive Thing
  | string (b : List UInt8)
  | encoder (f : UInt8 → List UInt8)

/-- The blocks that belong to the user, by pointer. -/
abbrev State := Nat → Option Thing

variable (ext : Nat → Option (List UInt8)) (s : State)

/-- The bytes that can be read from a pointer on, in a block made by a call or in the user's own memory. -/
def Reads (a off : Nat) (bs : List UInt8) : Prop :=
  ∃ b, (s a = some (.string b) ∨ ext a = some b) ∧ off ≤ b.length ∧ bs = b.drop off

/-- A C string can be read. -/
def HasText (a off : Nat) : Prop := ∃ bs, Reads ext s a off bs ∧ 0 ∈ bs

def splitOk : SplitFn → Prop
  | .split d _ | .intoArray d _ => d ≠ 0
  | .atoms => True
  | .str a off _ => HasText ext s a off

/-- What the caller has to see to. -/
def ok : Op → Prop
  | .make _ fn a off => ∃ bs, Reads ext s a off bs ∧ fn.needs bs
  | .split fn a off => HasText ext s a off ∧ splitOk ext s fn
  | .printf _ parts => ∀ a off, .str a off ∈ parts → HasText ext s a off
  | .makeEncoder r roff u uoff => HasText ext s r roff ∧ HasText ext s u uoff
  | .customEncode _ e a off => HasText ext s a off ∧ ∃ f, s e = some (.encoder f)
  | .destroyEncoder e => ∃ f, s e = some (.encoder f)
  | .recase _ p off => ∃ b, s p = some (.string b) ∧ 0 ∈ b.drop off
  | .recaseSub _ p off n => ∃ b, s p = some (.string b) ∧ off + n ≤ b.length
  | .poke p i _ => ∃ b, s p = some (.string b) ∧ i < b.length
  | .look p => ∃ b, s p = some (.string b)
  | .free p => p = 0 ∨ ∃ b, s p = some (.string b)

/-- The pieces of a text. -/
def Pieces (t : List UInt8) : SplitFn → List (List UInt8) → Prop
  | .split d max, ps | .intoArray d max, ps => Charstr.Split d max t ps
  | .atoms, ps => Charstr.Atoms blank t ps
  | .str a off max, ps => ∃ bs, Reads ext s a off bs ∧ 0 ∈ bs ∧ Charstr.SplitStr (text bs) max t ps

/-- The text that a format denotes. -/
inductive Prints : List Part → List UInt8 → Prop
  | nil : Prints [] []
  | lit {t parts u} : Prints parts u → Prints (.lit t :: parts) (t ++ u)
  | str {a off bs parts u} : Reads ext s a off bs → 0 ∈ bs → Prints parts u → Prints (.str a off :: parts) (text bs ++ u)

/-- A pointer that is new to the user. -/
def Fresh (p : Nat) : Prop := p ≠ 0 ∧ s p = none ∧ ext p = none

/-- The case of a letter. -/
def recase (up : Bool) : UInt8 → UInt8 := if up then Charstr.upper else Charstr.lower

open Function (update)

/-- What a call may return, and what it leaves. -/
inductive Step : Op → Res → State → Prop
  | make {junk fn a off bs t p} : Reads ext s a off bs → fn.needs bs → fn.Out bs (some t) → Fresh ext s p →
      Step (.make junk fn a off) (.ptr p (if fn.sized then some t.length else none)) (update s p (some (.string (t ++ [0]))))
  | makeNull {junk fn a off bs} : Reads ext s a off bs → fn.needs bs → fn.Out bs none → Step (.make junk fn a off) (.ptr 0 none) s
  | split {fn a off bs ts ps s'} : Reads ext s a off bs → 0 ∈ bs → Pieces ext s (text bs) fn ts → ps.Nodup → (∀ p ∈ ps, Fresh ext s p) →
      List.Forall₂ (fun p t => s' p = some (.string (t ++ [0]))) ps ts → (∀ x, x ∉ ps → s' x = s x) → Step (.split fn a off) (.ptrs ps) s'
  | printf {junk parts t p} : Prints ext s parts t → t.length < 2 ^ 31 → Fresh ext s p →
      Step (.printf junk parts) (.ptr p none) (update s p (some (.string (t ++ [0]))))
  | printfNull {junk parts t} : Prints ext s parts t → 2 ^ 31 ≤ t.length → Step (.printf junk parts) (.ptr 0 none) s
  | makeEncoder {r roff u uoff rs us p} : Reads ext s r roff rs → 0 ∈ rs → Reads ext s u uoff us → 0 ∈ us → Fresh ext s p →
      Step (.makeEncoder r roff u uoff) (.ptr p none) (update s p (some (.encoder (custom (text rs) (text us)))))
  | customEncode {junk e a off f bs rest p} : s e = some (.encoder f) → Reads ext s a off bs → 0 ∈ bs →
      rest.length = 2 * (text bs).countP (f · = [37]) → Fresh ext s p →
      Step (.customEncode junk e a off) (.ptr p none) (update s p (some (.string ((text bs).flatMap f ++ 0 :: rest))))
  | destroyEncoder {e f} : s e = some (.encoder f) → Step (.destroyEncoder e) .unit (update s e none)
  | recase {up p off pre t u} : s p = some (.string (pre ++ t ++ 0 :: u)) → pre.length = off → 0 ∉ t →
      Step (.recase up p off) .unit (update s p (some (.string (pre ++ t.map (recase up) ++ 0 :: u))))
  | recaseSub {up p off n pre t u} : s p = some (.string (pre ++ t ++ u)) → pre.length = off → t.length = n →
      Step (.recaseSub up p off n) .unit (update s p (some (.string (pre ++ t.map (recase up) ++ u))))
  | poke {p i c b} : s p = some (.string b) → Step (.poke p i c) .unit (update s p (some (.string (b.set i c))))
  | look {p b} : s p = some (.string b) → Step (.look p) (.bytes b) s
  | free {p b} : s p = some (.string b) → Step (.free p) .unit (update s p none)
  | freeNull : Step (.free 0) .unit s

end Verif.Spec.Strings
