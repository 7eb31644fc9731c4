import Verif.Base.Diverge
import Verif.Base.Chars

/-!
Meaning of C source text, for the part of the language in which some of the files of `/repo/src` are written by hand: a lexer (6.4 of the C standard), a parser
(6.5, 6.7, 6.8, 6.9) and a semantics with the integer types of LP64, their promotions and conversions, pointers into named objects, structures, assignments
inside expressions and loops. A source file is the list of its lines. Directives are skipped; what the included headers define is a parameter. `const` does not
matter here. Operands are evaluated from left to right; in the texts at hand no result depends on it. What lies outside this part of the language is refused.
-/

set_option autoImplicit false

namespace Verif.Spec.CSource

abbrev Str := List Char

/-! ## Lexer -/

inductive Tok
  | op (s : Str)
  | id (x : Str)
  | num (n : Nat) (unsigned long : Bool)
  | str (bs : List Nat)
  deriving DecidableEq, Repr

def isDigit (c : Char) : Bool := 48 ≤ c.toNat && c.toNat ≤ 57

/-- Letters, digits and the underscore. -/
def isWord (c : Char) : Bool := isDigit c || (65 ≤ c.toNat && c.toNat ≤ 90) || (97 ≤ c.toNat && c.toNat ≤ 122) || c.toNat == 95

/-- The value of a digit in base `b`. -/
def digit (b : Nat) (c : Char) : Option Nat :=
  let n := c.toNat
  let v := if 48 ≤ n ∧ n ≤ 57 then n - 48 else if 97 ≤ n ∧ n ≤ 102 then n - 87 else if 65 ≤ n ∧ n ≤ 70 then n - 55 else 99
  if v < b then some v else none

/-- The number at the start of `s` in base `b`, after `a` for the digits before, and the suffix that follows. -/
def number (b : Nat) (a : Nat) : Str → Nat × Str
  | [] => (a, [])
  | c :: s => match digit b c with
    | none => (a, c :: s)
    | some d => number b (a * b + d) s

/-- An integer constant (6.4.4.1): hexadecimal, octal or decimal, with a suffix. -/
def constant (w : Str) : Option Tok :=
  let (n, suffix) := match w with
    | '0' :: 'x' :: s => number 16 0 s
    | '0' :: s => number 8 0 s
    | s => number 10 0 s
  if suffix = [] then some (.num n false false)
  else if suffix = c!"U" then some (.num n true false)
  else if suffix = c!"L" then some (.num n false true)
  else if suffix = c!"UL" then some (.num n true true)
  else if suffix = c!"LL" then some (.num n false true)
  else if suffix = c!"ULL" then some (.num n true true)
  else none

/-- A maximal run of letters, digits and underscores. -/
def word (w : Str) : Option Tok :=
  match w with
  | [] => none
  | c :: _ => if isDigit c then constant w else some (.id w)

/-- Punctuators of one, two and three characters. -/
def one : List Char := c!"[](){}.&*+-~!/%<>^|?:;=,"
def two : List Str := [c!"->", c!"++", c!"--", c!"<<", c!">>", c!"<=", c!">=", c!"==", c!"!=", c!"&&", c!"||", c!"*=", c!"/=", c!"%=", c!"+=", c!"-=", c!"&=", c!"^=", c!"|="]
def three : List Str := [c!"<<=", c!">>="]

/-- Where the lexer is in a line: between tokens, in a word (in reverse), in a punctuator, in a string (in reverse), in a comment, in a comment behind a star,
in a comment that lasts to the end of the line or in a directive. -/
inductive At
  | free
  | word (w : Str)
  | op (s : Str)
  | string (bs : List Nat)
  | comment
  | star
  | rest
  deriving DecidableEq, Repr

/-- A character between tokens. -/
def start (c : Char) : Option At :=
  if c = ' ' ∨ c = '\t' then some .free
  else if isWord c then some (.word [c])
  else if c = '"' then some (.string [])
  else if c = '#' then some .rest
  else if c ∈ one then some (.op [c])
  else none

/-- A character behind a token. -/
def after (t : Tok) (c : Char) : Option (List Tok × At) := (start c).map fun s => ([t], s)

/-- One character. The longest sequence of characters that can make up a token is one (6.4). There are no escapes in strings. -/
def step (s : At) (c : Char) : Option (List Tok × At) :=
  match s with
  | .free => (start c).map fun s => ([], s)
  | .word w => if isWord c then some ([], .word (c :: w)) else (word w.reverse).bind fun t => after t c
  | .op o =>
    if o = c!"/" ∧ c = '*' then some ([], .comment)
    else if o = c!"/" ∧ c = '/' then some ([], .rest)
    else if o ++ [c] ∈ two ∨ o ++ [c] ∈ three then some ([], .op (o ++ [c]))
    else after (.op o) c
  | .string bs =>
    if c = '"' then some ([.str bs.reverse], .free)
    else if c = '\\' then none
    else if c.toNat < 128 then some ([], .string (c.toNat :: bs))
    else none
  | .comment => some ([], if c = '*' then .star else .comment)
  | .star => some ([], if c = '/' then .free else if c = '*' then .star else .comment)
  | .rest => if c = '\\' then none else some ([], .rest)

/-- The end of a line. A comment goes on; a string must have ended. -/
def finish : At → Option (List Tok × At)
  | .free => some ([], .free)
  | .word w => (word w.reverse).map fun t => ([t], .free)
  | .op o => some ([.op o], .free)
  | .string _ => none
  | .comment => some ([], .comment)
  | .star => some ([], .comment)
  | .rest => some ([], .free)

def line (s : At) : Str → Option (List Tok × At)
  | [] => finish s
  | c :: cs => (step s c).bind fun (ts, s) => (line s cs).map fun (us, s) => (ts ++ us, s)

/-- The tokens of lines. -/
def feed (s : At) : List Str → Option (List Tok × At)
  | [] => some ([], s)
  | l :: ls => (line s l).bind fun (ts, s) => (feed s ls).map fun (us, s) => (ts ++ us, s)

/-- The tokens of a source file; it must end between tokens. -/
def lex (text : List Str) : Option (List Tok) :=
  match feed .free text with
  | some (ts, .free) => some ts
  | _ => none

/-! ## Types, expressions, statements -/

inductive T
  | void
  | bool
  | int (signed : Bool) (bits : Nat)
  | ptr (t : T)
  | struct (name : Str)
  deriving DecidableEq, Repr

/-- The types with a name of their own, for LP64. -/
def named (x : Str) : Option T :=
  if x = c!"void" then some .void
  else if x = c!"bool" then some .bool
  else if x = c!"int8_t" then some (.int true 8)
  else if x = c!"uint64_t" then some (.int false 64)
  else if x = c!"size_t" then some (.int false 64)
  else if x = c!"time_t" then some (.int true 64)
  else if x = c!"intptr_t" then some (.int true 64)
  else if x = c!"uintptr_t" then some (.int false 64)
  else none

/-- The words that make up the name of an integer type (6.7.2), `char` being signed. -/
def intWords : List Str := [c!"unsigned", c!"signed", c!"int", c!"char", c!"short", c!"long"]

def intType (ws : List Str) : Option T :=
  let signed := !(c!"unsigned" ∈ ws)
  if c!"char" ∈ ws then some (.int signed 8)
  else if c!"short" ∈ ws then some (.int signed 16)
  else if c!"long" ∈ ws then some (.int signed 64)
  else if ws = [] then none
  else some (.int signed 32)

/-- Expressions. `assign` is `a = b` or, with an operator, `a op= b`; `incr d` is `a++` for 1 and `a--` for -1. -/
inductive E
  | num (n : Nat) (unsigned long : Bool)
  | var (x : Str)
  | unary (op : Str) (a : E)
  | sizeof (a : E)
  | incr (d : Int) (a : E)
  | cast (t : T) (a : E)
  | bin (op : Str) (a b : E)
  | assign (op : Str) (a b : E)
  | cond (c a b : E)
  | comma (a b : E)
  | index (a i : E)
  | field (a : E) (x : Str)
  | call1 (f : Str) (a : E)
  | call2 (f : Str) (a b : E)
  | call3 (f : Str) (a b d : E)
  deriving DecidableEq, Repr

/-- Statements. `decl` declares a local variable. -/
inductive S
  | skip
  | seq (s t : S)
  | expr (e : E)
  | decl (t : T) (x : Str) (e : Option E)
  | ite (c : E) (s t : S)
  | while (c : E) (s : S)
  | for (c : E) (step : E) (s : S)
  | ret (e : E)
  deriving DecidableEq, Repr

/-- External declarations. An element of an initializer is a list of expressions, for the members of a structure. The
name in `struct` stands for a type by itself, the one in `tag` behind the word `struct`. -/
inductive Decl
  | func (ret : T) (name : Str) (params : List (T × Str)) (body : S)
  | array (elem : T) (name : Str) (size : Option Nat) (init : List (List E))
  | text (name : Str) (size : Option Nat) (bs : List Nat)
  | struct (name : Str) (members : List (T × Str))
  | tag (name : Str) (members : List (T × Str))
  | nothing
  deriving DecidableEq, Repr

/-! ## Parser -/

abbrev Parse (α : Type) := Option (α × List Tok)

/-- The token `s` is next. -/
def expect (s : Str) : List Tok → Option (List Tok)
  | .op t :: ts => if t = s then some ts else none
  | _ => none

/-- The words of an integer type. -/
def takeInt : List Tok → List Str × List Tok
  | .id x :: ts => if x ∈ intWords then ((x :: (takeInt ts).1), (takeInt ts).2) else ([], .id x :: ts)
  | ts => ([], ts)

/-- Stars. -/
def stars (t : T) : List Tok → T × List Tok
  | .op s :: ts => if s = c!"*" then stars (.ptr t) ts else (t, .op s :: ts)
  | ts => (t, ts)

def skipWord (w : Str) : List Tok → List Tok
  | .id x :: ts => if x = w then ts else .id x :: ts
  | ts => ts

/-- A type without stars. `known` says that a name stands for a type. -/
def pBase (known : Str → Bool) (ts : List Tok) : Parse T :=
  match takeInt (skipWord c!"const" ts) with
  | (w :: ws, ts) => (intType (w :: ws)).map fun t => (t, ts)
  | ([], .id x :: ts) =>
    if x = c!"struct" then match ts with
      | .id y :: ts => some (.struct y, ts)
      | _ => none
    else match named x with
      | some t => some (t, ts)
      | none => if known x then some (.struct x, ts) else none
  | _ => none

/-- A type. -/
def pType (known : Str → Bool) (ts : List Tok) : Parse T := (pBase known ts).map fun (t, ts) => stars t ts

/-- How tightly a binary operator binds (6.5.5 to 6.5.14). -/
def prec (s : Str) : Option Nat :=
  if s = c!"*" ∨ s = c!"/" ∨ s = c!"%" then some 10
  else if s = c!"+" ∨ s = c!"-" then some 9
  else if s = c!"<<" ∨ s = c!">>" then some 8
  else if s = c!"<" ∨ s = c!">" ∨ s = c!"<=" ∨ s = c!">=" then some 7
  else if s = c!"==" ∨ s = c!"!=" then some 6
  else if s = c!"&" then some 5
  else if s = c!"^" then some 4
  else if s = c!"|" then some 3
  else if s = c!"&&" then some 2
  else if s = c!"||" then some 1
  else none

/-- The operator in an assignment. -/
def assignment (s : Str) : Option Str :=
  if s = c!"=" then some [] else if s = c!"*=" ∨ s = c!"/=" ∨ s = c!"%=" ∨ s = c!"+=" ∨ s = c!"-=" ∨ s = c!"&=" ∨ s = c!"^=" ∨ s = c!"|=" then some [s.headD ' ']
  else if s = c!"<<=" then some c!"<<" else if s = c!">>=" then some c!">>" else none

mutual
/-- Unary and cast expressions (6.5.3, 6.5.4). -/
def pUnary (k : Str → Bool) : Nat → List Tok → Parse E
  | 0, _ => none
  | f + 1, ts => match ts with
    | .num n u l :: ts => pPostfix k f (.num n u l) ts
    | .id x :: .op s :: us =>
      if x = c!"sizeof" then (pUnary k f (.op s :: us)).map fun (a, ts) => (.sizeof a, ts)
      else if s = c!"(" then (pExpr k f us).bind fun (a, ts) =>
        match expect c!"," ts with
        | none => (expect c!")" ts).bind fun ts => pPostfix k f (.call1 x a) ts
        | some ts => (pExpr k f ts).bind fun (b, ts) =>
          match expect c!"," ts with
          | none => (expect c!")" ts).bind fun ts => pPostfix k f (.call2 x a b) ts
          | some ts => (pExpr k f ts).bind fun (d, ts) => (expect c!")" ts).bind fun ts => pPostfix k f (.call3 x a b d) ts
      else pPostfix k f (.var x) (.op s :: us)
    | .id x :: ts => pPostfix k f (.var x) ts
    | .op s :: ts =>
      if s = c!"(" then match pType k ts with
        | some (t, ts) => (expect c!")" ts).bind fun ts => (pUnary k f ts).map fun (a, ts) => (.cast t a, ts)
        | none => (pExpr k f ts).bind fun (e, ts) => (expect c!")" ts).bind fun ts => pPostfix k f e ts
      else if s = c!"-" ∨ s = c!"~" ∨ s = c!"!" ∨ s = c!"*" ∨ s = c!"&" then (pUnary k f ts).map fun (a, ts) => (.unary s a, ts)
      else none
    | _ => none

/-- What follows a primary expression (6.5.2). -/
def pPostfix (k : Str → Bool) : Nat → E → List Tok → Parse E
  | 0, _, _ => none
  | f + 1, e, ts => match ts with
    | .op s :: us =>
      if s = c!"[" then (pExpr k f us).bind fun (i, ts) => (expect c!"]" ts).bind fun ts => pPostfix k f (.index e i) ts
      else if s = c!"++" then pPostfix k f (.incr 1 e) us
      else if s = c!"--" then pPostfix k f (.incr (-1) e) us
      else if s = c!"." then match us with
        | .id x :: us => pPostfix k f (.field e x) us
        | _ => none
      else if s = c!"->" then match us with
        | .id x :: us => pPostfix k f (.field (.unary c!"*" e) x) us
        | _ => none
      else some (e, ts)
    | _ => some (e, ts)

/-- Binary operators that bind at least as tightly as `p`, after the first operand; they group from left to right. -/
def pBinary (k : Str → Bool) : Nat → Nat → E → List Tok → Parse E
  | 0, _, _, _ => none
  | f + 1, p, e, ts => match ts with
    | .op s :: us => match prec s with
      | none => some (e, ts)
      | some q =>
        if p ≤ q then (pUnary k f us).bind fun (b, us) => (pBinary k f (q + 1) b us).bind fun (b, us) => pBinary k f p (.bin s e b) us
        else some (e, ts)
    | _ => some (e, ts)

/-- An expression without commas (6.5.15, 6.5.16). -/
def pExpr (k : Str → Bool) : Nat → List Tok → Parse E
  | 0, _ => none
  | f + 1, ts => (pUnary k f ts).bind fun (e, ts) => (pBinary k f 0 e ts).bind fun (e, ts) =>
    match ts with
    | .op s :: us =>
      if s = c!"?" then (pExpr k f us).bind fun (a, ts) => (expect c!":" ts).bind fun ts => (pExpr k f ts).map fun (b, ts) => (.cond e a b, ts)
      else match assignment s with
        | some o => (pExpr k f us).map fun (b, ts) => (.assign o e b, ts)
        | none => some (e, ts)
    | _ => some (e, ts)
end

/-- An expression; no expression of the texts needs more steps. -/
def expr (k : Str → Bool) (ts : List Tok) : Parse E := pExpr k 200 ts

/-- `A = e, B = e, … }` in an enumeration: constants of type `int`. -/
def pEnum (k : Str → Bool) : Nat → List Tok → Parse S
  | 0, _ => none
  | f + 1, ts => match ts with
    | .id x :: .op s :: ts =>
      if s = c!"=" then (expr k ts).bind fun (e, ts) =>
        match expect c!"," ts with
        | some ts => (pEnum k f ts).map fun (s, ts) => (.seq (.decl (.int true 32) x (some e)) s, ts)
        | none => (expect c!"}" ts).map fun ts => (.decl (.int true 32) x (some e), ts)
      else none
    | _ => none

/-- The comma operator (6.5.17), after the first operand. -/
def pComma (k : Str → Bool) : Nat → E → List Tok → Parse E
  | 0, _, _ => none
  | f + 1, e, ts => match expect c!"," ts with
    | some ts => (expr k ts).bind fun (e', ts) => pComma k f (.comma e e') ts
    | none => some (e, ts)

/-- An expression in which there may be commas; read only in a `for`. -/
def commas (k : Str → Bool) (ts : List Tok) : Parse E := (expr k ts).bind fun (e, ts) => pComma k (ts.length + 1) e ts

/-- The first of the three expressions of a `for`, which may be missing. -/
def pFirst (k : Str → Bool) (ts : List Tok) : Parse (Option E) :=
  match expect c!";" ts with
  | some ts => some (none, ts)
  | none => (commas k ts).bind fun (e, ts) => (expect c!";" ts).map fun ts => (some e, ts)

/-- It is evaluated before the loop (6.8.5.3). -/
def firstly : Option E → S → S
  | none, s => s
  | some e, s => .seq (.expr e) s

mutual
/-- A statement (6.8). -/
def pStmt (k : Str → Bool) : Nat → List Tok → Parse S
  | 0, _ => none
  | f + 1, ts => match ts with
    | .op s :: us =>
      if s = c!"{" then pStmts k f us
      else if s = c!";" then some (.skip, us)
      else (expr k ts).bind fun (e, ts) => (expect c!";" ts).map fun ts => (.expr e, ts)
    | .id x :: us =>
      if x = c!"return" then (expr k us).bind fun (e, ts) => (expect c!";" ts).map fun ts => (.ret e, ts)
      else if x = c!"if" then (expect c!"(" us).bind fun ts => (expr k ts).bind fun (c, ts) => (expect c!")" ts).bind fun ts => (pStmt k f ts).bind fun (s, ts) =>
        match ts with
        | .id y :: us => if y = c!"else" then (pStmt k f us).map fun (t, ts) => (.ite c s t, ts) else some (.ite c s .skip, ts)
        | _ => some (.ite c s .skip, ts)
      else if x = c!"while" then (expect c!"(" us).bind fun ts => (expr k ts).bind fun (c, ts) => (expect c!")" ts).bind fun ts => (pStmt k f ts).map fun (s, ts) => (.while c s, ts)
      else if x = c!"for" then (expect c!"(" us).bind fun ts => (pFirst k ts).bind fun (i, ts) => (expr k ts).bind fun (c, ts) => (expect c!";" ts).bind fun ts =>
        (commas k ts).bind fun (e, ts) => (expect c!")" ts).bind fun ts => (pStmt k f ts).map fun (s, ts) => (firstly i (.for c e s), ts)
      else if x = c!"enum" then (expect c!"{" us).bind fun ts => (pEnum k f ts).bind fun (s, ts) => (expect c!";" ts).map fun ts => (s, ts)
      else match pType k ts with
        | some (t, .id y :: ts) => match expect c!"=" ts with
          | some ts => (expr k ts).bind fun (e, ts) => (expect c!";" ts).map fun ts => (.decl t y (some e), ts)
          | none => (expect c!";" ts).map fun ts => (.decl t y none, ts)
        | some _ => none
        | none => (expr k ts).bind fun (e, ts) => (expect c!";" ts).map fun ts => (.expr e, ts)
    | _ => (expr k ts).bind fun (e, ts) => (expect c!";" ts).map fun ts => (.expr e, ts)

/-- Statements up to the closing brace. -/
def pStmts (k : Str → Bool) : Nat → List Tok → Parse S
  | 0, _ => none
  | f + 1, ts => match expect c!"}" ts with
    | some ts => some (.skip, ts)
    | none => (pStmt k f ts).bind fun (s, ts) => (pStmts k f ts).map fun (t, ts) => (.seq s t, ts)
end

/-- Expressions up to the closing brace, with a comma after each but perhaps the last. -/
def pMembers (k : Str → Bool) : Nat → List Tok → Parse (List E)
  | 0, _ => none
  | f + 1, ts => match expect c!"}" ts with
    | some ts => some ([], ts)
    | none => (expr k ts).bind fun (e, ts) => match expect c!"," ts with
      | some ts => (pMembers k f ts).map fun (es, ts) => (e :: es, ts)
      | none => (expect c!"}" ts).map fun ts => ([e], ts)

/-- Elements up to the closing brace. -/
def pInits (k : Str → Bool) : Nat → List Tok → Parse (List (List E))
  | 0, _ => none
  | f + 1, ts => match expect c!"}" ts with
    | some ts => some ([], ts)
    | none =>
      let first : Parse (List E) := match expect c!"{" ts with
        | some ts => pMembers k f ts
        | none => (expr k ts).map fun (e, ts) => ([e], ts)
      first.bind fun (i, ts) => match expect c!"," ts with
        | some ts => (pInits k f ts).map fun (is, ts) => (i :: is, ts)
        | none => (expect c!"}" ts).map fun ts => ([i], ts)

/-- `x, y;` or `*x;` behind the type of a member. -/
def pNames (t : T) : Nat → List Tok → Parse (List (T × Str))
  | 0, _ => none
  | f + 1, ts => match stars t ts with
    | (u, .id x :: ts) => match expect c!"," ts with
      | some ts => (pNames t f ts).map fun (ms, ts) => ((u, x) :: ms, ts)
      | none => (expect c!";" ts).map fun ts => ([(u, x)], ts)
    | _ => none

/-- The members of a structure up to the closing brace. -/
def pFields (k : Str → Bool) : Nat → List Tok → Parse (List (T × Str))
  | 0, _ => none
  | f + 1, ts => match expect c!"}" ts with
    | some ts => some ([], ts)
    | none => (pBase k ts).bind fun (t, ts) => (pNames t f ts).bind fun (ms, ts) => (pFields k f ts).map fun (ns, ts) => (ms ++ ns, ts)

/-- The parameters of a function up to the closing parenthesis. -/
def pParams (k : Str → Bool) : Nat → List Tok → Parse (List (T × Str))
  | 0, _ => none
  | f + 1, ts => match pType k ts with
    | some (t, .id x :: ts) => match expect c!"," ts with
      | some ts => (pParams k f ts).map fun (ps, ts) => ((t, x) :: ps, ts)
      | none => (expect c!")" ts).map fun ts => ([(t, x)], ts)
    | _ => none

/-- `[n]` or `[]`, and the initializer if there is one. -/
def pArray (k : Str → Bool) (t : T) (x : Str) (ts : List Tok) : Parse Decl :=
  let size : Parse (Option Nat) := match ts with
    | .num n _ _ :: ts => (expect c!"]" ts).map fun ts => (some n, ts)
    | _ => (expect c!"]" ts).map fun ts => (none, ts)
  size.bind fun (n, ts) => match expect c!"=" ts with
    | none => (expect c!";" ts).map fun ts => (.nothing, ts)
    | some ts => match ts with
      | .str bs :: ts => (expect c!";" ts).map fun ts => (.text x n bs, ts)
      | _ => (expect c!"{" ts).bind fun ts => (pInits k ts.length ts).bind fun (is, ts) => (expect c!";" ts).map fun ts => (.array t x n is, ts)

/-- External declarations (6.9), after `static`, `inline` and `const`. A structure without a name is named by the array that is declared with it; `typedef struct x y;`
makes `y` a structure whose one member has no name and is the structure `x`. -/
def pDecl (k : Str → Bool) (ts : List Tok) : Parse (List Decl) :=
  match ts with
  | .id w :: .op s :: us =>
    if w = c!"struct" ∧ s = c!"{" then (pFields k us.length us).bind fun (ms, ts) => match ts with
      | .id x :: ts => (expect c!"[" ts).bind fun ts => (pArray k (.struct x) x ts).map fun (d, ts) => ([.struct x ms, d], ts)
      | _ => none
    else outer
  | .id w :: .id w' :: .op s :: us =>
    if w = c!"typedef" ∧ w' = c!"struct" ∧ s = c!"{" then (pFields k us.length us).bind fun (ms, ts) => match ts with
      | .id x :: ts => (expect c!";" ts).map fun ts => ([.struct x ms], ts)
      | _ => none
    else if w = c!"struct" ∧ s = c!"{" then (pFields k us.length us).bind fun (ms, ts) => (expect c!";" ts).map fun ts => ([.tag w' ms], ts)
    else outer
  | .id w :: .id w' :: .id y :: .id x :: us =>
    if w = c!"typedef" ∧ w' = c!"struct" then (expect c!";" us).map fun ts => ([.struct x [(.struct y, [])]], ts) else outer
  | _ => outer
where
  outer : Parse (List Decl) := match pType k ts with
    | some (t, .id x :: ts) => match expect c!"(" ts with
      | some ts => (pParams k ts.length ts).bind fun (ps, ts) => (expect c!"{" ts).bind fun ts => (pStmts k ts.length ts).map fun (s, ts) => ([.func t x ps s], ts)
      | none => (expect c!"[" ts).bind fun ts => (pArray k t x ts).map fun (d, ts) => ([d], ts)
    | _ => none

/-- The names of the structures. -/
def structs : List Decl → List Str
  | [] => []
  | .struct x _ :: ds => x :: structs ds
  | _ :: ds => structs ds

/-- A translation unit; the names of the structures so far are known. -/
def pUnit (known : List Str) : Nat → List Tok → Option (List Decl)
  | 0, _ => none
  | f + 1, ts => match ts with
    | [] => some []
    | _ => (pDecl (fun x => x ∈ known) (skipWord c!"const" (skipWord c!"inline" (skipWord c!"static" ts)))).bind fun (d, ts) => (pUnit (structs d ++ known) f ts).map fun ds => d ++ ds

def parse (ts : List Tok) : Option (List Decl) := pUnit [] (ts.length + 1) ts

/-! ## Semantics -/

/-- Values: numbers, NULL, pointers to the element `i` of an object, and the indeterminate value of a local variable that has not been assigned to. -/
inductive V
  | num (n : Int)
  | null
  | ptr (o : Str) (i : Int)
  | undef
  deriving DecidableEq, Repr

/-- The members of a structure, or one member without name. -/
abbrev Row := List (Str × V)

/-- The objects in memory: each has a name and is an array. -/
abbrev Mem := List (Str × List Row)

/-- What the headers define: constants and structures. -/
structure Headers where
  const : Str → Option (T × V)
  struct : Str → Option (List (T × Str))

structure Store where
  locals : List (Str × T × V)
  mem : Mem

/-- The first entry of a name. -/
def find {α : Type} (x : Str) : List (Str × α) → Option α
  | [] => none
  | (y, a) :: l => if x = y then some a else find x l

/-- Replace the first entry of a name. -/
def replace {α : Type} (x : Str) (a : α) : List (Str × α) → Option (List (Str × α))
  | [] => none
  | (y, b) :: l => if x = y then some ((y, a) :: l) else (replace x a l).map fun l => (y, b) :: l

/-- The functions of a file so far and the structures. -/
structure Ctx where
  headers : Headers
  structs : List (Str × List (T × Str))
  funcs : List (Str × (List (T × V) → Mem → D ((T × V) × Mem)))

/-- Conversion to an integer type (6.3.1.2, 6.3.1.3); to a signed type modulo 2^bits, as gcc defines it. -/
def conv (t : T) (n : Int) : Int :=
  match t with
  | .bool => if n = 0 then 0 else 1
  | .int true w => Int.bmod n (2 ^ w)
  | .int false w => n % 2 ^ w
  | _ => n

/-- Conversion as if by assignment (6.5.16.1): of numbers to integer types, of pointers to `bool` and to pointers; and of numbers to pointers
and back (6.3.2.3), which keeps the number, 0 being NULL, as the implementations that fsdyn is for define it. -/
def convert (t : T) (v : V) : C V :=
  match t, v with
  | .bool, .num n => .ok (.num (conv .bool n))
  | .int s w, .num n => .ok (.num (conv (.int s w) n))
  | .bool, .null => .ok (.num 0)
  | .bool, .ptr _ _ => .ok (.num 1)
  | .ptr _, .null => .ok .null
  | .ptr _, .ptr o i => .ok (.ptr o i)
  | .ptr _, .num n => .ok (if n % 2 ^ 64 = 0 then .null else .num (n % 2 ^ 64))
  | .int _ _, .null => .ok (.num 0)
  | _, _ => .error .abort

/-- Integer promotions (6.3.1.1). -/
def promote : T → T
  | .bool => .int true 32
  | .int s w => if w < 32 then .int true 32 else .int s w
  | t => t

/-- The usual arithmetic conversions (6.3.1.8), after promotion. -/
def usual : T → T → T
  | .int s w, .int s' w' => if s = s' then .int s (max w w') else if s then (if w' < w then .int true w else .int false w') else (if w < w' then .int true w' else .int false w)
  | t, _ => t

/-- A result of an integer type: overflow of a signed one is undefined. -/
def result (t : T) (n : Int) : C (T × V) :=
  match t with
  | .int true w => if -2 ^ (w - 1) ≤ n ∧ n < 2 ^ (w - 1) then .ok (t, .num n) else .error .ub
  | .int false w => .ok (t, .num (n % 2 ^ w))
  | _ => .error .abort

def flag (b : Bool) : T × V := (.int true 32, .num (if b then 1 else 0))

/-- The bits of a number of the given width. -/
def bits (t : T) (n : Int) : Nat :=
  match t with
  | .int _ w => (n % 2 ^ w).toNat
  | _ => 0

/-- 6.5.5 to 6.5.12 for operands that have been converted to `t`. -/
def arith (op : Str) (t : T) (a b : Int) : C (T × V) :=
  if op = c!"+" then result t (a + b)
  else if op = c!"-" then result t (a - b)
  else if op = c!"*" then result t (a * b)
  else if op = c!"/" then if b = 0 then .error .ub else result t (a.tdiv b)
  else if op = c!"%" then if b = 0 then .error .ub else result t (a.tmod b)
  else if op = c!"<" then .ok (flag (decide (a < b)))
  else if op = c!">" then .ok (flag (decide (a > b)))
  else if op = c!"<=" then .ok (flag (decide (a ≤ b)))
  else if op = c!">=" then .ok (flag (decide (a ≥ b)))
  else if op = c!"==" then .ok (flag (decide (a = b)))
  else if op = c!"!=" then .ok (flag (decide (a ≠ b)))
  else if op = c!"&" then .ok (t, .num (conv t ((bits t a &&& bits t b : Nat) : Int)))
  else if op = c!"|" then .ok (t, .num (conv t ((bits t a ||| bits t b : Nat) : Int)))
  else if op = c!"^" then .ok (t, .num (conv t ((bits t a ^^^ bits t b : Nat) : Int)))
  else .error .abort

/-- 6.5.7: the result has the type of the left operand. -/
def shift (op : Str) (t : T) (a k : Int) : C (T × V) :=
  match t with
  | .int s w =>
    if k < 0 ∨ w ≤ k then .error .ub
    else if op = c!"<<" then if s ∧ a < 0 then .error .ub else result t (a * 2 ^ k.toNat)
    else .ok (t, .num (a / 2 ^ k.toNat))
  | _ => .error .abort

def isInt : T → Bool
  | .bool => true
  | .int _ _ => true
  | _ => false

/-- Binary operators other than `&&` and `||`. Pointers can be compared for equality and moved inside their object and just behind it. -/
def binary (M : Mem) (op : Str) (a b : T × V) : C (T × V) :=
  match a, b with
  | (t, .num m), (u, .num n) =>
    if isInt t && isInt u then
      if op = c!"<<" ∨ op = c!">>" then shift op (promote t) m n
      else arith op (usual (promote t) (promote u)) (conv (usual (promote t) (promote u)) m) (conv (usual (promote t) (promote u)) n)
    else if op = c!"==" then .ok (flag (decide (m = n)))
    else if op = c!"!=" then .ok (flag (decide (m ≠ n)))
    else .error .abort
  | (t, .ptr o i), (_, .num n) =>
    if op = c!"+" then match find o M with
      | none => .error .ub
      | some rows => if 0 ≤ i + n ∧ i + n ≤ rows.length then .ok (t, .ptr o (i + n)) else .error .ub
    else .error .abort
  | (_, v), (_, w) =>
    if op = c!"==" then .ok (flag (decide (v = w)))
    else if op = c!"!=" then .ok (flag (decide (v ≠ w)))
    else .error .abort

/-- Whether a value compares unequal to 0. -/
def truth : V → Bool
  | .num n => n != 0
  | .null => false
  | .ptr _ _ => true
  | .undef => false

/-- The type of an integer constant (6.4.4.1), which here fits `int` or else a type of 64 bits. A hexadecimal one may be unsigned. -/
def constType (n : Nat) (unsigned long : Bool) : C T :=
  if unsigned then if long then .ok (.int false 64) else if n < 2 ^ 32 then .ok (.int false 32) else .ok (.int false 64)
  else if n < 2 ^ 31 ∧ ¬ long then .ok (.int true 32)
  else if n < 2 ^ 63 then .ok (.int true 64)
  else .ok (.int false 64)

/-- A place: a local variable, or a member of an element of an object. -/
inductive Place
  | loc (x : Str)
  | mem (o : Str) (i : Int) (x : Str)

def get (s : Store) : Place → C V
  | .loc x => match find x s.locals with
    | some (_, v) => .ok v
    | none => .error .abort
  | .mem o i x =>
    if i < 0 then .error .ub
    else match (find o s.mem).bind fun rows => rows[i.toNat]?.bind fun r => find x r with
      | some v => .ok v
      | none => .error .ub

/-- What a read yields: through a character type the byte is reinterpreted (6.5). -/
def load (t : T) (v : V) : V :=
  if t = .int true 8 ∨ t = .int false 8 then
    match v with
    | .num n => .num (conv t n)
    | v => v
  else v

/-- A value is stored. -/
def put (s : Store) (p : Place) (v : V) : C Store :=
  match p with
  | .loc x => match find x s.locals with
    | some (t, _) => match replace x (t, v) s.locals with
      | some l => .ok { s with locals := l }
      | none => .error .abort
    | none => .error .abort
  | .mem o i x =>
    if i < 0 then .error .ub
    else match (find o s.mem).bind fun rows => rows[i.toNat]?.bind fun r => (replace x v r).bind fun r => replace o (rows.set i.toNat r) s.mem with
      | some m => .ok { s with mem := m }
      | none => .error .ub

/-- The type of a member. -/
def memberType (c : Ctx) (s x : Str) : C T :=
  let ms := match find s c.structs with
    | some [(.struct y, [])] => find y c.structs
    | some ms => some ms
    | none => c.headers.struct s
  match ms.bind fun ms => ms.find? fun m => m.2 = x with
  | some (t, _) => .ok t
  | none => .error .abort

/-- A variable of the file, which is an array, or a constant of the headers. -/
def outer (c : Ctx) (types : Str → Option T) (x : Str) : C (T × V) :=
  match types x with
  | some t => .ok (.ptr t, .ptr x 0)
  | none => match c.headers.const x with
    | some v => .ok v
    | none => .error .abort

/-- The size of a type in bytes. -/
def size : T → C Int
  | .int _ w => .ok ((w / 8 : Nat) : Int)
  | .bool => .ok 1
  | .ptr _ => .ok 8
  | _ => .error .abort

/-- An element of an array. -/
def element (a i : T × V) : C (T × Place) :=
  match a, i with
  | (.ptr t, .ptr o k), (_, .num n) => .ok (t, .mem o (k + n) [])
  | _, _ => .error .abort

/-- The target of a pointer. -/
def target (a : T × V) : C (T × Place) :=
  match a with
  | (.ptr t, .ptr o k) => .ok (t, .mem o k [])
  | (.ptr _, .null) => .error .ub
  | _ => .error .abort

/-- The address of an element of an object of the memory; it must be inside or just behind. -/
def address (s : Store) (p : T × Place) : C (T × V) :=
  match p with
  | (t, .mem o i []) => match find o s.mem with
    | none => .error .ub
    | some rows => if 0 ≤ i ∧ i ≤ rows.length then .ok (.ptr t, .ptr o i) else .error .ub
  | _ => .error .abort

/-- A member of a structure. -/
def member (c : Ctx) (p : T × Place) (x : Str) : C (T × Place) :=
  match p with
  | (.struct s, .mem o i []) => match memberType c s x with
    | .ok t => .ok (t, .mem o i x)
    | .error e => .error e
  | _ => .error .abort

/-- Operators with one operand. -/
def unaryOp (op : Str) (a : T × V) : C (T × V) :=
  match a with
  | (t, .num n) =>
    if op = c!"!" then .ok (flag (decide (n = 0)))
    else if op = c!"-" then result (promote t) (-n)
    else if op = c!"~" then .ok (promote t, .num (conv (promote t) (-n - 1)))
    else .error .abort
  | (_, v) => if op = c!"!" then .ok (flag !(truth v)) else .error .abort

section
variable (c : Ctx) (types : Str → Option T)

mutual
/-- The place an expression denotes. -/
def E.place : E → Store → D ((T × Place) × Store)
  | .var x, s => match find x s.locals with
    | some (t, _) => pure ((t, .loc x), s)
    | none => liftC (.error .abort)
  | .unary op a, s =>
    if op = c!"*" then do
      let (v, s) ← a.eval s
      let p ← liftC (target v)
      pure (p, s)
    else liftC (.error .abort)
  | .index a i, s => do
    let (v, s) ← a.eval s
    let (w, s) ← i.eval s
    let p ← liftC (element v w)
    pure (p, s)
  | .field a x, s => do
    let (p, s) ← a.place s
    let q ← liftC (member c p x)
    pure (q, s)
  | _, _ => liftC (.error .abort)

/-- The value of an expression and the store after its evaluation. -/
def E.eval : E → Store → D ((T × V) × Store)
  | .num n u l, s => do
    let t ← liftC (constType n u l)
    pure ((t, .num n), s)
  | .var x, s => match find x s.locals with
    | some (t, v) => if v = .undef then liftC (.error .ub) else pure ((t, v), s)
    | none => do
      let v ← liftC (outer c types x)
      pure (v, s)
  | .unary op a, s =>
    if op = c!"*" then do
      let (v, s) ← a.eval s
      let (t, p) ← liftC (target v)
      let w ← liftC (get s p)
      pure ((t, load t w), s)
    else if op = c!"&" then do
      let (p, s) ← a.place s
      let v ← liftC (address s p)
      pure (v, s)
    else do
      let (v, s) ← a.eval s
      let w ← liftC (unaryOp op v)
      pure (w, s)
  | .sizeof a, s => do
    let (p, _) ← a.place s
    let n ← liftC (size p.1)
    pure ((.int false 64, .num n), s)
  | .incr d a, s => do
    let (p, s) ← a.place s
    let v ← liftC (get s p.2)
    let w ← liftC (binary s.mem c!"+" (p.1, load p.1 v) (.int true 32, .num d))
    let w ← liftC (convert p.1 w.2)
    let s ← liftC (put s p.2 w)
    pure ((p.1, load p.1 v), s)
  | .cast t a, s => do
    let (v, s) ← a.eval s
    let w ← liftC (convert t v.2)
    pure ((t, w), s)
  | .bin op a b, s =>
    if op = c!"&&" then do
      let (v, s) ← a.eval s
      if truth v.2 then do
        let (w, s) ← b.eval s
        pure (flag (truth w.2), s)
      else pure (flag false, s)
    else if op = c!"||" then do
      let (v, s) ← a.eval s
      if truth v.2 then pure (flag true, s) else do
        let (w, s) ← b.eval s
        pure (flag (truth w.2), s)
    else do
      let (v, s) ← a.eval s
      let (w, s) ← b.eval s
      let r ← liftC (binary s.mem op v w)
      pure (r, s)
  | .assign op a b, s => do
    let (w, s) ← b.eval s
    let (p, s) ← a.place s
    let r ← if op = [] then pure w else do
      let v ← liftC (get s p.2)
      liftC (binary s.mem op (p.1, load p.1 v) w)
    let u ← liftC (convert p.1 r.2)
    let s ← liftC (put s p.2 u)
    pure ((p.1, u), s)
  | .comma a b, s => do
    let (_, s) ← a.eval s
    b.eval s
  | .cond k a b, s => do
    let (v, s) ← k.eval s
    if truth v.2 then a.eval s else b.eval s
  | .index a i, s => do
    let (v, s) ← a.eval s
    let (w, s) ← i.eval s
    let (t, p) ← liftC (element v w)
    let u ← liftC (get s p)
    pure ((t, load t u), s)
  | .field a x, s => do
    let (p, s) ← a.place s
    let (t, q) ← liftC (member c p x)
    let v ← liftC (get s q)
    pure ((t, load t v), s)
  | .call1 f a, s => do
    let (v, s) ← a.eval s
    match find f c.funcs with
    | some g => do
      let (r, m) ← g [v] s.mem
      pure (r, { s with mem := m })
    | none => liftC (.error .abort)
  | .call2 f a b, s => do
    let (v, s) ← a.eval s
    let (w, s) ← b.eval s
    match find f c.funcs with
    | some g => do
      let (r, m) ← g [v, w] s.mem
      pure (r, { s with mem := m })
    | none => liftC (.error .abort)
  | .call3 f a b d, s => do
    let (v, s) ← a.eval s
    let (w, s) ← b.eval s
    let (u, s) ← d.eval s
    match find f c.funcs with
    | some g => do
      let (r, m) ← g [v, w, u] s.mem
      pure (r, { s with mem := m })
    | none => liftC (.error .abort)
end

/-- How a statement ends: with a `return` or at its end. -/
inductive Res
  | ret (v : T × V) (m : Mem)
  | next (s : Store)

/-- A loop (6.8.5). -/
def loop (cond : Store → D (Bool × Store)) (body : Store → D Res) (s : Store) : D Res := do
  let (t, s) ← cond s
  if t then do
    let r ← body s
    match r with
    | .next s => loop cond body s
    | .ret v m => pure (.ret v m)
  else pure (.next s)
partial_fixpoint

/-- The end of the scope of the variables declared since `s`. -/
def leave (s s' : Store) : Store := { s' with locals := s'.locals.drop (s'.locals.length - s.locals.length) }

/-- The end of a round of a loop. -/
def round (s : Store) : Res → Res
  | .next s' => .next (leave s s')
  | .ret v m => .ret v m

/-- Statements. The scope of a declaration ends with the round of the loop in which it is; the end of another block does not end it: an inner declaration hides
an outer one while the block lasts, and no name is used behind a block in which it is declared. A variable declared without initializer has no value, and to use it is undefined. -/
def S.exec : S → Store → D Res
  | .skip, s => pure (.next s)
  | .seq a b, s => do
    let r ← a.exec s
    match r with
    | .next s => b.exec s
    | .ret v m => pure (.ret v m)
  | .expr e, s => do
    let (_, s) ← e.eval c types s
    pure (.next s)
  | .decl t x (some e), s => do
    let (v, s) ← e.eval c types s
    let w ← liftC (convert t v.2)
    pure (.next { s with locals := (x, t, w) :: s.locals })
  | .decl t x none, s => pure (.next { s with locals := (x, t, .undef) :: s.locals })
  | .ite e a b, s => do
    let (v, s) ← e.eval c types s
    if truth v.2 then a.exec s else b.exec s
  | .while e a, s => loop (fun s => do let (v, s) ← e.eval c types s; pure (truth v.2, s)) (fun s => do
      let r ← a.exec s
      pure (round s r)) s
  | .for e i a, s => loop (fun s => do let (v, s) ← e.eval c types s; pure (truth v.2, s)) (fun s => do
      let r ← a.exec s
      match round s r with
      | .next s => do
        let (_, s) ← i.eval c types s
        pure (.next s)
      | .ret v m => pure (.ret v m)) s
  | .ret e, s => do
    let (v, s) ← e.eval c types s
    pure (.ret v s.mem)
end

/-- The arguments are converted to the types of the parameters (6.5.2.2). -/
def bindArgs : List (T × Str) → List (T × V) → C (List (Str × T × V))
  | [], [] => .ok []
  | (t, x) :: ps, (_, v) :: vs => match convert t v with
    | .error e => .error e
    | .ok w => match bindArgs ps vs with
      | .error e => .error e
      | .ok l => .ok ((x, t, w) :: l)
  | _, _ => .error .abort

/-- A call of a function. To fall off its end and use the result is undefined. -/
def invoke (c : Ctx) (types : Str → Option T) (t : T) (ps : List (T × Str)) (s : S) (vs : List (T × V)) (m : Mem) : D ((T × V) × Mem) := do
  let l ← liftC (bindArgs ps vs)
  let r ← s.exec c types ⟨l, m⟩
  match r with
  | .ret v m => do
    let w ← liftC (convert t v.2)
    pure ((t, w), m)
  | .next _ => liftC (.error .ub)

/-- The value of a constant expression. -/
def constExpr (c : Ctx) (e : E) : C V :=
  match (e.eval c (fun _ => none) ⟨[], []⟩).run with
  | some (.ok ((_, v), _)) => .ok v
  | _ => .error .abort

/-- The members of an element. -/
def fields (c : Ctx) : List (T × Str) → List E → C Row
  | [], [] => .ok []
  | (t, x) :: ms, e :: es => match constExpr c e with
    | .error e => .error e
    | .ok v => match convert t v with
      | .error e => .error e
      | .ok w => match fields c ms es with
        | .error e => .error e
        | .ok r => .ok ((x, w) :: r)
  | _, _ => .error .abort

def rows (c : Ctx) (ms : List (T × Str)) : List (List E) → C (List Row)
  | [] => .ok []
  | i :: is => match fields c ms i with
    | .error e => .error e
    | .ok r => match rows c ms is with
      | .error e => .error e
      | .ok rs => .ok (r :: rs)

/-- The members of the elements of an array. -/
def members (c : Ctx) : T → Option (List (T × Str))
  | .struct s => find s c.structs
  | t => some [(t, [])]

/-- Elements that the initializer does not mention are zero (6.7.9); there cannot be more elements than the size says. -/
def pad (ms : List (T × Str)) (size : Option Nat) (rs : List Row) : C (List Row) :=
  match size with
  | none => .ok rs
  | some n => if rs.length ≤ n then .ok (rs ++ List.replicate (n - rs.length) (ms.map fun m => (m.2, V.num 0))) else .error .abort

/-- What a file defines: objects with their element types, functions and structures. -/
structure File where
  ctx : Ctx
  types : List (Str × T)
  mem : Mem

/-- The arrays and structures of a file. -/
def objects (f : File) : List Decl → C File
  | [] => .ok f
  | .array t x n is :: ds => match members f.ctx t with
    | none => .error .abort
    | some ms => match rows f.ctx ms is with
      | .error e => .error e
      | .ok rs => match pad ms n rs with
        | .error e => .error e
        | .ok rs => if (find x f.mem).isSome then .error .abort else objects { f with types := (x, t) :: f.types, mem := (x, rs) :: f.mem } ds
  | .text x n bs :: ds =>
    let rs : List Row := bs.map fun (b : Nat) => [([], V.num (b : Int))]
    let rs := if n = some bs.length then rs else rs ++ [[([], V.num 0)]]
    match pad [(.int true 8, [])] n rs with
    | .error e => .error e
    | .ok rs => if (find x f.mem).isSome then .error .abort else objects { f with types := (x, .int true 8) :: f.types, mem := (x, rs) :: f.mem } ds
  | .tag x ms :: ds => objects { f with ctx := { f.ctx with structs := (x, ms) :: f.ctx.structs } } ds
  | .struct x ms :: ds => objects { f with ctx := { f.ctx with structs := (x, ms) :: f.ctx.structs } } ds
  | _ :: ds => objects f ds

/-- The functions of a file; each knows those before it. -/
def functions (types : Str → Option T) (c : Ctx) : List Decl → Ctx
  | [] => c
  | .func t x ps s :: ds => functions types { c with funcs := (x, invoke c types t ps s) :: c.funcs } ds
  | _ :: ds => functions types c ds

/-- A file; one that does not compile is an error. -/
def compile (H : Headers) (ds : List Decl) : C File :=
  match objects ⟨⟨H, [], []⟩, [], []⟩ ds with
  | .error e => .error e
  | .ok f => .ok { f with ctx := functions (fun x => find x f.types) f.ctx ds }

/-- A call of the function `f` of a file, with the objects `m` of the caller in memory besides those of the file. -/
def run (H : Headers) (text : List Str) (f : Str) (args : List (T × V)) (m : Mem) : D ((T × V) × Mem) :=
  match lex text with
  | none => liftC (.error .abort)
  | some ts => match parse ts with
    | none => liftC (.error .abort)
    | some ds => match compile H ds with
      | .error e => liftC (.error e)
      | .ok file => match find f file.ctx.funcs with
        | none => liftC (.error .abort)
        | some g => g args (file.mem ++ m)

end Verif.Spec.CSource
