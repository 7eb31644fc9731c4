import Verif.Base.Diverge
import Verif.Base.Chars

/-!
Meaning of C source text, for the part of the language that the generators of `/repo/src` write: a lexer (6.4 of the C standard), a parser
for declarations, statements and expressions (6.5, 6.7, 6.8, 6.9), and their semantics. Directives are skipped; what the included headers
define is a parameter. `int` has 32 bits, `uint64_t` 64. What lies outside this part of the language is refused (`none`) or an error.
-/

set_option autoImplicit false

namespace Verif.Spec.CText

abbrev Str := List Char

/-! ## Lexer -/

inductive Sym
  | lpar | rpar | lbrace | rbrace | lbrack | rbrack | semi | comma | colon | quest | dot
  | star | slash | percent | plus | minus | shl | lt | gt | le | ge | eq | ne | amp | bar | barbar | assign
  deriving DecidableEq, Repr

inductive Key
  | static | const | struct | int | char | return | if | else | while | switch | case | default
  deriving DecidableEq, Repr

inductive Tok
  | sym (s : Sym)
  | key (k : Key)
  | ident (x : Str)
  | num (n : Nat)
  | str (bs : List Nat)
  deriving DecidableEq, Repr

/-- The value of a digit in base `b`. -/
def digit (b : Nat) (c : Char) : Option Nat :=
  let n := c.toNat
  let v := if 48 ≤ n ∧ n ≤ 57 then n - 48 else if 97 ≤ n ∧ n ≤ 102 then n - 87 else if 65 ≤ n ∧ n ≤ 70 then n - 55 else 99
  if v < b then some v else none

/-- The number that `s` denotes in base `b`, after `a` for the digits before. -/
def number (b : Nat) (a : Nat) : Str → Option Nat
  | [] => some a
  | c :: s => match digit b c with
    | none => none
    | some d => number b (a * b + d) s

/-- An integer constant without suffix (6.4.4.1): hexadecimal, octal or decimal. -/
def constant : Str → Option Nat
  | '0' :: 'x' :: c :: s => number 16 0 (c :: s)
  | '0' :: s => number 8 0 s
  | s => number 10 0 s

def isDigit (c : Char) : Bool := 48 ≤ c.toNat && c.toNat ≤ 57

/-- Letters, digits and the underscore. -/
def isWord (c : Char) : Bool :=
  isDigit c || (65 ≤ c.toNat && c.toNat ≤ 90) || (97 ≤ c.toNat && c.toNat ≤ 122) || c == '_'

def keyword (w : Str) : Option Key :=
  if w = c!"static" then some .static else if w = c!"const" then some .const else if w = c!"struct" then some .struct
  else if w = c!"int" then some .int else if w = c!"char" then some .char else if w = c!"return" then some .return
  else if w = c!"if" then some .if else if w = c!"else" then some .else else if w = c!"while" then some .while
  else if w = c!"switch" then some .switch else if w = c!"case" then some .case else if w = c!"default" then some .default else none

/-- A maximal run of letters, digits and underscores: a constant, a keyword or an identifier. -/
def word (w : Str) : Option Tok :=
  match w with
  | [] => none
  | c :: _ => if isDigit c then (constant w).map .num else some (match keyword w with | some k => .key k | none => .ident w)

/-- Where the lexer is: between tokens, in a word (its characters in reverse), behind the first character of an operator that may have two, in
a string (its bytes in reverse), behind a backslash with `k` octal digits of value `v`, in a directive. -/
inductive At
  | free
  | word (w : Str)
  | op (c : Char)
  | string (bs : List Nat)
  | escape (bs : List Nat) (k v : Nat)
  | directive
  deriving DecidableEq, Repr

/-- A character between tokens. -/
def start (c : Char) : Option (List Tok × At) :=
  if isWord c then some ([], .word [c])
  else match c with
    | ' ' => some ([], .free)
    | '\n' => some ([], .free)
    | '#' => some ([], .directive)
    | '"' => some ([], .string [])
    | '<' => some ([], .op c)
    | '>' => some ([], .op c)
    | '=' => some ([], .op c)
    | '!' => some ([], .op c)
    | '|' => some ([], .op c)
    | '(' => some ([.sym .lpar], .free)
    | ')' => some ([.sym .rpar], .free)
    | '{' => some ([.sym .lbrace], .free)
    | '}' => some ([.sym .rbrace], .free)
    | '[' => some ([.sym .lbrack], .free)
    | ']' => some ([.sym .rbrack], .free)
    | ';' => some ([.sym .semi], .free)
    | ',' => some ([.sym .comma], .free)
    | ':' => some ([.sym .colon], .free)
    | '?' => some ([.sym .quest], .free)
    | '.' => some ([.sym .dot], .free)
    | '*' => some ([.sym .star], .free)
    | '/' => some ([.sym .slash], .free)
    | '%' => some ([.sym .percent], .free)
    | '+' => some ([.sym .plus], .free)
    | '-' => some ([.sym .minus], .free)
    | '&' => some ([.sym .amp], .free)
    | _ => none

/-- An operator of one character that could have had a second. -/
def single : Char → Option Sym
  | '<' => some .lt
  | '>' => some .gt
  | '=' => some .assign
  | '|' => some .bar
  | _ => none

/-- An operator of two characters. -/
def double : Char → Char → Option Sym
  | '<', '<' => some .shl
  | '<', '=' => some .le
  | '>', '=' => some .ge
  | '=', '=' => some .eq
  | '!', '=' => some .ne
  | '|', '|' => some .barbar
  | _, _ => none

/-- A token, then a character behind it. -/
def after (t : Tok) (c : Char) : Option (List Tok × At) :=
  match start c with
  | none => none
  | some (ts, s) => some (t :: ts, s)

/-- A character inside a string. -/
def inString (bs : List Nat) (c : Char) : Option (List Tok × At) :=
  if c = '"' then some ([.str bs.reverse], .free)
  else if c = '\\' then some ([], .escape bs 0 0)
  else if c = '\n' then none
  else if c.toNat < 128 then some ([], .string (c.toNat :: bs))
  else none

/-- One character. The longest sequence of characters that can make up a token is one (6.4); an octal escape has at most three digits (6.4.4.4) and
must fit a byte. -/
def step (s : At) (c : Char) : Option (List Tok × At) :=
  match s with
  | .free => start c
  | .word w =>
    if isWord c then some ([], .word (c :: w))
    else match word w.reverse with
      | none => none
      | some t => after t c
  | .op a => match double a c with
    | some s => some ([.sym s], .free)
    | none => match single a with
      | none => none
      | some s => after (.sym s) c
  | .string bs => inString bs c
  | .escape bs k v => match digit 8 c with
    | some d => if k < 3 then some ([], .escape bs (k + 1) (v * 8 + d)) else if v < 256 then inString (v :: bs) c else none
    | none => if k = 0 then none else if v < 256 then inString (v :: bs) c else none
  | .directive => if c = '\n' then some ([], .free) else some ([], .directive)

/-- A text. -/
def feed : At → Str → Option (List Tok × At)
  | s, [] => some ([], s)
  | s, c :: cs => match step s c with
    | none => none
    | some (ts, s) => match feed s cs with
      | none => none
      | some (us, s) => some (ts ++ us, s)

/-- The tokens of a source file; it must end between tokens. -/
def lex (text : Str) : Option (List Tok) :=
  match feed .free text with
  | some (ts, .free) => some ts
  | _ => none

/-! ## Parser -/

/-- Expressions. -/
inductive E
  | num (n : Nat)
  | str (bs : List Nat)
  | var (x : Str)
  | neg (e : E)
  | cast (e : E)
  | bin (op : Sym) (a b : E)
  | cond (c a b : E)
  | index (a i : E)
  | field (a : E) (x : Str)
  | call (f : Str) (a : E)
  deriving DecidableEq, Repr

/-- Statements. `decl` declares an `int`; a label is `case n:` or `default:`. -/
inductive S
  | skip
  | seq (s t : S)
  | ret (e : E)
  | ite (c : E) (s t : S)
  | while (c : E) (s : S)
  | decl (x : Str) (e : E)
  | assign (x : Str) (e : E)
  | switch (e : E) (s : S)
  | label (n : Option Nat) (s : S)
  deriving DecidableEq, Repr

/-- How tightly a binary operator binds (6.5.5 to 6.5.14). -/
def prec : Sym → Option Nat
  | .star => some 10
  | .slash => some 10
  | .percent => some 10
  | .plus => some 9
  | .minus => some 9
  | .shl => some 8
  | .lt => some 7
  | .gt => some 7
  | .le => some 7
  | .ge => some 7
  | .eq => some 6
  | .ne => some 6
  | .amp => some 5
  | .bar => some 3
  | .barbar => some 1
  | _ => none

abbrev Parse (α : Type) := Option (α × List Tok)

/-- The token `s` is next. -/
def expect (s : Sym) : List Tok → Option (List Tok)
  | .sym t :: ts => if t = s then some ts else none
  | _ => none

mutual
/-- A cast expression (6.5.4); the only cast is `(uint64_t)`. -/
def pUnary : Nat → List Tok → Parse E
  | 0, _ => none
  | f + 1, ts => match ts with
    | .num n :: ts => pPostfix f (.num n) ts
    | .str bs :: ts => pPostfix f (.str bs) ts
    | .ident x :: .sym .lpar :: ts => match pExpr f ts with
      | none => none
      | some (a, ts) => match expect .rpar ts with
        | none => none
        | some ts => pPostfix f (.call x a) ts
    | .ident x :: ts => pPostfix f (.var x) ts
    | .sym .minus :: ts => match pUnary f ts with
      | none => none
      | some (e, ts) => some (.neg e, ts)
    | .sym .lpar :: .ident x :: .sym .rpar :: ts =>
      if x = c!"uint64_t" then match pUnary f ts with
        | none => none
        | some (e, ts) => some (.cast e, ts)
      else pPostfix f (.var x) ts
    | .sym .lpar :: ts => match pExpr f ts with
      | none => none
      | some (e, ts) => match expect .rpar ts with
        | none => none
        | some ts => pPostfix f e ts
    | _ => none

/-- What follows a primary expression (6.5.2). -/
def pPostfix : Nat → E → List Tok → Parse E
  | 0, _, _ => none
  | f + 1, e, ts => match ts with
    | .sym .lbrack :: ts => match pExpr f ts with
      | none => none
      | some (i, ts) => match expect .rbrack ts with
        | none => none
        | some ts => pPostfix f (.index e i) ts
    | .sym .dot :: .ident x :: ts => pPostfix f (.field e x) ts
    | _ => some (e, ts)

/-- Binary operators that bind at least as tightly as `p`, after the first operand; they group from left to right. -/
def pBinary : Nat → Nat → E → List Tok → Parse E
  | 0, _, _, _ => none
  | f + 1, p, e, ts => match ts with
    | .sym op :: us => match prec op with
      | none => some (e, ts)
      | some q =>
        if p ≤ q then match pUnary f us with
          | none => none
          | some (b, us) => match pBinary f (q + 1) b us with
            | none => none
            | some (b, us) => pBinary f p (.bin op e b) us
        else some (e, ts)
    | _ => some (e, ts)

/-- An expression without assignments and commas (6.5.15). -/
def pExpr : Nat → List Tok → Parse E
  | 0, _ => none
  | f + 1, ts => match pUnary f ts with
    | none => none
    | some (e, ts) => match pBinary f 0 e ts with
      | none => none
      | some (e, ts) => match ts with
        | .sym .quest :: ts => match pExpr f ts with
          | none => none
          | some (a, ts) => match expect .colon ts with
            | none => none
            | some ts => match pExpr f ts with
              | none => none
              | some (b, ts) => some (.cond e a b, ts)
        | _ => some (e, ts)
end

/-- An expression; there are more steps than any expression of so many tokens needs. -/
def expr (ts : List Tok) : Parse E := pExpr (4 * ts.length + 32) ts

/-- `x = e, y = e, …;` after `int`. -/
def pDecls : Nat → List Tok → Parse S
  | 0, _ => none
  | f + 1, ts => match ts with
    | .ident x :: .sym .assign :: ts => match expr ts with
      | none => none
      | some (e, ts) => match ts with
        | .sym .semi :: ts => some (.decl x e, ts)
        | .sym .comma :: ts => match pDecls f ts with
          | none => none
          | some (s, ts) => some (.seq (.decl x e) s, ts)
        | _ => none
    | _ => none

/-- `(e)` -/
def pParen (ts : List Tok) : Parse E :=
  match expect .lpar ts with
  | none => none
  | some ts => match expr ts with
    | none => none
    | some (e, ts) => match expect .rpar ts with
      | none => none
      | some ts => some (e, ts)

mutual
/-- A statement (6.8). -/
def pStmt : Nat → List Tok → Parse S
  | 0, _ => none
  | f + 1, ts => match ts with
    | .sym .lbrace :: ts => pStmts f ts
    | .key .return :: ts => match expr ts with
      | none => none
      | some (e, ts) => match expect .semi ts with
        | none => none
        | some ts => some (.ret e, ts)
    | .key .if :: ts => match pParen ts with
      | none => none
      | some (c, ts) => match pStmt f ts with
        | none => none
        | some (s, ts) => match ts with
          | .key .else :: ts => match pStmt f ts with
            | none => none
            | some (t, ts) => some (.ite c s t, ts)
          | _ => some (.ite c s .skip, ts)
    | .key .while :: ts => match pParen ts with
      | none => none
      | some (c, ts) => match pStmt f ts with
        | none => none
        | some (s, ts) => some (.while c s, ts)
    | .key .switch :: ts => match pParen ts with
      | none => none
      | some (c, ts) => match pStmt f ts with
        | none => none
        | some (s, ts) => some (.switch c s, ts)
    | .key .case :: .num n :: .sym .colon :: ts => match pStmt f ts with
      | none => none
      | some (s, ts) => some (.label (some n) s, ts)
    | .key .default :: .sym .colon :: ts => match pStmt f ts with
      | none => none
      | some (s, ts) => some (.label none s, ts)
    | .key .int :: ts => pDecls f ts
    | .ident x :: .sym .assign :: ts => match expr ts with
      | none => none
      | some (e, ts) => match expect .semi ts with
        | none => none
        | some ts => some (.assign x e, ts)
    | _ => none

/-- Statements up to the closing brace. -/
def pStmts : Nat → List Tok → Parse S
  | 0, _ => none
  | f + 1, ts => match ts with
    | .sym .rbrace :: ts => some (.skip, ts)
    | _ => match pStmt f ts with
      | none => none
      | some (s, ts) => match pStmts f ts with
        | none => none
        | some (t, ts) => some (.seq s t, ts)
end

/-- A constant in an initializer. -/
inductive Cst
  | num (n : Nat)
  | str (bs : List Nat)
  deriving DecidableEq, Repr

/-- An element of an initializer: a constant, or the members of a structure in braces. -/
abbrev Init := List Cst

/-- A constant. -/
def pCst : List Tok → Parse Cst
  | .num n :: ts => some (.num n, ts)
  | .str bs :: ts => some (.str bs, ts)
  | _ => none

/-- Constants up to the closing brace, with a comma after each but perhaps the last. -/
def pMembers : Nat → List Tok → Parse Init
  | 0, _ => none
  | f + 1, ts => match pCst ts with
    | none => none
    | some (c, ts) => match ts with
      | .sym .rbrace :: ts => some ([c], ts)
      | .sym .comma :: .sym .rbrace :: ts => some ([c], ts)
      | .sym .comma :: ts => match pMembers f ts with
        | none => none
        | some (cs, ts) => some (c :: cs, ts)
      | _ => none

/-- Elements up to the closing brace. -/
def pInits : Nat → List Tok → Parse (List Init)
  | 0, _ => none
  | f + 1, ts =>
    let first : Parse Init := match ts with
      | .sym .lbrace :: ts => pMembers ts.length ts
      | _ => match pCst ts with
        | none => none
        | some (c, ts) => some ([c], ts)
    match first with
    | none => none
    | some (c, ts) => match ts with
      | .sym .rbrace :: ts => some ([c], ts)
      | .sym .comma :: .sym .rbrace :: ts => some ([c], ts)
      | .sym .comma :: ts => match pInits f ts with
        | none => none
        | some (cs, ts) => some (c :: cs, ts)
      | _ => none

/-- The types. -/
inductive Ty
  | int
  | bool
  | u64
  | ptr
  | enum
  deriving DecidableEq, Repr

/-- A type and the name that is declared with it. `const` does not matter here; a type that is not predefined is an enumeration. -/
def pType (ts : List Tok) : Parse (Ty × Str) :=
  match ts with
  | .key .int :: .ident x :: ts => some ((.int, x), ts)
  | .key .const :: .key .int :: .sym .star :: .ident x :: ts => some ((.ptr, x), ts)
  | .key .const :: .key .char :: .sym .star :: .ident x :: ts => some ((.ptr, x), ts)
  | .key .const :: .key .int :: .ident x :: ts => some ((.int, x), ts)
  | .key .const :: .ident t :: .ident x :: ts => some ((if t = c!"uint64_t" then .u64 else if t = c!"bool" then .bool else .enum, x), ts)
  | .ident t :: .ident x :: ts => some ((if t = c!"uint64_t" then .u64 else if t = c!"bool" then .bool else .enum, x), ts)
  | _ => none

/-- External declarations (6.9): a function of `int` parameters, an array of `size` elements (`none` if the initializer says how many) or an array of
structures with the given members. -/
inductive Decl
  | func (ret : Ty) (name : Str) (params : List Str) (body : S)
  | array (elem : Ty) (name : Str) (size : Option Nat) (init : List Init)
  | records (members : List (Ty × Str)) (name : Str) (size : Option Nat) (init : List Init)
  deriving DecidableEq, Repr

/-- The parameters of a function up to the closing parenthesis; all have type `int`. -/
def pParams : Nat → List Tok → Parse (List Str)
  | 0, _ => none
  | f + 1, ts => match ts with
    | .key .int :: .ident x :: .sym .rpar :: ts => some ([x], ts)
    | .key .int :: .ident x :: .sym .comma :: ts => match pParams f ts with
      | none => none
      | some (xs, ts) => some (x :: xs, ts)
    | _ => none

/-- The members of a structure up to the closing brace. -/
def pFields : Nat → List Tok → Parse (List (Ty × Str))
  | 0, _ => none
  | f + 1, ts => match ts with
    | .sym .rbrace :: ts => some ([], ts)
    | _ => match pType ts with
      | none => none
      | some (m, ts) => match expect .semi ts with
        | none => none
        | some ts => match pFields f ts with
          | none => none
          | some (ms, ts) => some (m :: ms, ts)

/-- `[n] = { … };` or `[] = { … };` -/
def pArray (ts : List Tok) : Parse (Option Nat × List Init) :=
  match ts with
  | .sym .lbrack :: .sym .rbrack :: .sym .assign :: .sym .lbrace :: ts => match pInits ts.length ts with
    | none => none
    | some (is, ts) => match expect .semi ts with
      | none => none
      | some ts => some ((none, is), ts)
  | .sym .lbrack :: .num n :: .sym .rbrack :: .sym .assign :: .sym .lbrace :: ts => match pInits ts.length ts with
    | none => none
    | some (is, ts) => match expect .semi ts with
      | none => none
      | some ts => some ((some n, is), ts)
  | _ => none

/-- An external declaration, after `static` if there is one. -/
def pDecl (ts : List Tok) : Parse Decl :=
  match ts with
  | .key .struct :: .sym .lbrace :: ts => match pFields ts.length ts with
    | none => none
    | some (ms, ts) => match ts with
      | .key .const :: .ident x :: ts => match pArray ts with
        | none => none
        | some ((n, is), ts) => some (.records ms x n is, ts)
      | _ => none
  | _ => match pType ts with
    | none => none
    | some ((t, x), ts) => match ts with
      | .sym .lpar :: ts => match pParams ts.length ts with
        | none => none
        | some (ps, ts) => match ts with
          | .sym .lbrace :: ts => match pStmts (ts.length + 8) ts with
            | none => none
            | some (s, ts) => some (.func t x ps s, ts)
          | _ => none
      | _ => match pArray ts with
        | none => none
        | some ((n, is), ts) => some (.array t x n is, ts)

/-- A translation unit. -/
def pUnit : Nat → List Tok → Option (List Decl)
  | 0, _ => none
  | f + 1, ts => match ts with
    | [] => some []
    | _ => match pDecl (match ts with | .key .static :: ts => ts | _ => ts) with
      | none => none
      | some (d, ts) => match pUnit f ts with
        | none => none
        | some ds => some (d :: ds)

def parse (ts : List Tok) : Option (List Decl) := pUnit (ts.length + 1) ts

/-! ## Semantics -/

/-- Values: numbers, pointers to the first element of a string or of an array of `int`, structures, and arrays of the other types. -/
inductive V
  | int (n : Int)
  | u64 (n : Nat)
  | null
  | str (bs : List Nat)
  | ints (ns : List Nat)
  | words (ns : List Nat)
  | record (ms : List (Str × V))
  | records (rs : List (List (Str × V)))

/-- What a name stands for in a file. -/
inductive Global
  | val (v : V)
  | func (f : List V → D V)

/-- The names of a file so far, the latest first. -/
abbrev Globals := List (Str × Global)

abbrev Locals := List (Str × V)

/-- A result of type `int`: overflow is undefined. -/
def int (n : Int) : C V := if -2 ^ 31 ≤ n ∧ n < 2 ^ 31 then .ok (.int n) else .error .ub

/-- 6.5.5 to 6.5.12 for two numbers, after the usual arithmetic conversions. Bitwise operators on negative numbers are left out. -/
def arith (op : Sym) (a b : Int) : C V :=
  match op with
  | .star => int (a * b)
  | .slash => if b = 0 then .error .ub else int (a.tdiv b)
  | .percent => if b = 0 then .error .ub else int (a.tmod b)
  | .plus => int (a + b)
  | .minus => int (a - b)
  | .lt => int (if a < b then 1 else 0)
  | .gt => int (if a > b then 1 else 0)
  | .le => int (if a ≤ b then 1 else 0)
  | .ge => int (if a ≥ b then 1 else 0)
  | .eq => int (if a = b then 1 else 0)
  | .ne => int (if a ≠ b then 1 else 0)
  | .bar => if 0 ≤ a ∧ 0 ≤ b then int ((a.toNat ||| b.toNat : Nat) : Int) else .error .ub
  | _ => .error .ub

/-- The same if one operand has type `uint64_t`. -/
def arith64 (op : Sym) (a b : Nat) : C V :=
  match op with
  | .amp => .ok (.u64 (a &&& b))
  | .ne => .ok (.int (if a ≠ b then 1 else 0))
  | _ => .error .ub

/-- Conversion to `uint64_t` (6.3.1.3). -/
def toU64 (n : Int) : Nat := (n % 2 ^ 64).toNat

/-- A binary operator other than `||`. The shift count keeps its type and must be below the width (6.5.7). -/
def binary (op : Sym) (a b : V) : C V :=
  match op, a, b with
  | .shl, .u64 m, .int k => if 0 ≤ k ∧ k < 64 then .ok (.u64 (m * 2 ^ k.toNat % 2 ^ 64)) else .error .ub
  | op, .int m, .int n => arith op m n
  | op, .u64 m, .u64 n => arith64 op m n
  | op, .u64 m, .int n => arith64 op m (toU64 n)
  | op, .int m, .u64 n => arith64 op (toU64 m) n
  | _, _, _ => .error .ub

/-- Whether a value compares unequal to 0. -/
def truth : V → C Bool
  | .int n => .ok (n != 0)
  | .u64 n => .ok (n != 0)
  | .null => .ok false
  | .str _ => .ok true
  | .ints _ => .ok true
  | _ => .error .ub

/-- The element of an array. -/
def subscript (a i : V) : C V :=
  match a, i with
  | .words ns, .int k => if k < 0 then .error .ub else match ns[k.toNat]? with
    | none => .error .ub
    | some n => .ok (.u64 n)
  | .ints ns, .int k => if k < 0 then .error .ub else match ns[k.toNat]? with
    | none => .error .ub
    | some n => .ok (.int n)
  | .records rs, .int k => if k < 0 then .error .ub else match rs[k.toNat]? with
    | none => .error .ub
    | some r => .ok (.record r)
  | _, _ => .error .ub

/-- The first entry of a name. -/
def find {α : Type} (x : Str) : List (Str × α) → Option α
  | [] => none
  | (y, a) :: l => if x = y then some a else find x l

/-- A member of a structure. -/
def member (a : V) (x : Str) : C V :=
  match a with
  | .record ms => match find x ms with
    | none => .error .abort
    | some v => .ok v
  | _ => .error .abort

/-- An identifier: a local variable, a variable of the file or a constant of the headers. A name that is not declared does not compile. -/
def ident (H : Str → Option V) (G : Globals) (L : Locals) (x : Str) : C V :=
  match find x L with
  | some v => .ok v
  | none => match find x G with
    | some (.val v) => .ok v
    | some (.func _) => .error .abort
    | none => match H x with
      | some v => .ok v
      | none => .error .abort

/-- Expressions. -/
def E.eval (H : Str → Option V) (G : Globals) (L : Locals) : E → D V
  | .num n => liftC (if n < 2 ^ 31 then .ok (.int n) else .error .abort)
  | .str bs => pure (.str bs)
  | .var x => liftC (ident H G L x)
  | .neg e => do
    let v ← e.eval H G L
    liftC (match v with
      | .int n => int (-n)
      | _ => .error .abort)
  | .cast e => do
    let v ← e.eval H G L
    liftC (match v with
      | .int n => .ok (.u64 (toU64 n))
      | .u64 n => .ok (.u64 n)
      | _ => .error .abort)
  | .bin op a b => do
    let x ← a.eval H G L
    if op = .barbar then do
      let t ← liftC (truth x)
      if t then pure (.int 1) else do
        let y ← b.eval H G L
        let u ← liftC (truth y)
        pure (.int (if u then 1 else 0))
    else do
      let y ← b.eval H G L
      liftC (binary op x y)
  | .cond c a b => do
    let t ← liftC (truth (← c.eval H G L))
    if t then a.eval H G L else b.eval H G L
  | .index a i => do
    let x ← a.eval H G L
    let y ← i.eval H G L
    liftC (subscript x y)
  | .field a x => do
    let v ← a.eval H G L
    liftC (member v x)
  | .call f a => do
    let v ← a.eval H G L
    match find f G with
    | some (.func g) => g [v]
    | _ => liftC (.error .abort)

/-- How a statement ends: with a `return`, at its end, or without having met the label that was looked for. -/
inductive Res
  | ret (v : V)
  | next (L : Locals)
  | seek

/-- `x = v` for a local variable. -/
def store (L : Locals) (x : Str) (v : V) : C Locals :=
  match L with
  | [] => .error .abort
  | (y, w) :: L => if x = y then .ok ((y, v) :: L) else match store L x v with
    | .error e => .error e
    | .ok L => .ok ((y, w) :: L)

/-- A loop (6.8.5.1). -/
def loop (cond : Locals → D Bool) (body : Locals → D Res) (L : Locals) : D Res := do
  let t ← cond L
  if t then do
    let r ← body L
    match r with
    | .next L' => loop cond body L'
    | r => pure r
  else pure (.next L)
partial_fixpoint

/-- Statements. `want` is the label that is looked for: control is somewhere before it and nothing is executed until it is found. The scope of a
declaration is not ended at the end of a block; no name is declared twice in what is emitted. -/
def S.exec (H : Str → Option V) (G : Globals) : S → Option (Option Nat) → Locals → D Res
  | .skip, want, L => pure (match want with
    | none => .next L
    | some _ => .seek)
  | .seq s t, want, L => do
    let r ← s.exec H G want L
    match r with
    | .ret v => pure (.ret v)
    | .next L => t.exec H G none L
    | .seek => t.exec H G want L
  | .label n s, want, L =>
    match want with
    | none => s.exec H G none L
    | some l => if n = l then s.exec H G none L else s.exec H G want L
  | .ret e, none, L => do
    let v ← e.eval H G L
    pure (.ret v)
  | .ite c s t, none, L => do
    let b ← liftC (truth (← c.eval H G L))
    if b then s.exec H G none L else t.exec H G none L
  | .while c s, none, L =>
    loop (fun L => do liftC (truth (← c.eval H G L))) (fun L => s.exec H G none L) L
  | .decl x e, none, L => do
    let v ← e.eval H G L
    pure (.next ((x, v) :: L))
  | .assign x e, none, L => do
    let v ← e.eval H G L
    let L ← liftC (store L x v)
    pure (.next L)
  | .switch e s, none, L => do
    let v ← e.eval H G L
    match v with
    | .int n => do
      let r ← s.exec H G (some (if n < 0 then none else some n.toNat)) L
      match r with
      | .seek => do
        let r ← s.exec H G (some none) L
        match r with
        | .seek => pure (.next L)
        | r => pure r
      | r => pure r
    | _ => liftC (.error .abort)
  | .ret _, some _, _ => pure .seek
  | .ite _ _ _, some _, _ => pure .seek
  | .while _ _, some _, _ => pure .seek
  | .decl _ _, some _, _ => pure .seek
  | .assign _ _, some _, _ => pure .seek
  | .switch _ _, some _, _ => pure .seek

/-- The labels of the enclosing `switch`. -/
def S.labels : S → List (Option Nat)
  | .seq s t => s.labels ++ t.labels
  | .label n s => n :: s.labels
  | _ => []

/-- No label occurs twice in a `switch` (6.8.4.2), and none stands where `S.exec` does not look for it. -/
def S.wf : S → Prop
  | .seq s t => s.wf ∧ t.wf
  | .label _ s => s.wf
  | .ite _ s t => s.wf ∧ t.wf ∧ s.labels = [] ∧ t.labels = []
  | .while _ s => s.wf ∧ s.labels = []
  | .switch _ s => s.wf ∧ s.labels.Nodup
  | _ => True

instance S.decWf : (s : S) → Decidable s.wf
  | .skip => .isTrue trivial
  | .ret _ => .isTrue trivial
  | .decl _ _ => .isTrue trivial
  | .assign _ _ => .isTrue trivial
  | .seq s t => @instDecidableAnd _ _ (S.decWf s) (S.decWf t)
  | .label _ s => S.decWf s
  | .ite _ s t => @instDecidableAnd _ _ (S.decWf s) (@instDecidableAnd _ _ (S.decWf t) inferInstance)
  | .while _ s => @instDecidableAnd _ _ (S.decWf s) inferInstance
  | .switch _ s => @instDecidableAnd _ _ (S.decWf s) inferInstance

/-- Conversion of the value in a `return` to the type of the function (6.8.6.4). -/
def convert (t : Ty) (v : V) : C V :=
  match t, v with
  | .bool, v => match truth v with
    | .error e => .error e
    | .ok b => .ok (.int (if b then 1 else 0))
  | .int, .int n => .ok (.int n)
  | .enum, .int n => .ok (.int n)
  | .ptr, .null => .ok .null
  | .ptr, .str bs => .ok (.str bs)
  | .ptr, .ints ns => .ok (.ints ns)
  | _, _ => .error .abort

/-- A call of a function. To fall off its end and use the result is undefined. -/
def invoke (H : Str → Option V) (G : Globals) (t : Ty) (ps : List Str) (s : S) (vs : List V) : D V :=
  if ps.length = vs.length then do
    let r ← s.exec H G none (ps.zip vs)
    match r with
    | .ret v => liftC (convert t v)
    | _ => liftC (.error .ub)
  else liftC (.error .abort)

/-- The element that a constant initializes. -/
def element (t : Ty) (c : Cst) : C V :=
  match t, c with
  | .int, .num n => if n < 2 ^ 31 then .ok (.int n) else .error .abort
  | .u64, .num n => if n < 2 ^ 64 then .ok (.u64 n) else .error .abort
  | .ptr, .str bs => .ok (.str bs)
  | _, _ => .error .abort

/-- A structure. -/
def fields : List (Ty × Str) → Init → C (List (Str × V))
  | [], [] => .ok []
  | (t, x) :: ms, c :: cs => match element t c with
    | .error e => .error e
    | .ok v => match fields ms cs with
      | .error e => .error e
      | .ok vs => .ok ((x, v) :: vs)
  | _, _ => .error .abort

/-- The numbers in an initializer, all below `bound`. -/
def numbers (bound : Nat) : List Init → C (List Nat)
  | [] => .ok []
  | [.num n] :: is =>
    if n < bound then match numbers bound is with
      | .error e => .error e
      | .ok ns => .ok (n :: ns)
    else .error .abort
  | _ => .error .abort

/-- The structures in an initializer. -/
def structures (ms : List (Ty × Str)) : List Init → C (List (List (Str × V)))
  | [] => .ok []
  | i :: is => match fields ms i with
    | .error e => .error e
    | .ok r => match structures ms is with
      | .error e => .error e
      | .ok rs => .ok (r :: rs)

/-- The size of an array must be the number of elements of its initializer, or left out. C allows larger sizes as well. -/
def fits (size : Option Nat) (count : Nat) : Prop := count ≠ 0 ∧ ∀ n ∈ size, n = count

instance (size : Option Nat) (count : Nat) : Decidable (fits size count) := by unfold fits; infer_instance

/-- What a declaration declares. -/
def declare (H : Str → Option V) (G : Globals) : Decl → C (Str × Global)
  | .func t x ps s => if s.wf then .ok (x, .func (invoke H G t ps s)) else .error .abort
  | .array t x size is =>
    if fits size is.length then
      match t with
      | .int => match numbers (2 ^ 31) is with
        | .error e => .error e
        | .ok ns => .ok (x, .val (.ints ns))
      | .u64 => match numbers (2 ^ 64) is with
        | .error e => .error e
        | .ok ns => .ok (x, .val (.words ns))
      | _ => .error .abort
    else .error .abort
  | .records ms x size is =>
    if fits size is.length then match structures ms is with
      | .error e => .error e
      | .ok rs => .ok (x, .val (.records rs))
    else .error .abort

/-- Declarations one after the other; a name cannot be defined twice. -/
def load (H : Str → Option V) : List Decl → Globals → C Globals
  | [], G => .ok G
  | d :: ds, G => match declare H G d with
    | .error e => .error e
    | .ok (x, g) => if (find x G).isSome then .error .abort else load H ds ((x, g) :: G)

/-- What a file defines; a file that does not compile is an error. -/
def program (H : Str → Option V) (text : Str) : C Globals :=
  match lex text with
  | none => .error .abort
  | some ts => match parse ts with
    | none => .error .abort
    | some ds => load H ds []

/-- The file compiles, and a call of its function `f` returns `v`. -/
def Means (H : Str → Option V) (text f : Str) (args : List V) (v : V) : Prop :=
  ∃ G g, program H text = .ok G ∧ find f G = some (.func g) ∧ Returns (g args) v

end Verif.Spec.CText
