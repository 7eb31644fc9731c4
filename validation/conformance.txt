import Verif.Proofs.Unidata
import Verif.Model.Idna13
import Verif.Model.Category13
open Verif Verif.Unidata Verif.Unicode Verif.Puny Verif.IdnaGen Verif.Categorize

def u : Ucd := fast
def isSt (s : String) (c : Nat) : Bool := status13 c == s
def idf : Idna where
  valid := isSt "valid"
  deviation := isSt "deviation"
  ignored := isSt "ignored"
  mapped := isSt "mapped"
  mapping c := let m := mapping13 c; if m.isEmpty then none else some m
  mc c := match categoryTable.lookup c with | some (_, .Mc) => true | _ => false

def hexv (s : String) : Nat := s.toList.foldl (fun a c => a*16 + (if c.isDigit then c.toNat-48 else if c.toNat ≥ 97 then c.toNat-87 else c.toNat-55)) 0
def bytesOf (s : String) : List UInt8 := s.toUTF8.toList
def col (s : String) : List UInt8 := (((s.splitOn " ").map fun h => bytesOf (String.singleton (Char.ofNat (hexv h))))).flatten
def buf0 : List UInt8 := List.replicate 1000 170
def cstr (l : List UInt8) : List UInt8 := l.takeWhile (· != 0)

def verify (s d c : List UInt8) : Bool :=
  match (decompose u (s ++ [0], none) buf0 (some 1000)).run with
  | some (.ok (.ptr q, b)) =>
    cstr b == d && q == d.length &&
    match (recompose u (b, none) buf0 (some 1000)).run with
    | some (.ok (.ptr q, b)) => cstr b == c && q == c.length
    | _ => false
  | _ => false

def norm : IO Unit := do
  let f ← IO.FS.readFile "/repo/unicode/NormalizationTest.txt"
  let mut n := 0
  let mut bad := 0
  for line in f.splitOn "\n" do
    if line.isEmpty || line.front == '#' || line.front == '@' then continue
    let cols := ((line.splitOn ";").take 5).map col
    match cols with
    | [a,b,c,d,e] =>
      n := n+1
      let ok := [a,b,c].all (fun s => verify s c b) && [d,e].all (fun s => verify s e d)
      if !ok then
        bad := bad+1
        IO.println s!"BAD {line}"
    | _ => IO.println s!"?? {line}"
  IO.println s!"normalization: {n} lines, {bad} bad"

def strip (s : String) : String := s.trimAscii.toString

def idna : IO Unit := do
  let f ← IO.FS.readFile "/repo/idna/IdnaTestV2.txt"
  let mut n := 0
  let mut strict := 0
  let mut bad := 0
  let mut shouldFail := 0
  let mut ub := 0
  for line in f.splitOn "\n" do
    let body := (line.splitOn "#").headD ""
    let fields := (body.splitOn ";").map strip
    if fields.length < 4 then continue
    let src := fields[0]!
    let tu := fields[1]!
    let ta := fields[3]!
    let st := fields[2]! ++ fields[4]!
    let ta := if ta.isEmpty then tu else ta
    let ta := if ta.isEmpty then src else ta
    n := n+1
    match (idnaEncode u idf (fun k => List.replicate k 170) (bytesOf src ++ [0])).run with
    | some (.ok (some r)) =>
      if cstr r != bytesOf ta then
        bad := bad + 1
        IO.println s!"BAD {line}"
      else if !st.isEmpty && st != "[]" then shouldFail := shouldFail+1
    | some (.ok none) => strict := strict+1
    | _ => ub := ub+1; IO.println s!"UB {line}"
  IO.println s!"idna: {n} lines, {strict} strict, {bad} bad, {shouldFail} accepted though status, {ub} ub"

def main (args : List String) : IO Unit := do
  if args == ["norm"] then norm else idna
