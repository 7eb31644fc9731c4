import Verif.Model.Base64
import Verif.Model.Date
import Verif.Model.Float
import Verif.Model.ByteArray
import Verif.Model.Url
import Verif.Model.Charstr
import Verif.Model.Utf8
import Verif.Model.Case
open Verif

def b (s : String) : List UInt8 := s.toUTF8.toList
def z (s : String) : List UInt8 := b s ++ [0]
def cstr (l : List UInt8) : List UInt8 := l.takeWhile (· != 0)
def junkL (n : Nat) : List UInt8 := List.replicate n 94
def ok? {α} (x : C α) : Option α := match x with | .ok a => some a | .error _ => none
def chk (n : String) (t : Bool) : IO Unit := if t then pure () else IO.println s!"FAIL {n}"

def base64 : IO Unit := do
  for (d, e) in [("tytäryhtiöraportti", "dHl0w6RyeWh0acO2cmFwb3J0dGk="), ("hälytysajoneuvo", "aMOkbHl0eXNham9uZXV2bw=="),
      ("012345678901234567890", "MDEyMzQ1Njc4OTAxMjM0NTY3ODkw"), ("", ""), (".", "Lg==")] do
    chk "len" (ok? (Base64.encodeBuffer (b d) [] 0xFF 0xFF) |>.any (·.1 == (b e).length))
    chk "size" ((Base64.encodingSize (UInt64.ofNat (b d).length)).toNat == (b e).length)
    for j in List.range (b e).length do
      match ok? (Base64.encodeBuffer (b d) (junkL (j+1)) 0xFF 0xFF) with
      | some (n, o) => chk "trunc" (n == (b e).length && o == (b e).take j ++ [0])
      | none => chk "trunc ub" false
    match ok? (Base64.encodeBuffer (b d) (junkL ((b e).length+10)) 0xFF 0xFF) with
    | some (n, o) => chk "enc" (n == (b e).length && cstr o == b e)
    | none => chk "ub" false
    match ok? (Base64.decodeSimple junkL (z e)) with
    | some (some (o, n)) => chk "dec" (n == (b d).length && cstr o == b d)
    | _ => chk "dec" false
    chk "encS" ((ok? (Base64.encodeSimple junkL (b d))).any (fun o => o.any (fun o => cstr o == b e)))

def fl : IO Unit := do
  let pi : Float := 3.14159265358979323846
  for v in [pi, -pi, 0.0/0.0, 1.0/0.0, 0.1, -0.1, 1e20, -1e20] do
    chk "fi" (match Verif.Float64.toInteger v.toBits with | .ok none => true | _ => false)
    chk "fu" (match Verif.Float64.toUnsigned v.toBits with | .ok none => true | _ => false)
  for (v, n) in [((0.0 : Float), (0:Int)), (127, 127), (-127, -127), (9007199254740992.0 + 1, 9007199254740992)] do
    chk "fi2" (match Verif.Float64.toInteger v.toBits with | .ok (some m) => m == n | _ => false)
    chk "fu2" (match Verif.Float64.toUnsigned v.toBits with | .ok (some m) => n ≥ 0 && (m : Int) == n | .ok none => n < 0 | _ => false)

def J : BA.Junk := fun _ => 94
def ba : IO Unit := do
  let r : C (List Bool) := do
    let a ← BA.make J 8
    let (t1, a) ← BA.appendString J a (z "foo")
    let c1 := a.cursor == 3 && a.data.take 3 == b "foo"
    let (t2, a) ← BA.appendString J a (z "bar")
    let c2 := a.cursor == 6 && a.data.take 6 == b "foobar"
    let (t3, a) ← BA.appendString J a (z "bar")
    let a ← BA.clear a
    let (t4, a) ← BA.copyString J a 1 (z "foobar")
    let (t5, a) ← BA.copyString J a 0 (z "foo")
    let (t6, a) ← BA.copyString J a a.cursor (z "bar")
    let (t7, a) ← BA.copy J a 1 (a.data.take 3)
    let c3 := cstr a.data == b "ffooar"
    let (t8, a) ← BA.copyString J a 4 (z "bar")
    let c4 := cstr a.data == b "ffoobar"
    let a ← BA.clear a
    let (t9, a) ← BA.appendString J a (z "foobar")
    let (t10, a) ← BA.resize J a 3 0
    let c5 := cstr a.data == b "foo"
    let (t11, a) ← BA.resize J a 7 97
    let c6 := cstr a.data == b "fooaaaa"
    let a ← BA.clear a
    pure [t1, c1, t2, c2, !t3, !t4, t5, t6, t7, c3, t8, c4, t9, t10, c5, t11, c6, a.cursor == 0]
  match r with
  | .ok l => chk s!"ba {l}" (l.all id)
  | .error _ => chk "ba ub" false

def url : IO Unit := do
  let J : BA.Junk := fun _ => 94
  let s := z "a ? b : c"
  match Url.urlEncode J s with
  | .ok e => do
    chk "ue" (cstr e == b "a+%3F+b+%3A+c")
    match Url.urlDecode J e true with
    | .ok (some (d, _)) => chk "ud" (cstr d == cstr s)
    | _ => chk "ud" false
  | _ => chk "ue" false
  match (do let e ← Url.createUrlEncoder (z " b") (z ":"); Url.customEncode J e s) with
  | .ok e => do
    chk "uc" (cstr e == b "a%20%3F%20%62%20:%20c")
    match Url.urlDecode J e true with
    | .ok (some (d, _)) => chk "ud" (cstr d == cstr s)
    | _ => chk "ud" false
  | _ => chk "uc" false

def str : IO Unit := do
  let t := z "ℕ⊆ℕ₀"
  for (s, r) in [("ℕ⊆ℕ₀", true), ("ℕ⊆ℕ", false), ("⊆ℕ₀", true), ("ℕ⊆", false), ("⊆ℕ", false), ("ℕ₀", true), ("₀", true)] do
    chk "ends" (ok? (Charstr.endsWith t (z s)) == some r)
  let l1 := fun (s : String) => s.toList.map fun c => if c.toNat > 255 then (0:UInt8) else UInt8.ofNat c.toNat
  let bad := b "¿Qué ha pasado? " ++ l1 "Hän sai bänät tyttöystävältään" ++ [0]
  let exp := b "¿Qué ha pasado? H�n sai b�n�t tytt�yst�v�lt��n"
  chk "san" ((ok? (Utf8.sanitize junkL bad)).any (fun o => cstr o == exp))

def main : IO Unit := do
  base64; fl; ba; url; str
  IO.println "done"
