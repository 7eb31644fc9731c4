import Verif.Proofs.SourceFloat
import Verif.Proofs.SourceDate

/-! From the functions of a file to calls of the file. -/

set_option autoImplicit false

namespace Verif.Source

open Verif.Spec.CSource Verif.Float64 Verif.Date

theorem run_eq {H : Headers} {text : List Str} {ds : List Decl} {file : File} {f : Str} {g : List (T × V) → Mem → D ((T × V) × Mem)} (h : (lex text).bind parse = some ds)
    (hc : compile H ds = .ok file) (hf : find f file.ctx.funcs = some g) (args : List (T × V)) (m : Mem) : run H text f args m = g args (file.mem ++ m) := by
  unfold run
  cases hl : lex text with
  | none => rw [hl] at h; cases h
  | some ts =>
    rw [hl] at h
    have h' : parse ts = some ds := h
    simp only [h', hc, hf]

theorem invoke_ret {c : Ctx} {ty : Str → Option T} {t : T} {ps : List (T × Str)} {s : S} {vs : List (T × V)} {m m' : Mem} {l : List (Str × T × V)} {v : T × V} {w : V}
    (hb : bindArgs ps vs = .ok l) (he : s.exec c ty ⟨l, m⟩ = pure (.ret v m')) (hv : convert t v.2 = .ok w) : invoke c ty t ps s vs m = pure ((t, w), m') := by
  simp only [invoke, hb, liftC_ok, he, pure_bind, hv]

theorem invoke_err {c : Ctx} {ty : Str → Option T} {t : T} {ps : List (T × Str)} {s : S} {vs : List (T × V)} {m : Mem} {l : List (Str × T × V)} {e : Err}
    (hb : bindArgs ps vs = .ok l) (he : s.exec c ty ⟨l, m⟩ = liftC (.error e)) : invoke c ty t ps s vs m = liftC (.error e) := by
  simp only [invoke, hb, liftC_ok, he, liftC_err]

/-! ## float.c -/

/-- The result of a call and the memory after it. -/
def answer (w : V) (m : Mem) : C (Option Int) → D ((T × V) × Mem)
  | .error e => liftC (.error e)
  | .ok none => pure ((.bool, .num 0), (c!"*n", [[([], w)]]) :: m)
  | .ok (some n) => pure ((.bool, .num 1), (c!"*n", [[([], .num n)]]) :: m)

theorem invoke_ending {c : Ctx} {ty : Str → Option T} {ps : List (T × Str)} {s : S} {vs : List (T × V)} {m₀ m : Mem} {l : List (Str × T × V)} {w : V} {r : C (Option Int)}
    (hb : bindArgs ps vs = .ok l) (he : s.exec c ty ⟨l, m₀⟩ = ending w m r) : invoke c ty .bool ps s vs m₀ = answer w m r := by
  rcases r with e | _ | n
  · exact invoke_err hb he
  · exact invoke_ret hb he rfl
  · exact invoke_ret hb he rfl

theorem bind_float (v : UInt64) (b : Bool) :
    bindArgs [(.int false 64, c!"value"), (.ptr (.int b 64), c!"n")] [(.int false 64, .num v.toNat), (.ptr (.int b 64), .ptr c!"*n" 0)] =
      .ok [(c!"value", .int false 64, .num v.toNat), (c!"n", .ptr (.int b 64), .ptr c!"*n" 0)] := by
  have := value_small v
  simp [bindArgs, convert, conv, this]

theorem run_integer (v : UInt64) (w : V) (m : Mem) :
    run limits float c!"binary64_to_integer" [(.int false 64, .num v.toNat), (.ptr (.int true 64), .ptr c!"*n" 0)] ((c!"*n", [[([], w)]]) :: m) =
      answer w m (toInteger v) := by
  rw [run_eq (g := invoke ⟨limits, [], []⟩ (fun _ => none) .bool [(.int false 64, c!"value"), (.ptr (.int true 64), c!"n")] integerBody) float_parses (by rfl)
    (by simp [find, functions, floatDecls])]
  exact invoke_ending (bind_float v true) (integer_exec rfl v w m)

theorem run_unsigned (v : UInt64) (w : V) (m : Mem) :
    run limits float c!"binary64_to_unsigned" [(.int false 64, .num v.toNat), (.ptr (.int false 64), .ptr c!"*n" 0)] ((c!"*n", [[([], w)]]) :: m) =
      answer w m ((toUnsigned v).map fun r => r.map fun n => (n : Int)) := by
  rw [run_eq (g := invoke ⟨limits, [], [(c!"binary64_to_integer", invoke ⟨limits, [], []⟩ (fun _ => none) .bool
      [(.int false 64, c!"value"), (.ptr (.int true 64), c!"n")] integerBody)]⟩ (fun _ => none) .bool [(.int false 64, c!"value"), (.ptr (.int false 64), c!"n")] unsignedBody)
    float_parses (by rfl) (by simp [find, functions, floatDecls])]
  exact invoke_ending (bind_float v false) (unsigned_exec rfl v w m)

/-! ## date.c -/

theorem yday_rows (c : Ctx) : ∀ l : List (Int × Int × Int), (∀ r ∈ l, (0 ≤ r.1 ∧ r.1 ≤ 1) ∧ (0 ≤ r.2.1 ∧ r.2.1 ≤ 11) ∧ (0 ≤ r.2.2 ∧ r.2.2 ≤ 31)) →
    rows c ydayMembers (l.map fun r => [.num r.1.toNat false false, .num r.2.1.toNat false false, .num r.2.2.toNat false false]) =
      .ok (l.map fun r => [(c!"year_offset", .num r.1), (c!"month", .num r.2.1), (c!"mday", .num r.2.2)])
  | [], _ => rfl
  | (a, b, d) :: l, h => by
    obtain ⟨⟨a1, a2⟩, ⟨b1, b2⟩, ⟨d1, d2⟩⟩ := h _ (.head _)
    have ih := yday_rows c l fun r hr => h r (.tail _ hr)
    dsimp only at a1 a2 b1 b2 d1 d2
    have num : ∀ n : Int, 0 ≤ n → n ≤ 31 → constExpr c (.num n.toNat false false) = .ok (.num n) ∧ convert (.int true 32) (.num n) = .ok (.num n) := by
      intro n h0 h1
      refine ⟨?_, convert_i32 ⟨by omega, by omega⟩⟩
      have h2 : n.toNat < 2147483648 := by omega
      have h3 : max n 0 = n := by omega
      simp [constExpr, E.eval, constType, h2, h3]
      rfl
    simp only [List.map_cons, rows, fields, ydayMembers, num a a1 (by omega), num b b1 (by omega), num d d1 d2]
    rw [show rows c [(T.int true 32, c!"year_offset"), (T.int true 32, c!"month"), (T.int true 32, c!"mday")] _ = _ from ih]

/-- The functions of date.c see the structure. -/
def dateCtx : Ctx := ⟨timeHeaders, [(c!"yday_info_t", ydayMembers)], []⟩

theorem date_compiles : compile timeHeaders dateDecls = .ok ⟨functions (fun x => find x [(c!"YDAY_INFO", .struct c!"yday_info_t")]) dateCtx dateDecls,
    [(c!"YDAY_INFO", .struct c!"yday_info_t")], [(c!"YDAY_INFO", ydayRows)]⟩ := by
  have h := yday_rows dateCtx ydayInfo yday_small
  have ho : objects ⟨⟨timeHeaders, [], []⟩, [], []⟩ dateDecls = .ok ⟨dateCtx, [(c!"YDAY_INFO", .struct c!"yday_info_t")], [(c!"YDAY_INFO", ydayRows)]⟩ := by
    have h' : rows ⟨timeHeaders, [(c!"yday_info_t", ydayMembers)], []⟩ ydayMembers _ = _ := h
    simp [objects, dateDecls, members, find, h', pad]
    exact ⟨rfl, rfl⟩
  simp only [compile, ho]

/-- The result of a call and the memory after it. -/
def utcAnswer (rest : Row) (m : Mem) : C Tm → D ((T × V) × Mem)
  | .error e => liftC (.error e)
  | .ok t => pure ((.ptr (.struct c!"tm"), .ptr c!"*tm" 0),
      dateMem (tmRow (.num t.sec) (.num t.min) (.num t.hour) (.num t.mday) (.num t.mon) (.num t.year) (.num t.wday) (.num t.yday) (.num t.isdst) rest) m)

theorem run_date (epoch : Int) (ha : -2 ^ 63 ≤ epoch) (hb : epoch < 2 ^ 63) (v1 v2 v3 v4 v5 v6 v7 v8 v9 : V) (rest : Row) (m : Mem) :
    run timeHeaders date c!"epoch_to_utc" [(.int true 64, .num epoch), (.ptr (.struct c!"tm"), .ptr c!"*tm" 0)]
      ((c!"*tm", [tmRow v1 v2 v3 v4 v5 v6 v7 v8 v9 rest]) :: m) = utcAnswer rest m (epochToUtc epoch) := by
  have hbind : bindArgs [(.int true 64, c!"epoch"), (.ptr (.struct c!"tm"), c!"tm")] [(.int true 64, .num epoch), (.ptr (.struct c!"tm"), .ptr c!"*tm" 0)] =
      .ok [(c!"epoch", .int true 64, .num epoch), (c!"tm", .ptr (.struct c!"tm"), .ptr c!"*tm" 0)] := by
    simp [bindArgs, convert, conv, bmod64 ha hb]
  rw [run_eq (g := invoke dateCtx dateTypes (.ptr (.struct c!"tm")) [(.int true 64, c!"epoch"), (.ptr (.struct c!"tm"), c!"tm")] dateBody) date_parses date_compiles
    (by simp [find, functions, dateDecls]; rfl)]
  have h := date_exec (c := dateCtx) rfl rfl epoch ha hb v1 v2 v3 v4 v5 v6 v7 v8 v9 rest m
  revert h
  cases epochToUtc epoch with
  | error e => exact fun h => invoke_err hbind h
  | ok t => exact fun h => invoke_ret hbind h rfl

end Verif.Source
