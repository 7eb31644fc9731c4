/-!
Specification of lists: a list is a sequence of values. A membership of the list is named by the number of the insertion that made it.
-/

namespace Verif.Spec.List

/-- The operations on one list; `k` names a membership. -/
inductive Op where
  | append (v : Nat)
  | prepend (v : Nat)
  | insertBefore (v k : Nat)
  | remove (k : Nat)
  | popFirst
  | popLast
  | first
  | last
  | next (k : Nat)
  | previous (k : Nat)
  | value (k : Nat)
  | get (v : Nat)
  | getByIndex (i : Int)
  | size
  | empty

/-- What an operation returns; `ι` names memberships, `none` is NULL. -/
inductive Res (ι : Type) where
  | elem (k : Option ι)
  | value (v : Nat)
  | size (n : Nat)
  | empty (b : Bool)
  | nothing
  deriving DecidableEq

/-- The sequence of memberships with their values, and the number of insertions so far. -/
structure State where
  seq : List (Nat × Nat)
  made : Nat
  deriving DecidableEq

/-- The list without a member. -/
def without (k : Nat) (s : List (Nat × Nat)) : List (Nat × Nat) := s.filter (fun p => p.1 != k)

/-- The list with `x` before the member `k`. -/
def insertBefore (x : Nat × Nat) (k : Nat) : List (Nat × Nat) → List (Nat × Nat)
  | [] => []
  | y :: ys => if y.1 = k then x :: y :: ys else y :: insertBefore x k ys

/-- The member after the member `k`. -/
def after (k : Nat) (s : List (Nat × Nat)) : Option Nat := ((s.dropWhile (fun p => p.1 != k)).tail.head?).map (·.1)

/-- The operations on sequences; `none` where a call is not permitted: a membership that is not in the list, more than 2^64 members or, for
`getByIndex`, an index that is not an `int` or a negative one when there are 2^31 members or more. -/
def step (s : State) : Op → Option (Res Nat × State)
  | .append v => some (.elem (some s.made), ⟨s.seq ++ [(s.made, v)], s.made + 1⟩)
  | .prepend v => some (.elem (some s.made), ⟨(s.made, v) :: s.seq, s.made + 1⟩)
  | .insertBefore v k => if k ∈ s.seq.map (·.1) then some (.elem (some s.made), ⟨insertBefore (s.made, v) k s.seq, s.made + 1⟩) else none
  | .remove k => if k ∈ s.seq.map (·.1) then some (.nothing, { s with seq := without k s.seq }) else none
  | .popFirst => match s.seq with
    | [] => some (.value 0, s)
    | p :: ps => some (.value p.2, { s with seq := ps })
  | .popLast => match s.seq.getLast? with
    | none => some (.value 0, s)
    | some p => some (.value p.2, { s with seq := s.seq.dropLast })
  | .first => some (.elem (s.seq.head?.map (·.1)), s)
  | .last => some (.elem (s.seq.getLast?.map (·.1)), s)
  | .next k => if k ∈ s.seq.map (·.1) then some (.elem (after k s.seq), s) else none
  | .previous k => if k ∈ s.seq.map (·.1) then some (.elem (after k s.seq.reverse), s) else none
  | .value k => match s.seq.find? (fun p => p.1 == k) with
    | some p => some (.value p.2, s)
    | none => none
  | .get v => some (.elem ((s.seq.find? (fun p => p.2 == v)).map (·.1)), s)
  | .getByIndex i =>
    if i < 2 ^ 31 ∧ (0 ≤ i ∨ s.seq.length < 2 ^ 31) then some (.elem (if i < 0 then none else (s.seq[i.toNat]?).map (·.1)), s) else none
  | .size => if s.seq.length < 2 ^ 64 then some (.size s.seq.length, s) else none
  | .empty => some (.empty s.seq.isEmpty, s)

/-- A sequence of operations. -/
def run (s : State) : List Op → Option (List (Res Nat) × State)
  | [] => some ([], s)
  | op :: ops => match step s op with
    | none => none
    | some (r, s') => match run s' ops with
      | none => none
      | some (rs, s'') => some (r :: rs, s'')

/-- The empty list. -/
def init : State := ⟨[], 0⟩

/-- A program on several lists, named in the order of their creation. -/
inductive Cmd where
  | make
  | copy (i : Nat)
  | destroy (i : Nat)
  | on (i : Nat) (op : Op)

/-- A copy: the same values, the memberships named anew. -/
def copied (s : State) : State := ⟨s.seq.mapIdx (fun k p => (k, p.2)), s.seq.length⟩

/-- Programs on sequences; `none` in the world is a destroyed list. -/
def exec (w : List (Option State)) : Cmd → Option (Res Nat × List (Option State))
  | .make => some (.nothing, w ++ [some init])
  | .copy i => match w[i]? with
    | some (some s) => some (.nothing, w ++ [some (copied s)])
    | _ => none
  | .destroy i => match w[i]? with
    | some (some _) => some (.nothing, w.set i none)
    | _ => none
  | .on i op => match w[i]? with
    | some (some s) => match step s op with
      | some (r, s') => some (r, w.set i (some s'))
      | none => none
    | _ => none

/-- The list whose memberships a command returns. -/
def Cmd.list : Cmd → Nat
  | .on i _ => i
  | _ => 0

/-- A whole program, with the results of its commands. -/
def execs (w : List (Option State)) : List Cmd → Option (List (Nat × Res Nat) × List (Option State))
  | [] => some ([], w)
  | c :: cs => match exec w c with
    | none => none
    | some (r, w') => match execs w' cs with
      | none => none
      | some (rs, w'') => some ((c.list, r) :: rs, w'')

end Verif.Spec.List
