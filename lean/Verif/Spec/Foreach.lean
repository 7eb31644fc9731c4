import Verif.Spec.Lists

/-!
Programs on lists that use `list_foreach`, with callbacks that call the list functions themselves, on the visited list too. The walk remembers the
element it is at, and goes on from there in whatever the lists are by then.
-/

namespace Verif.Spec.Lists
set_option autoImplicit false

/-- A program on lists. A call depends on the results before it; `each l f` is `list_foreach` on the list `l`, with a callback that runs the program
`f v` for the value `v`. -/
inductive Prog
  | done
  | call (op : Op) (next : Res → Prog)
  | each (list : Nat) (f : Nat → Prog) (next : Prog)

/-- `zs` are the elements after the element `e` in its list, `v` is its value. -/
def At (s : State) (e v : Nat) (zs : List (Nat × Nat)) : Prop := ∃ l ys, (l, ys ++ (e, v) :: zs) ∈ s

mutual
/-- The program can take `s` to `s'`. -/
inductive Runs : Prog → State → State → Prop
  | done {s} : Runs .done s s
  | call {op next s r t s'} (h : Step s op r t) (h' : Runs (next r) t s') : Runs (.call op next) s s'
  | each {l f next s xs t s'} (hl : (l, xs) ∈ s) (hw : Walk f s (head xs) t) (h' : Runs next t s') : Runs (.each l f next) s s'
/-- The walk from the element `e` on, NULL being the end, can take `s` to `s'`. -/
inductive Walk : (Nat → Prog) → State → Nat → State → Prop
  | stop {f s} : Walk f s 0 s
  | visit {f s e v zs t w ys s'} (h : At s e v zs) (hr : Runs (f v) s t) (ht : At t e w ys) (hw : Walk f t (head ys) s') : Walk f s e s'
end

mutual
/-- However the unspecified addresses fall, the program keeps to the rules. -/
inductive Legal : Prog → State → Prop
  | done {s} : Legal .done s
  | call {op next s} (ho : ok s op) (hn : ∀ r t, Step s op r t → Legal (next r) t) : Legal (.call op next) s
  | each {l f next s xs} (hl : (l, xs) ∈ s) (hf : Fair f s (head xs)) (hn : ∀ t, Walk f s (head xs) t → Legal next t) : Legal (.each l f next) s
/-- The callback keeps to the rules: its calls are in order, it leaves the element being visited in a list, and it does not add elements to be
visited for ever. -/
inductive Fair : (Nat → Prog) → State → Nat → Prop
  | stop {f s} : Fair f s 0
  | visit {f s e v zs} (h : At s e v zs) (hl : Legal (f v) s) (hk : ∀ t, Runs (f v) s t → ∃ w ys, At t e w ys)
      (hn : ∀ t w ys, Runs (f v) s t → At t e w ys → Fair f t (head ys)) : Fair f s e
end

end Verif.Spec.Lists
