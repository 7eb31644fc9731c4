import Verif.Proofs.AvlSweep
import Verif.Proofs.ListSweep
import Verif.Proofs.HashSweep
import Verif.Props.Avl
import Verif.Props.HashTable
import Verif.Props.Foreach
import Mathlib.Data.List.TakeWhile

/-! Properties C119 and C120: loops of the user that remove elements while they go through a container, and loops that empty one. -/

set_option autoImplicit false

namespace Verif.Spec

/-- If only the element counts, what is left are the elements that are not to be dropped. -/
theorem kept_filter {α : Type} (d : α → Bool) (xs : List α) : ∀ seen, kept (fun _ x => d x) seen xs = xs.filter fun x => !d x := by
  induction xs with
  | nil => intro seen; rfl
  | cons x xs ih => intro seen; cases h : d x <;> simp [kept, h, ih]

/-- Every other element: what is left of five elements. -/
example : kept (fun seen _ => seen.length % 2 = 0) [] [10, 20, 30, 40, 50] = [20, 40] := by decide

end Verif.Spec

namespace Verif.Avl
open Spec.Avl Spec

/-- C119, trees. After any program, a loop over a tree that fetches the next (or previous) element, then removes the current one if it likes, visits
all elements in order, each once, and leaves those not removed; everything else is as it was, and every program can go on from there as specified. -/
theorem avl_sweep {A : Alloc} (hA : A.Good) (F : Funs) (f d : Nat) (p : Prog) (m0 : Mem) (hp : Legal (F.cmp f d) p ⟨0, 0⟩) :
    ∃ rs m s, Run (exec A F f d p) m0 rs m ∧ Runs (F.cmp f d) p ⟨0, 0⟩ rs s ∧
      ∀ (t : Nat) (items : List Item) (ts : Multiset (Nat × List Item)), s.trees = (t, items) ::ₘ ts → ∀ (back : Bool) (drop : List Item → Item → Bool),
        ∃ m', Run (sweep back drop t) m (visits back items) m' ∧
          ∀ q, Legal (F.cmp f d) q ⟨(t, visits back (kept drop [] (visits back items))) ::ₘ ts, s.loose⟩ →
            ∃ rs' m'' s', Run (exec A F f d q) m' rs' m'' ∧
              Runs (F.cmp f d) q ⟨(t, visits back (kept drop [] (visits back items))) ::ₘ ts, s.loose⟩ rs' s' ∧
              (∀ a, a ∉ addrs s' → m''.get a = m0.get a) ∧ ∀ a ∈ addrs s', m''.get a ≠ none ∧ m0.get a = none := by
  let _ : Ptrs := ⟨0, f, d, 0⟩
  obtain ⟨rs, m, s, h1, h2, h3⟩ := exec_inv hA m0 hp
  refine ⟨rs, m, s, h1, h2, fun t items ts hs back drop => ?_⟩
  obtain ⟨t', ws, det, h, rfl, rfl, hl⟩ := h3.front hs
  obtain ⟨⟨_, m', h4, rfl, t2, e2, h5⟩⟩ := sweep_does back drop h
  refine ⟨m', h4, fun q hq => ?_⟩
  have hi : WInv (F.cmp Ptrs.cmp Ptrs.obj) m0 ⟨(t, visits back (kept drop [] (visits back t'.items))) ::ₘ ↑(ws.map view), s.loose⟩ m' :=
    ⟨_, _, h5, by rw [← e2, hl]; rfl⟩
  obtain ⟨⟨rs', m'', h6, s', h7, ws', det', h8, hs'⟩⟩ := exec_sim hA q _ m' hi hq
  have hm := owned_addrs hs'
  exact ⟨rs', m'', s', h6, h7, fun a ha => h8.frame a fun h' => ha ((hm a).2 h'), fun a ha => ⟨h8.live ((hm a).1 ha), h8.fresh a ((hm a).1 ha)⟩⟩

/-- C120, trees. After any program, popping the first (or last) element until NULL delivers all elements in order, each once, and leaves an empty
tree; everything else is as it was. -/
theorem avl_drain {A : Alloc} (hA : A.Good) (F : Funs) (f d : Nat) (p : Prog) (m0 : Mem) (hp : Legal (F.cmp f d) p ⟨0, 0⟩) :
    ∃ rs m s, Run (exec A F f d p) m0 rs m ∧ Runs (F.cmp f d) p ⟨0, 0⟩ rs s ∧
      ∀ (t : Nat) (items : List Item) (ts : Multiset (Nat × List Item)), s.trees = (t, items) ::ₘ ts → ∀ back : Bool,
        ∃ m', Run (drain back t []) m (visits back items) m' ∧
          ∀ q, Legal (F.cmp f d) q ⟨(t, []) ::ₘ ts, s.loose⟩ →
            ∃ rs' m'' s', Run (exec A F f d q) m' rs' m'' ∧ Runs (F.cmp f d) q ⟨(t, []) ::ₘ ts, s.loose⟩ rs' s' ∧
              (∀ a, a ∉ addrs s' → m''.get a = m0.get a) ∧ ∀ a ∈ addrs s', m''.get a ≠ none ∧ m0.get a = none := by
  let _ : Ptrs := ⟨0, f, d, 0⟩
  obtain ⟨rs, m, s, h1, h2, h3⟩ := exec_inv hA m0 hp
  refine ⟨rs, m, s, h1, h2, fun t items ts hs back => ?_⟩
  obtain ⟨t', ws, det, h, rfl, rfl, hl⟩ := h3.front hs
  obtain ⟨⟨_, m', h4, rfl, t2, e2, h5⟩⟩ := drain_does back (visits back t'.items) (seen := []) h rfl
  refine ⟨m', h4, fun q hq => ?_⟩
  have hi : WInv (F.cmp Ptrs.cmp Ptrs.obj) m0 ⟨(t, []) ::ₘ ↑(ws.map view), s.loose⟩ m' := ⟨_, _, h5, by rw [← e2, hl]; rfl⟩
  obtain ⟨⟨rs', m'', h6, s', h7, ws', det', h8, hs'⟩⟩ := exec_sim hA q _ m' hi hq
  have hm := owned_addrs hs'
  exact ⟨rs', m'', s', h6, h7, fun a ha => h8.frame a fun h' => ha ((hm a).2 h'), fun a ha => ⟨h8.live ((hm a).1 ha), h8.fresh a ((hm a).1 ha)⟩⟩

/-- A tree with two keys. -/
def pairProg : Prog := .call .make fun
  | .ptr t => .call (.put t 7 70) fun _ => .call (.put t 5 50) fun _ => .done
  | _ => .done

/-- Not vacuous: the program keeps to the rules, and can end with a tree of two elements, of which a loop may remove the first. -/
example : Legal (fun a b => (a : Int) - b) pairProg ⟨0, 0⟩ ∧
    (Runs (fun a b => (a : Int) - b) pairProg ⟨0, 0⟩ [.ptr 1, .ptr 0, .ptr 0] ⟨(1, [⟨3, 5, 50⟩, ⟨2, 7, 70⟩]) ::ₘ 0, 0⟩) ∧
    kept (fun _ i => i.key < 6) [] [⟨3, 5, 50⟩, ⟨2, 7, 70⟩] = [(⟨2, 7, 70⟩ : Item)] := by
  refine ⟨⟨trivial, fun r1 s1 h1 => ?_⟩, ?_, by decide⟩
  · obtain ⟨t, rfl, ht⟩ := make_has h1 rfl
    exact ⟨ht, fun r2 s2 h2 => ⟨(put_has h2 _ _ _ rfl).1 t ht, fun _ _ _ => trivial⟩⟩
  · refine .call (.make (a := 1) ⟨by simp, by simp, by simp⟩) (.call (.put_new (xs := []) (ys := []) (a := 2) (by simp) ?_)
      (.call (.put_new (xs := []) (ys := [⟨2, 7, 70⟩]) (a := 3) (by simp) ?_) .done))
    · exact ⟨by simp, by simp, by simp⟩
    · exact ⟨by simp, by simp, by simp⟩

end Verif.Avl

namespace Verif.CList
open Spec
open Spec.Lists (Prog Legal Runs State)

theorem progM_inv {A : Alloc} (hA : A.Good) (m : Mem) {p : Prog} (hl : Legal p 0) : ∃ m' s, Run (progM A p) m () m' ∧ Runs p 0 s ∧ PInv m s m' := by
  obtain ⟨⟨⟩, m', h1, s, h2, h3⟩ := progM_sim (m0 := m) hA hl (m := m) ⟨[], ⟨by simp, by simp [owned], by simp [owned], by simp⟩, rfl⟩
  exact ⟨m', s, h1, h2, h3⟩

/-- What is done after the loop goes as specified. -/
theorem progM_after {A : Alloc} (hA : A.Good) {m0 m : Mem} {s : State} (h : PInv m0 s m) {q : Prog} (hq : Legal q s) :
    ∃ m' s', Run (progM A q) m () m' ∧ Runs q s s' ∧ (∀ a, m0.get a ≠ none → m'.get a = m0.get a) ∧ (s' = 0 → ∀ a, m'.get a = m0.get a) := by
  obtain ⟨⟨⟩, m', h1, s', h2, ws, h3, rfl⟩ := progM_sim hA hq h
  refine ⟨m', _, h1, h2, fun a ha => h3.frame a fun h => ha (h3.fresh a h), fun h0 a => h3.frame a ?_⟩
  obtain rfl : ws = [] := (Multiset.coe_eq_zero ws).1 h0
  simp [owned]

/-- C119, lists. After any program, a loop over a list that fetches the next (or previous) element, then removes the current one if it likes, visits
all elements in order, each once, and leaves those not removed; everything else is as it was, and every program can go on from there as specified. -/
theorem list_sweep {A : Alloc} (hA : A.Good) (m0 : Mem) (p : Prog) (hp : Legal p 0) :
    ∃ m s, Run (progM A p) m0 () m ∧ Runs p 0 s ∧
      ∀ (l : Nat) (xs : List (Nat × Nat)) (ss : State), s = (l, xs) ::ₘ ss → ∀ (back : Bool) (drop : List (Nat × Nat) → Nat × Nat → Bool),
        ∃ m', Run (sweep back drop l) m (visits back xs) m' ∧
          ∀ q, Legal q ((l, visits back (kept drop [] (visits back xs))) ::ₘ ss) →
            ∃ m'' s', Run (progM A q) m' () m'' ∧ Runs q ((l, visits back (kept drop [] (visits back xs))) ::ₘ ss) s' ∧
              (∀ a, m0.get a ≠ none → m''.get a = m0.get a) ∧ (s' = 0 → ∀ a, m''.get a = m0.get a) := by
  obtain ⟨m, s, h1, h2, h3⟩ := progM_inv hA m0 hp
  refine ⟨m, s, h1, h2, fun l xs ss hs back drop => ?_⟩
  obtain ⟨ws, h, rfl⟩ := h3.front hs
  obtain ⟨⟨_, m', h4, rfl, h5⟩⟩ := sweep_does back drop h
  exact ⟨m', h4, fun q hq => progM_after hA ⟨_, h5, rfl⟩ hq⟩

/-- C120, lists. After any program, popping values until the list is empty delivers all values in order and leaves an empty list. Popping until the
value is NULL delivers those in front of the first NULL value, and leaves what comes after that one; everything else is as it was. -/
theorem list_drain {A : Alloc} (hA : A.Good) (m0 : Mem) (p : Prog) (hp : Legal p 0) :
    ∃ m s, Run (progM A p) m0 () m ∧ Runs p 0 s ∧
      ∀ (l : Nat) (xs : List (Nat × Nat)) (ss : State) (back : Bool), s = (l, visits back xs) ::ₘ ss →
        (∃ m', Run (drain back l []) m (xs.map (·.2)) m' ∧ ∀ q, Legal q ((l, []) ::ₘ ss) →
          ∃ m'' s', Run (progM A q) m' () m'' ∧ Runs q ((l, []) ::ₘ ss) s' ∧
            (∀ a, m0.get a ≠ none → m''.get a = m0.get a) ∧ (s' = 0 → ∀ a, m''.get a = m0.get a)) ∧
        ∀ vs : List (Nat × Nat), ((∀ x ∈ vs, x.2 ≠ 0) ∧ xs = vs →
            ∃ m', Run (drainValues back l []) m (vs.map (·.2)) m' ∧ ∀ q, Legal q ((l, []) ::ₘ ss) →
              ∃ m'' s', Run (progM A q) m' () m'' ∧ Runs q ((l, []) ::ₘ ss) s' ∧
                (∀ a, m0.get a ≠ none → m''.get a = m0.get a) ∧ (s' = 0 → ∀ a, m''.get a = m0.get a)) ∧
          ∀ (e : Nat) (ys : List (Nat × Nat)), (∀ x ∈ vs, x.2 ≠ 0) ∧ xs = vs ++ (e, 0) :: ys →
            ∃ m', Run (drainValues back l []) m (vs.map (·.2)) m' ∧ ∀ q, Legal q ((l, visits back ys) ::ₘ ss) →
              ∃ m'' s', Run (progM A q) m' () m'' ∧ Runs q ((l, visits back ys) ::ₘ ss) s' ∧
                (∀ a, m0.get a ≠ none → m''.get a = m0.get a) ∧ (s' = 0 → ∀ a, m''.get a = m0.get a) := by
  obtain ⟨m, s, h1, h2, h3⟩ := progM_inv hA m0 hp
  refine ⟨m, s, h1, h2, fun l xs ss back hs => ?_⟩
  obtain ⟨ws, h, rfl⟩ := h3.front hs
  refine ⟨?_, fun vs => ⟨?_, ?_⟩⟩
  · obtain ⟨⟨_, m', h4, rfl, h5⟩⟩ := drain_does back xs (seen := []) h
    exact ⟨m', h4, fun q hq => progM_after hA ⟨_, h5, rfl⟩ hq⟩
  · rintro ⟨h0, rfl⟩
    have hv : ∀ a ∈ xs.map (·.2), decide (a ≠ 0) = true := by
      intro a ha
      obtain ⟨x, hx, rfl⟩ := List.mem_map.1 ha
      simpa using h0 x hx
    obtain ⟨⟨_, m', h4, rfl, h5⟩⟩ := drainValues_does back xs (seen := []) h
    rw [List.dropWhile_eq_nil_iff.2 (by simpa using h0), List.tail_nil, visits_eq_nil.2 rfl] at h5
    rw [List.takeWhile_eq_self_iff.2 hv] at h4
    exact ⟨m', h4, fun q hq => progM_after hA ⟨_, h5, rfl⟩ hq⟩
  · rintro e ys ⟨h0, rfl⟩
    have hv : ∀ a ∈ vs.map (·.2), decide (a ≠ 0) = true := by
      intro a ha
      obtain ⟨x, hx, rfl⟩ := List.mem_map.1 ha
      simpa using h0 x hx
    obtain ⟨⟨_, m', h4, rfl, h5⟩⟩ := drainValues_does back (vs ++ (e, 0) :: ys) (seen := []) h
    rw [List.dropWhile_append_of_pos (by simpa using h0)] at h5
    rw [List.map_append, List.takeWhile_append_of_pos hv] at h4
    simp only [ne_eq, not_true_eq_false, decide_false, Bool.false_eq_true, not_false_eq_true, List.dropWhile_cons_of_neg, List.tail_cons] at h5
    simp only [List.map_cons, ne_eq, not_true_eq_false, decide_false, Bool.false_eq_true, not_false_eq_true, List.takeWhile_cons_of_neg, List.append_nil] at h4
    exact ⟨m', h4, fun q hq => progM_after hA ⟨_, h5, rfl⟩ hq⟩

/-- A list of three values, the second one NULL. -/
def gapProg : Prog := .call .make fun r => .call (.append (getPtr r) 5) fun _ => .call (.append (getPtr r) 0) fun _ => .call (.append (getPtr r) 7) fun _ => .done

/-- Not vacuous: the program keeps to the rules and can end with that list, and there popping until NULL delivers 5 and leaves 7. -/
example : Legal gapProg 0 ∧ Runs gapProg 0 ((1, visits false [(2, 5), (3, 0), (4, 7)]) ::ₘ 0) ∧
    (∀ x ∈ [(2, 5)], x.2 ≠ 0) ∧ [(2, 5), (3, 0), (4, 7)] = [(2, 5)] ++ (3, 0) :: [(4, 7)] := by
  refine ⟨.call trivial fun r t h => ?_, ?_, by decide, rfl⟩
  · have key : ∀ {s t : State} {l v : Nat} {r : Spec.Lists.Res}, Spec.Lists.Step s (.append l v) r t → Spec.Lists.Has t l := by
      intro s t l v r h
      generalize ho : Spec.Lists.Op.append l v = o at h
      cases h with
      | append hf => cases ho; exact ⟨_, Multiset.mem_cons_self _ _, rfl⟩
      | looks h => cases h <;> cases ho
      | _ => cases ho
    have hm : Spec.Lists.Has t (getPtr r) := by
      generalize ho : Spec.Lists.Op.make = o at h
      generalize (0 : State) = s at h
      cases h with
      | make hf => exact ⟨_, Multiset.mem_cons_self _ _, rfl⟩
      | looks h => cases h <;> cases ho
      | _ => cases ho
    exact .call hm fun _ _ h => .call (key h) fun _ _ h => .call (key h) fun _ _ _ => .done
  · exact .call (.make (a := 1) ⟨by simp, by simp⟩) (.call (.append (a := 2) (xs := []) ⟨by simp, by simp⟩)
      (.call (.append (a := 3) (xs := [(2, 5)]) ⟨by simp, by simp⟩) (.call (.append (a := 4) (xs := [(2, 5), (3, 0)]) ⟨by simp, by simp; omega⟩) .done)))

end Verif.CList

namespace Verif.Hash
open Spec
open Spec.Hash

/-- What is done after the loop goes as specified, and `destroy_hash_table` then leaves only the loose elements. -/
theorem exec_after [Ptrs] {A : Alloc} (hA : A.Good) {F : Funs} {m0 m : Mem} {t cap : Nat} {s : State} (h : HInv (F.hash Ptrs.hash) m0 t cap s m) {q : Prog}
    (hq : Legal (sees (F.hash Ptrs.hash) (F.cmp Ptrs.cmp 0) cap) q s) :
    ∃ rs m' m'' s', Run (exec A F t q) m rs m' ∧ Runs (sees (F.hash Ptrs.hash) (F.cmp Ptrs.cmp 0) cap) q s rs s' ∧
      (∀ a, m0.get a ≠ none → m'.get a = m0.get a) ∧ Run (destroy t) m' () m'' ∧ ∀ a, (∀ i ∈ s'.loose, i.elem ≠ a) → m''.get a = m0.get a := by
  obtain ⟨⟨rs, m', h1, s', h2, -, tb, bs, det, h3, e1, e2⟩⟩ := exec_sim hA q h hq
  obtain ⟨⟨_, m'', h4, h5⟩⟩ := destroy_spec h3
  refine ⟨rs, m', m'', s', h1, h2, fun a ha => h3.frame a fun ho => ha (h3.fresh a ho), h4, fun a ha => ?_⟩
  rw [h5 a, if_neg]
  intro hm
  obtain ⟨d, hd, e⟩ := List.mem_map.1 hm
  exact ha d (by rw [e2]; exact hd) e

/-- C119, hash tables. After any program, for every hash function and comparator, a loop over the table that fetches the next element, then removes the
current one if it likes, visits each element once and leaves those not removed; everything else is as it was, and every program can go on as
specified. -/
theorem hash_sweep {A : Alloc} (hA : A.Good) {F : Funs} {f g : Nat} (n : Nat) (p : Prog) (m0 : Mem)
    (hp : Legal (sees (F.hash f) (F.cmp g 0) (capacity n)) p ⟨0, 0⟩) (drop : List Item → Item → Bool) :
    ∃ t rs m s, Run (session A F f g n p) m0 (t, rs) m ∧ Runs (sees (F.hash f) (F.cmp g 0) (capacity n)) p ⟨0, 0⟩ rs s ∧
      ∃ l m', Run (sweep drop t) m l m' ∧ (l : Multiset Item) = s.items ∧
        ∀ q, Legal (sees (F.hash f) (F.cmp g 0) (capacity n)) q ⟨↑(kept drop [] l), s.loose⟩ → ∃ rs' m2 m3 s', Run (exec A F t q) m' rs' m2 ∧
          Runs (sees (F.hash f) (F.cmp g 0) (capacity n)) q ⟨↑(kept drop [] l), s.loose⟩ rs' s' ∧ (∀ a, m0.get a ≠ none → m2.get a = m0.get a) ∧
          Run (destroy t) m2 () m3 ∧ ∀ a, (∀ i ∈ s'.loose, i.elem ≠ a) → m3.get a = m0.get a := by
  let _ : Ptrs := ⟨f, g, 0, 0⟩
  obtain ⟨⟨⟨t, rs⟩, m, h1, s, h2, h3⟩⟩ := session_sim (m0 := m0) hA hp
  obtain ⟨⟨l, m', h4, h5, h6⟩⟩ := sweep_does drop h3
  exact ⟨t, rs, m, s, h1, h2, l, m', h4, h5, fun q hq => exec_after hA h6 hq⟩

/-- C120, hash tables. After any program, popping elements until NULL delivers each element once and leaves an empty table; everything else is as it
was. -/
theorem hash_drain {A : Alloc} (hA : A.Good) {F : Funs} {f g : Nat} (n : Nat) (p : Prog) (m0 : Mem)
    (hp : Legal (sees (F.hash f) (F.cmp g 0) (capacity n)) p ⟨0, 0⟩) :
    ∃ t rs m s, Run (session A F f g n p) m0 (t, rs) m ∧ Runs (sees (F.hash f) (F.cmp g 0) (capacity n)) p ⟨0, 0⟩ rs s ∧
      ∃ l m', Run (drain t []) m l m' ∧ (l : Multiset Item) = s.items ∧
        ∀ q, Legal (sees (F.hash f) (F.cmp g 0) (capacity n)) q ⟨0, s.loose⟩ → ∃ rs' m2 m3 s', Run (exec A F t q) m' rs' m2 ∧
          Runs (sees (F.hash f) (F.cmp g 0) (capacity n)) q ⟨0, s.loose⟩ rs' s' ∧ (∀ a, m0.get a ≠ none → m2.get a = m0.get a) ∧
          Run (destroy t) m2 () m3 ∧ ∀ a, (∀ i ∈ s'.loose, i.elem ≠ a) → m3.get a = m0.get a := by
  let _ : Ptrs := ⟨f, g, 0, 0⟩
  obtain ⟨⟨⟨t, rs⟩, m, h1, s, h2, h3⟩⟩ := session_sim (m0 := m0) hA hp
  obtain ⟨⟨r, m', h4, l, hr, h5, h6⟩⟩ := drain_does _ (seen := []) rfl h3
  obtain rfl : r = l := hr
  exact ⟨t, rs, m, s, h1, h2, r, m', h4, h5, fun q hq => exec_after hA h6 hq⟩

/-- Not vacuous: a program that keeps to the rules for every hash function and ends with two elements. -/
example : Legal (fun a b => a = b) (.call (.put 1 10) fun _ => .call (.put 2 20) fun _ => .done) ⟨0, 0⟩ ∧
    ∃ rs, Runs (fun a b => a = b) (.call (.put 1 10) fun _ => .call (.put 2 20) fun _ => .done) ⟨0, 0⟩ rs ⟨⟨6, 2, 20⟩ ::ₘ ⟨5, 1, 10⟩ ::ₘ 0, 0⟩ := by
  refine ⟨⟨trivial, fun _ _ _ => ⟨trivial, fun _ _ _ => trivial⟩⟩, _, .call (.put_new (by simp) ⟨by simp, by simp⟩) (.call (.put_new ?_ ⟨by simp, ?_⟩) .done)⟩
  · simp
  · simp

end Verif.Hash
