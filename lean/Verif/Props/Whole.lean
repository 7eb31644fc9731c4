import Verif.Proofs.Whole
import Verif.Props.Avl

/-! Properties C107 and C111: all data types and strings of the library in one memory. -/

namespace Verif.Whole
open Spec.Whole (Api Kind Prog World Legal Runs)
set_option autoImplicit false

/-- Nothing has been made yet. -/
def start {ι : Type} (I : ι → Api) : World I := fun i => (I i).start

/-- C107, C111. Take any number of parts of the library, each one being all AVL trees of a comparator, all lists, a hash table, all sets, priority
queues and byte arrays, or all strings. Trees, tables and queues are given their callbacks when they are made and keep them in memory. Every legal program that calls them in any order, with any allocator and from any memory, runs without undefined
behaviour; every call returns what its own part allows, whatever was called on the other parts; memory that was in use before stays as it was;
each block in use besides belongs to exactly one part, and the pointers the program holds belong to the part they came from; a part of which
everything is destroyed owns nothing, and when this is so of all parts, memory is as before. -/
theorem library_refines {A : Alloc} (hA : A.Good) (F : Funs) (m : Mem) {ι : Type} [DecidableEq ι] (kinds : ι → Kind) (hk : ∀ i, Callbacks F (kinds i))
    (p : Prog fun i => (kinds i).api F (Objects.external m)) (hl : Legal p (start _)) :
    ∃ rs locs m' s, Run (exec (fun i => code F (Objects.external m) A (kinds i)) p fun i => (code F (Objects.external m) A (kinds i)).init) m (rs, locs) m' ∧
      Runs p (start _) rs s ∧ (∀ a, m.get a ≠ none → m'.get a = m.get a) ∧
      (∃ own : ι → Nat → Prop, (∀ i j, i ≠ j → ∀ a, own i a → ¬ own j a) ∧ (∀ a, (m.get a = none ∧ m'.get a ≠ none) ↔ ∃ i, own i a) ∧
        (∀ i a, ((kinds i).api F (Objects.external m)).holds (s i) a → own i a) ∧ ∀ i, ((kinds i).api F (Objects.external m)).gone (s i) → ∀ a, ¬ own i a) ∧
      ((∀ i, ((kinds i).api F (Objects.external m)).gone (s i)) → ∀ a, m'.get a = m.get a) := by
  obtain ⟨⟨⟨rs, locs⟩, m', h1, s, base, h2, h3⟩⟩ := exec_sim p (start_inv fun i => impl hA F m (kinds i) (hk i)) hl
  have hframe : ∀ a, m.get a ≠ none → m'.get a = m.get a := fun a ha => h3.frame a fun i hi => ha (h3.fresh i a hi)
  refine ⟨rs, locs, m', s, h1, h2, hframe, ⟨fun i => Own (base i) m', h3.disj, fun a => ⟨fun ha => ?_, fun ⟨i, hi⟩ => ⟨h3.fresh i a hi, hi.2⟩⟩,
    fun i a ha => (impl hA F m (kinds i) (hk i)).holds (h3.each i) ha, fun i hg => (impl hA F m (kinds i) (hk i)).gone (h3.each i) hg⟩, fun hg a => ?_⟩
  · by_contra hn
    rw [not_exists] at hn
    exact ha.2 (by rw [h3.frame a hn]; exact ha.1)
  · exact h3.frame a fun i => (impl hA F m (kinds i) (hk i)).gone (h3.each i) (hg i) a

/-! ### A program that uses everything -/

inductive Part
  | trees
  | reversed
  | lists
  | table
  | objects
  | strings
deriving DecidableEq

/-- Comparator 2 has numbers in their order, or in reverse if its context is not 0; numbers are hashed by themselves. -/
def sampleFuns : Funs := ⟨fun _ o a b => if o = 0 then (a : Int) - b else (b : Int) - a, fun _ k => k, 1⟩

def sampleKinds : Part → Kind
  | .trees => .trees 2 0
  | .reversed => .trees 2 7
  | .lists => .lists
  | .table => .table 3 2
  | .objects => .objects 2 0 0
  | .strings => .strings

theorem sample_callbacks : ∀ i, Callbacks sampleFuns (sampleKinds i)
  | .trees => trivial
  | .reversed => trivial
  | .lists => trivial
  | .table => ⟨fun a => by simp [sampleFuns], fun a b => by simp only [sampleFuns, ↓reduceIte]; omega, fun a b c => by simp only [sampleFuns, ↓reduceIte]; omega,
      fun a b h => by simp only [sampleFuns, ↓reduceIte] at *; omega⟩
  | .objects => ⟨fun a b => by simp only [sampleFuns, ↓reduceIte]; omega, fun a b c => by simp only [sampleFuns, ↓reduceIte]; omega⟩
  | .strings => trivial

abbrev SampleProg := Prog fun i => (sampleKinds i).api sampleFuns (Objects.external [])

/-- A list is made and a new string appended to it; the list is stored in a tree, the tree's pointer in a hash table; a queue gets two elements; the
list is emptied; a tree in reverse order gets two keys; and everything is destroyed, the string last. -/
def sampleProg : SampleProg :=
  .call .lists Spec.Lists.Op.make fun
    | Spec.Lists.Res.ptr l => .call .trees Spec.Avl.Op.make fun
      | Spec.Avl.Res.ptr t => .call .strings (Spec.Strings.Op.printf (fun _ => 0) [.lit [104, 105]]) fun
        | Spec.Strings.Res.ptr p _ =>
        .call .lists (Spec.Lists.Op.append l p) fun _ => .call .trees (Spec.Avl.Op.put t 5 l) fun _ =>
        .call .table (Spec.Whole.TableOp.make 10) fun _ => .call .table (Spec.Whole.TableOp.on (.put 1 t)) fun _ =>
        .call .objects Spec.Objects.Cmd.makeQueue fun _ => .call .objects (Spec.Objects.Cmd.onQueue 0 (.enqueue 3)) fun _ =>
        .call .lists (Spec.Lists.Op.popFirst l) fun _ => .call .trees (Spec.Avl.Op.destroy t) fun _ =>
        .call .objects (Spec.Objects.Cmd.destroy 0) fun _ => .call .table Spec.Whole.TableOp.destroy fun _ =>
        .call .lists (Spec.Lists.Op.destroy l) fun _ => .call .reversed Spec.Avl.Op.make fun
          | Spec.Avl.Res.ptr u => .call .reversed (Spec.Avl.Op.put u 5 50) fun _ => .call .reversed (Spec.Avl.Op.put u 6 60) fun _ =>
            .call .reversed (Spec.Avl.Op.destroy u) fun _ => .call .strings (Spec.Strings.Op.free p) fun _ => .done
          | _ => .done
        | _ => .done
      | _ => .done
    | _ => .done

theorem lists_make {s s' : Spec.Lists.State} {r : Spec.Lists.Res} (h : Spec.Lists.Step s .make r s') : ∃ l, r = .ptr l ∧ Spec.Lists.Has s' l := by
  generalize ho : Spec.Lists.Op.make = op at h
  cases h with
  | make hf => exact ⟨_, rfl, _, Multiset.mem_cons_self _ _, rfl⟩
  | looks h => cases h <;> cases ho
  | _ => cases ho

theorem lists_keep {s s' : Spec.Lists.State} {op : Spec.Lists.Op} {r : Spec.Lists.Res} (h : Spec.Lists.Step s op r s') (hd : ∀ l, op ≠ .destroy l) {l : Nat}
    (hl : Spec.Lists.Has s l) : Spec.Lists.Has s' l := by
  obtain ⟨x, hx, rfl⟩ := hl
  cases h with
  | make hf => exact ⟨x, Multiset.mem_cons_of_mem hx, rfl⟩
  | destroy => exact absurd rfl (hd _)
  | copy h => exact ⟨x, Multiset.mem_cons_of_mem hx, rfl⟩
  | looks h => exact ⟨x, hx, rfl⟩
  | _ =>
    rcases Multiset.mem_cons.1 hx with rfl | hx
    · exact ⟨_, Multiset.mem_cons_self _ _, rfl⟩
    · exact ⟨x, Multiset.mem_cons_of_mem hx, rfl⟩

theorem table_on {same : Nat → Nat → Prop} {s s' : Spec.Whole.Table} {op : Spec.Hash.Op} {r : Spec.Hash.Res} (h : Spec.Whole.TableStep same s (.on op) r s')
    (hs : ∃ items, s.items = some items) : ∃ items, s'.items = some items := by
  cases h with
  | on h => exact ⟨_, rfl⟩
  | off hf h => obtain ⟨_, e⟩ := hs; cases e

theorem strings_printf {ext : Nat → Option (List UInt8)} {s s' : Spec.Strings.State} {junk : Nat → UInt8} {t : List UInt8} {r : Spec.Strings.Res}
    (h : Spec.Strings.Step ext s (.printf junk [.lit t]) r s') (ht : t.length < 2 ^ 31) : ∃ p n, r = .ptr p n ∧ s' p = some (.string (t ++ [0])) := by
  have one : ∀ {u : List UInt8}, Spec.Strings.Prints ext s [.lit t] u → u = t := by
    intro u hu
    cases hu with | lit hu => cases hu; simp
  cases h with
  | printf h1 h2 h3 => obtain rfl := one h1; exact ⟨_, _, rfl, Function.update_self ..⟩
  | printfNull h1 h2 => obtain rfl := one h1; omega

theorem sample_legal : Legal sampleProg (start _) := by
  refine ⟨trivial, fun r s1 h => ?_⟩
  obtain ⟨l, rfl, hl⟩ := lists_make h
  refine ⟨trivial, fun r s2 h => ?_⟩
  obtain ⟨t, rfl, ht⟩ := Avl.make_has h rfl
  refine ⟨by intro a off h; simp at h, fun r s2' h => ?_⟩
  obtain ⟨p, n, rfl, hp⟩ := strings_printf h (by decide)
  refine ⟨hl, fun r s3 h => ?_⟩
  replace hl := lists_keep h (by intro l; exact fun e => by cases e) hl
  refine ⟨ht, fun r s4 h => ?_⟩
  replace ht := (Avl.put_has h t 5 l rfl).1 t ht
  refine ⟨rfl, fun r s5 h => ?_⟩
  cases h
  refine ⟨trivial, fun r s6 h => ?_⟩
  obtain ⟨items, h6⟩ := table_on h ⟨_, rfl⟩
  refine ⟨trivial, fun r s7 h => ?_⟩
  cases h
  refine ⟨⟨_, rfl, by decide⟩, fun r s8 h => ?_⟩
  cases h with | onQueue _ _ _ _ _ e h => _
  cases e; cases h
  refine ⟨hl, fun r s9 h => ?_⟩
  replace hl := lists_keep h (by intro l; exact fun e => by cases e) hl
  refine ⟨ht, fun r s10 h => ?_⟩
  refine ⟨⟨_, rfl⟩, fun r s11 h => ?_⟩
  refine ⟨⟨items, h6⟩, fun r s12 h => ?_⟩
  refine ⟨hl, fun r s13 h => ?_⟩
  refine ⟨trivial, fun r s14 h => ?_⟩
  obtain ⟨u, rfl, hu⟩ := Avl.make_has h rfl
  refine ⟨hu, fun r s15 h => ?_⟩
  replace hu := (Avl.put_has h u 5 50 rfl).1 u hu
  refine ⟨hu, fun r s16 h => ?_⟩
  replace hu := (Avl.put_has h u 6 60 rfl).1 u hu
  refine ⟨hu, fun r s17 h => ?_⟩
  exact ⟨Or.inr ⟨_, hp⟩, fun _ _ _ => trivial⟩

/-- The program runs, with any allocator, from empty memory. -/
example {A : Alloc} (hA : A.Good) : ∃ rs locs m' s,
    Run (exec (fun i => code sampleFuns (Objects.external []) A (sampleKinds i)) sampleProg fun i => (code sampleFuns (Objects.external []) A (sampleKinds i)).init) [] (rs, locs) m' ∧
      Runs sampleProg (start _) rs s := by
  obtain ⟨rs, locs, m', s, h1, h2, -⟩ := library_refines hA sampleFuns [] sampleKinds sample_callbacks sampleProg sample_legal
  exact ⟨rs, locs, m', s, h1, h2⟩

end Verif.Whole
