import Verif.Props.Whole

/-! Property C111: strings and encoders made by calls. -/

namespace Verif.Strings
open Spec.Strings
open Spec.Whole (Prog Legal Runs)
open Whole (exec stringsCode stringsImpl)
open Function (update)
set_option autoImplicit false

/-- Programs that make string calls. -/
abbrev Calls (m : Mem) := Prog fun _ : Unit => Spec.Whole.strings (Objects.external m)

/-- C111. Every legal program of calls that make, change, split, encode, decode, print and free strings, with any allocator and from any memory,
runs without undefined behaviour, and every call does what it promises to the block it was given, whatever its pointers point to: memory of the
user's own, strings made by earlier calls, or the middle of these. In the end each string the program still has is in a block that was not in use
before, with exactly its bytes; all other memory is as before. -/
theorem strings_refine {A : Alloc} (hA : A.Good) (m : Mem) (p : Calls m) (hl : Legal p fun _ _ => none) :
    ∃ rs locs m' s, Run (exec (fun _ => stringsCode (Objects.external m) A) p fun _ => ()) m (rs, locs) m' ∧ Runs p (fun _ _ => none) rs s ∧
      (∀ q b, s () q = some (.string b) → q ≠ 0 ∧ m.get q = none ∧ m'.get q = some (.bytes b)) ∧
      (∀ q f, s () q = some (.encoder f) → q ≠ 0 ∧ m.get q = none ∧ ∃ b, m'.get q = some (.bytes b) ∧ b.length = 1024) ∧
      ∀ a, s () a = none → m'.get a = m.get a := by
  obtain ⟨⟨⟨rs, locs⟩, m', h1, s, base, h2, h3⟩⟩ := Whole.exec_sim p (Whole.start_inv fun _ => stringsImpl hA m) hl
  have hi : Strings.Inv (base ()) (s ()) m' := h3.each ()
  refine ⟨rs, locs, m', s, h1, h2, fun q b hq => ?_, fun q f hq => ?_, fun a ha => ?_⟩
  · obtain ⟨g1, -, g2⟩ := hi.string hq
    exact ⟨g1, h3.fresh () q ((Whole.strings_own hi q).2 (by rw [hq]; simp)), g2⟩
  · obtain ⟨g1, -, b, g2, g3⟩ := hi.encoder hq
    exact ⟨g1, h3.fresh () q ((Whole.strings_own hi q).2 (by rw [hq]; simp)), b, g2, g3.2.2⟩
  · exact h3.frame a fun i hi' => (Whole.strings_own hi a).1 hi' ha

/-! ### A program -/

/-- Memory with the text ` a%b c`. -/
def sampleMem : Mem := Mem.set [] 1 (.bytes [32, 97, 37, 98, 32, 99, 0])

theorem sample_ext : Objects.external sampleMem 1 = some [32, 97, 37, 98, 32, 99, 0] := by
  simp [Objects.external, sampleMem, Mem.get_set_self]

/-- Freeing many strings. -/
def freeAll : List Nat → Calls sampleMem
  | [] => .done
  | p :: ps => .call () (Op.free p) fun _ => freeAll ps

/-- The text is stripped; what is left is encoded, put in upper case, and split at spaces; then all strings are freed. -/
def sample (junk : Nat → UInt8) : Calls sampleMem :=
  .call () (Op.make junk .strip 1 0) fun
    | .ptr p _ => .call () (Op.make junk .urlEncode p 0) fun
      | .ptr q _ => .call () (Op.recase true p 0) fun _ => .call () (Op.split (.split 32 5) p 0) fun
        | .ptrs ps => .call () (Op.look q) fun _ => freeAll (p :: q :: ps)
        | _ => .done
      | _ => .done
    | _ => .done

/-- A legal program that ends with nothing left. -/
def Clean {m : Mem} (p : Calls m) (s : State) : Prop := Legal p (fun _ => s) ∧ ∀ rs s', Runs p (fun _ => s) rs s' → ∀ a, s' () a = none

theorem clean_call {m : Mem} {s : State} {op : Op} {next : Res → Calls m} (h : ok (Objects.external m) s op)
    (h' : ∀ r t, Step (Objects.external m) s op r t → Clean (next r) t) : Clean (m := m) (.call () op next) s := by
  have e : ∀ t : State, update (fun _ : Unit => s) () t = fun _ => t := by intro t; funext x; cases x; exact Function.update_self ..
  refine ⟨⟨h, fun r t ht => e t ▸ (h' r t ht).1⟩, fun rs s' hr => ?_⟩
  cases hr with
  | call h1 h2 => exact (h' _ _ h1).2 _ _ (e _ ▸ h2)

theorem freeAll_clean : ∀ (ps : List Nat) (s : State), ps.Nodup → (∀ p ∈ ps, p ≠ 0 ∧ ∃ b, s p = some (.string b)) →
    (∀ p, p ∉ ps → s p = none) → Clean (freeAll ps) s := by
  intro ps
  induction ps with
  | nil =>
    intro s _ _ h
    refine ⟨trivial, fun rs s' hr a => ?_⟩
    cases hr
    exact h a (by simp)
  | cons p ps ih =>
    intro s hn h hrest
    rw [List.nodup_cons] at hn
    obtain ⟨h0, b, hb⟩ := h p (List.mem_cons_self ..)
    refine clean_call (Or.inr ⟨b, hb⟩) fun r t ht => ?_
    cases ht with
    | free _ =>
      refine ih _ hn.2 (fun q hq => ?_) fun q hq => ?_
      · have hne : q ≠ p := fun e => hn.1 (e ▸ hq)
        rw [Function.update_of_ne hne]
        exact h q (List.mem_cons_of_mem _ hq)
      · by_cases hne : q = p
        · rw [hne, Function.update_self]
        · rw [Function.update_of_ne hne]
          exact hrest q (by simp [hne, hq])
    | freeNull => exact absurd rfl h0

theorem sample_clean (junk : Nat → UInt8) : Clean (sample junk) fun _ => none := by
  have hr : Reads (Objects.external sampleMem) (fun _ => none) 1 0 [32, 97, 37, 98, 32, 99, 0] := ⟨_, Or.inr sample_ext, by simp, rfl⟩
  refine clean_call ⟨_, hr, by simp [Fn.needs]⟩ fun r s1 h => ?_
  cases h with
  | makeNull _ _ ho => obtain ⟨t, e, -⟩ := ho; cases e
  | @make _ _ _ _ bs t p _ _ _ hp =>
    generalize hs1 : update (fun _ => none) p (some (Thing.string (t ++ [0]))) = s1
    have h1 : s1 p = some (.string (t ++ [0])) := by rw [← hs1, Function.update_self]
    refine clean_call ⟨t ++ [0], ⟨_, Or.inl h1, by simp, rfl⟩, by simp [Fn.needs]⟩ fun r s2 h => ?_
    cases h with
    | makeNull _ _ ho => cases ho
    | @make _ _ _ _ bs u q _ _ _ hq =>
      have hqp : q ≠ p := by rintro rfl; have := hq.2.1; rw [h1] at this; cases this
      generalize hs2 : update s1 q (some (Thing.string (u ++ [0]))) = s2
      have h2 : s2 p = some (.string (t ++ [0])) := by rw [← hs2, Function.update_of_ne (Ne.symm hqp), h1]
      have h3 : s2 q = some (.string (u ++ [0])) := by rw [← hs2, Function.update_self]
      refine clean_call ⟨t ++ [0], h2, by simp⟩ fun r s3 h => ?_
      cases h with
      | @recase _ _ _ pre w v _ _ _ =>
        generalize hs3 : update s2 p (some (Thing.string (pre ++ w.map (Spec.Strings.recase true) ++ 0 :: v))) = s3
        have h4 : s3 p = some (.string (pre ++ w.map (Spec.Strings.recase true) ++ 0 :: v)) := by rw [← hs3, Function.update_self]
        have h5 : s3 q = some (.string (u ++ [0])) := by rw [← hs3, Function.update_of_ne hqp, h3]
        refine clean_call ⟨⟨_, ⟨_, Or.inl h4, by simp, rfl⟩, by simp⟩, (by decide : (32 : UInt8) ≠ 0)⟩ fun r s4 h => ?_
        cases h with
        | @split _ _ _ _ ts ps _ _ _ hpc hn hf hst hrest =>
          have hpp : p ∉ ps := fun hp' => by have := (hf p hp').2.1; rw [h4] at this; cases this
          have hpq : q ∉ ps := fun hp' => by have := (hf q hp').2.1; rw [h5] at this; cases this
          refine clean_call ⟨_, by rw [hrest q hpq]; exact h5⟩ fun r s5 h => ?_
          cases h
          refine freeAll_clean _ _ (by simp [hn, hpp, hpq, Ne.symm hqp]) (fun x hx => ?_) fun x hx => ?_
          rcases List.mem_cons.1 hx with rfl | hx
          · exact ⟨hp.1, _, by rw [hrest x hpp]; exact h4⟩
          · rcases List.mem_cons.1 hx with rfl | hx
            · exact ⟨hq.1, _, by rw [hrest x hpq]; exact h5⟩
            · refine ⟨(hf x hx).1, ?_⟩
              clear hn hf hrest hpp hpq hpc
              induction hst with
              | nil => cases hx
              | cons g _ ih =>
                rcases List.mem_cons.1 hx with rfl | hx
                · exact ⟨_, g⟩
                · exact ih (List.mem_cons_of_mem _ (List.mem_cons_of_mem _ hx)) (List.mem_cons_of_mem _ hx) hx
          · simp only [List.mem_cons, not_or] at hx
            rw [hrest x hx.2.2, ← hs3, Function.update_of_ne hx.1, ← hs2, Function.update_of_ne hx.2.1, ← hs1, Function.update_of_ne hx.1]

/-- The program runs, with any allocator, and leaves memory as it was. -/
example {A : Alloc} (hA : A.Good) (junk : Nat → UInt8) : ∃ rs locs m' s,
    Run (exec (fun _ => stringsCode (Objects.external sampleMem) A) (sample junk) fun _ => ()) sampleMem (rs, locs) m' ∧
      Runs (sample junk) (fun _ _ => none) rs s ∧ ∀ a, m'.get a = sampleMem.get a := by
  obtain ⟨rs, locs, m', s, h1, h2, -, -, h3⟩ := strings_refine hA sampleMem (sample junk) (sample_clean junk).1
  exact ⟨rs, locs, m', s, h1, h2, fun a => h3 a ((sample_clean junk).2 rs s h2 a)⟩

/-- What can be observed of it: the first string is `a%b c`. -/
example : Charstr.isWs 32 = true ∧ Fn.strip.Out [32, 97, 37, 98, 32, 99, 0] (some [97, 37, 98, 32, 99]) ∧
    Fn.urlEncode.Out [97, 37, 98, 32, 99, 0] (some [97, 37, 50, 53, 98, 43, 99]) := by
  refine ⟨by decide, ⟨_, rfl, [32], [], by decide, by decide, by decide, by decide, by decide⟩, ?_⟩
  change _ = _
  decide +kernel

/-- An encoder that passes percent signs through leaves two bytes more. -/
example : custom [] [37] 37 = [37] ∧ (text [97, 37, 0]).countP (custom [] [37] · = [37]) = 1 := by decide

end Verif.Strings
