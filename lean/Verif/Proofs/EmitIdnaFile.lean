import Verif.Proofs.EmitMap
import Verif.Proofs.IdnaGen
import Verif.Model.EmitHeader

/-! The file that gen_idna_table.c writes as a whole. -/

set_option autoImplicit false

namespace Verif.Emit
open Verif.Spec.CText hiding Str
open Verif.Py (Str)
open Verif.IdnaGen

theorem declare_func {H : Str → Option V} {G : Globals} {t : Ty} {x : Str} {ps : List Str} {s : S} (h : s.wf) :
    declare H G (.func t x ps s) = .ok (x, .func (invoke H G t ps s)) := by rw [declare, if_pos h]

theorem set_wf (status : Str) (max : Nat) : (setStmts status max).wf := ⟨⟨trivial, trivial, rfl, rfl⟩, trivial, trivial⟩

theorem map_wf (min max high : Nat) : (mapStmts min max high).wf :=
  ⟨⟨trivial, trivial, rfl, rfl⟩, ⟨trivial, trivial⟩, ⟨⟨trivial, trivial, ⟨trivial, trivial, rfl, rfl⟩, trivial⟩, rfl⟩, ⟨trivial, trivial, rfl, rfl⟩, trivial, trivial⟩

/-- The numbers in the file fit, and its arrays have elements. -/
structure Sized (t : Tables) (m : MapCode) : Prop where
  tests : ∀ l ∈ [t.deviation, t.disallowed, t.std3Valid, t.std3Mapped, t.ignored], ∀ c ∈ l, c.1 < 2 ^ 31 ∧ c.2 < 2 ^ 31
  mapped : t.mapped.1 ≠ [] ∧ 0 ≤ t.mapped.2 ∧ t.mapped.2 < 2 ^ 31
  valid : t.valid.1 ≠ [] ∧ 0 ≤ t.valid.2 ∧ t.valid.2 < 2 ^ 31
  array : m.array ≠ [] ∧ m.array.length ≤ 2 ^ 28 ∧ (∀ e ∈ m.array, e.1 < 2 ^ 31) ∧ m.high = m.array.length - 1
  min : 0 ≤ m.min ∧ m.min < 2 ^ 31
  max : 0 ≤ m.max ∧ m.max < 2 ^ 31

/-- What the file means, in terms of the tables. -/
theorem idnaOut_means {t : Tables} {m : MapCode} (h : Sized t m) (n : Int) :
    Means header (idnaOut t m) c!"charstr_idna_status_is_deviation" [.int n] (bit (runTest t.deviation n)) ∧
    Means header (idnaOut t m) c!"charstr_idna_status_is_disallowed" [.int n] (bit (runTest t.disallowed n)) ∧
    Means header (idnaOut t m) c!"charstr_idna_status_is_disallowed_STD3_valid" [.int n] (bit (runTest t.std3Valid n)) ∧
    Means header (idnaOut t m) c!"charstr_idna_status_is_disallowed_STD3_mapped" [.int n] (bit (runTest t.std3Mapped n)) ∧
    Means header (idnaOut t m) c!"charstr_idna_status_is_ignored" [.int n] (bit (runTest t.ignored n)) ∧
    (∀ b, runSet t.mapped n = .ok b → Means header (idnaOut t m) c!"charstr_idna_status_is_mapped" [.int n] (bit b)) ∧
    (∀ b, runSet t.valid n = .ok b → Means header (idnaOut t m) c!"charstr_idna_status_is_valid" [.int n] (bit b)) ∧
    (∀ r, Returns (lookup m n) r → Means header (idnaOut t m) c!"charstr_idna_mapping" [.int n] (mapValue r)) := by
  obtain ⟨h1, ⟨h2, h3, h4⟩, ⟨h5, h6, h7⟩, ⟨h8, h9, h10, h11⟩, ⟨h12, h13⟩, ⟨h14, h15⟩⟩ := h
  obtain ⟨⟨vs, vx⟩, ⟨ws, wx⟩, ign, dev, dis, sv, sm⟩ := t
  simp only [List.mem_cons, List.not_mem_nil, or_false, forall_eq_or_imp, forall_eq] at h1
  obtain ⟨t1, t2, t3, t4, t5⟩ := h1
  simp only at h2 h3 h4 h5 h6 h7
  obtain ⟨wx, rfl⟩ := Int.eq_ofNat_of_zero_le h3
  obtain ⟨vx, rfl⟩ := Int.eq_ofNat_of_zero_le h6
  obtain ⟨lo, hlo⟩ := Int.eq_ofNat_of_zero_le h12
  obtain ⟨hi, hhi⟩ := Int.eq_ofNat_of_zero_le h14
  have hpos := List.length_pos_iff.2 h8
  obtain ⟨top, htop⟩ : ∃ k : Nat, m.high = k := ⟨m.array.length - 1, by omega⟩
  have hp := ((((((((test_piece (status := c!"deviation") (by decide) dev).append <| (test_piece (status := c!"disallowed") (by decide) dis).append <|
    (test_piece (status := c!"disallowed_STD3_valid") (by decide) sv).append <| (test_piece (status := c!"disallowed_STD3_mapped") (by decide) sm).append <|
    (test_piece (status := c!"ignored") (by decide) ign).append <| (set_piece (status := c!"mapped") (by decide) h2 wx).append <|
    (set_piece (status := c!"valid") (by decide) h5 vx).append <| map_piece h8 hlo hhi htop))))))).blank
      (a := c!"#include <stddef.h>\n#include <stdint.h>\n#include <stdbool.h>\n#include \"fsalloc.h\"\n") (by decide)
  have hprog := hp.program header
  let G1 : Globals := [(isName c!"deviation", .func (invoke header [] .bool [c!"codepoint"] (testStmts dev)))]
  let G2 : Globals := (isName c!"disallowed", .func (invoke header G1 .bool [c!"codepoint"] (testStmts dis))) :: G1
  let G3 : Globals := (isName c!"disallowed_STD3_valid", .func (invoke header G2 .bool [c!"codepoint"] (testStmts sv))) :: G2
  let G4 : Globals := (isName c!"disallowed_STD3_mapped", .func (invoke header G3 .bool [c!"codepoint"] (testStmts sm))) :: G3
  let G5 : Globals := (isName c!"ignored", .func (invoke header G4 .bool [c!"codepoint"] (testStmts ign))) :: G4
  let G6 : Globals := (setName c!"mapped", .val (.words (ws.map UInt64.toNat))) :: G5
  let G7 : Globals := (isName c!"mapped", .func (invoke header G6 .bool [c!"codepoint"] (setStmts c!"mapped" wx))) :: G6
  let G8 : Globals := (setName c!"valid", .val (.words (vs.map UInt64.toNat))) :: G7
  let G9 : Globals := (isName c!"valid", .func (invoke header G8 .bool [c!"codepoint"] (setStmts c!"valid" vx))) :: G8
  let G10 : Globals := (c!"idna_mappings", .val (.records (m.array.map mapRecord))) :: G9
  let G11 : Globals := (c!"charstr_idna_mapping", .func (invoke header G10 .ptr [c!"codepoint"] (mapStmts lo hi top))) :: G10
  have hload : program header (idnaOut ⟨(vs, vx), (ws, wx), ign, dev, dis, sv, sm⟩ m) = .ok G11 := by
    refine hprog.trans ?_
    refine (load_cons (G := []) (declare_func (tests_wf _)) rfl).trans ?_
    refine (load_cons (G := G1) (declare_func (tests_wf _)) rfl).trans ?_
    refine (load_cons (G := G2) (declare_func (tests_wf _)) rfl).trans ?_
    refine (load_cons (G := G3) (declare_func (tests_wf _)) rfl).trans ?_
    refine (load_cons (G := G4) (declare_func (tests_wf _)) rfl).trans ?_
    refine (load_cons (G := G5) (declare_set h2) rfl).trans ?_
    refine (load_cons (G := G6) (declare_func (set_wf _ _)) rfl).trans ?_
    refine (load_cons (G := G7) (declare_set h5) rfl).trans ?_
    refine (load_cons (G := G8) (declare_func (set_wf _ _)) rfl).trans ?_
    refine (load_cons (G := G9) (declare_map h8 h10) rfl).trans ?_
    exact load_cons (G := G10) (declare_func (map_wf _ _ _)) rfl
  refine ⟨⟨G11, _, hload, rfl, invoke_test rfl rfl t1 n⟩, ⟨G11, _, hload, rfl, invoke_test rfl rfl t2 n⟩, ⟨G11, _, hload, rfl, invoke_test rfl rfl t3 n⟩,
    ⟨G11, _, hload, rfl, invoke_test rfl rfl t4 n⟩, ⟨G11, _, hload, rfl, invoke_test rfl rfl t5 n⟩, fun b hb => ⟨G11, _, hload, rfl, ?_⟩,
    fun b hb => ⟨G11, _, hload, rfl, ?_⟩, fun r hr => ⟨G11, _, hload, rfl, ?_⟩⟩
  · exact invoke_set (by omega) (by decide) rfl rfl rfl hb
  · exact invoke_set (by omega) (by decide) rfl rfl rfl hb
  · exact invoke_map rfl rfl rfl hlo hhi htop (by omega) (by omega) (by omega) h9 hr

/-! ## What the generator gives -/

theorem testLoop_lt {σ : Type} [DecidableEq σ] (status : Nat → σ) (s : σ) : ∀ (k cp : Nat) (prev : Option Nat), (∀ p ∈ prev, p < cp) →
    ∀ c ∈ testLoop status s k cp prev, c.1 < cp + k ∧ c.2 < cp + k
  | 0, _, _, _, _, hc => absurd hc (by simp [testLoop])
  | k + 1, cp, prev, hp, c, hc => by
    have hnone := testLoop_lt status s k (cp + 1) none (by simp)
    rw [testLoop.eq_def] at hc
    simp only [] at hc
    split at hc
    · cases prev with
      | some p =>
        have := hp p rfl
        rcases List.mem_cons.1 hc with rfl | hc
        · simp only; omega
        · have := hnone c hc; omega
      | none => have := hnone c hc; omega
    · cases prev with
      | some p =>
        have := hp p rfl
        have := testLoop_lt status s k (cp + 1) (some p) (by simp; omega) c hc
        omega
      | none =>
        have := testLoop_lt status s k (cp + 1) (some cp) (by simp) c hc
        omega

theorem mappings_length (mapping : Nat → List UInt8) : ∀ k cp, (mappings mapping k cp).length ≤ k
  | 0, _ => by simp [mappings]
  | k + 1, cp => by
    have := mappings_length mapping k (cp + 1)
    rw [mappings]
    split
    · rw [List.length_cons]; omega
    · omega

theorem minCp_lt (mapping : Nat → List UInt8) : ∀ k cp, minCp mapping k cp < (cp + k : Nat) 
  | 0, cp => by rw [minCp]; omega
  | k + 1, cp => by
    have := minCp_lt mapping k (cp + 1)
    rw [minCp]
    split <;> omega

theorem minCp_pos (mapping : Nat → List UInt8) : ∀ k cp x, cp ≤ x → x < cp + k → mapping x ≠ [] → 0 ≤ minCp mapping k cp
  | 0, cp, x, h1, h2, _ => by omega
  | k + 1, cp, x, h1, h2, h3 => by
    rw [minCp]
    split
    · omega
    · rename_i h
      refine minCp_pos mapping k (cp + 1) x ?_ (by omega) h3
      by_contra hlt
      have : x = cp := by omega
      rw [this] at h3; exact h h3

theorem sized {n : Nat} (hn : n ≤ 2 ^ 28) {status : Nat → String} {mapping : Nat → List UInt8} (hm : ∃ x, 0 < x ∧ x < n ∧ status x = "mapped")
    (hv : ∃ x, 0 < x ∧ x < n ∧ status x = "valid") (hs : ∃ x, x < n ∧ mapping x ≠ []) :
    ∃ t, generate n status = .ok t ∧ Sized t (generateMappings n mapping) := by
  have hset : ∀ s, (∃ x, 0 < x ∧ x < n ∧ status x = s) → ∃ set : List UInt64 × Int, generateSet n status s = .ok set ∧
      set.1 ≠ [] ∧ 0 ≤ set.2 ∧ set.2 < 2 ^ 31 := by
    rintro s ⟨x, h1, h2, h3⟩
    obtain ⟨_, h4⟩ | ⟨m, h4, h5, h6, h7⟩ := maxOn_spec status s n
    · exact absurd h3 (h4 x h2)
    · have hpos : 0 < m := by
        by_contra h
        exact h7 x (by omega) h2 h3
      obtain ⟨words, h8, h9, _⟩ := generateSet_spec status s n m h4 hpos
      refine ⟨_, h8, List.length_pos_iff.1 (by simp only; omega), by simp only; omega, by simp only; omega⟩
  obtain ⟨a, a1, a2⟩ := hset "mapped" hm
  obtain ⟨b, b1, b2⟩ := hset "valid" hv
  have htest : ∀ s, ∀ c ∈ generateTest n status s, c.1 < 2 ^ 31 ∧ c.2 < 2 ^ 31 := fun s c hc => by
    have := testLoop_lt status s n 0 none (by simp) c hc
    omega
  refine ⟨_, by rw [generate, a1, b1], ⟨?_, a2, b2, ⟨?_, ?_, ?_, rfl⟩, ⟨?_, ?_⟩, ?_⟩⟩
  · simp only [List.mem_cons, List.not_mem_nil, or_false, forall_eq_or_imp, forall_eq]
    exact ⟨htest _, htest _, htest _, htest _, htest _⟩
  · obtain ⟨x, h1, h2⟩ := hs
    exact List.ne_nil_of_mem (mappings_pos mapping n x h1 h2)
  · exact le_trans (mappings_length mapping n 0) hn
  · intro e he
    have := (mappings_mem mapping n 0 e).1 he
    omega
  · obtain ⟨x, h1, h2⟩ := hs
    exact minCp_pos mapping n 0 x (by omega) (by omega) h2
  · have := minCp_lt mapping n 0
    show minCp mapping n 0 < _
    omega
  · obtain ⟨x, h1, h2⟩ := hs
    show 0 ≤ maxCp mapping n ∧ maxCp mapping n < _
    obtain ⟨_, h4⟩ | ⟨m, h4, h5, _⟩ := maxCp_spec mapping n
    · exact absurd (h4 x h1) h2
    · omega

end Verif.Emit
