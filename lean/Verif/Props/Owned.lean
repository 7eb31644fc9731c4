import Verif.Proofs.Owned
import Verif.Props.Charstr
import Verif.Props.Idna13

/-!
C102–C104: who owns what after the functions of `charstr.c` and `charstr_puny.c` that allocate strings.
-/

namespace Verif.Owned
open Verif.Charstr Verif.CList Spec.Charstr
set_option autoImplicit false

variable {A : Alloc} {m : Mem} {a array : Nat} {pre s t : List UInt8}

/-- The outcome of a splitting function at memory `m`: a list of the strings `ps`, each with its NUL in a block of its own, everything new,
nothing else changed; and freeing the strings and destroying the list afterwards leaves memory as it was. -/
def OwnedList (m m' : Mem) (l : Nat) (ps : List (List UInt8)) : Prop :=
  (∃ xs, Owns m m' l xs (ps.map (· ++ [0]))) ∧ ∃ m'', Run (freeStrings l) m' () m'' ∧ ∀ x, m''.get x = m.get x

theorem ownedList {m' : Mem} {l : Nat} {xs : List (Nat × Nat)} {ps : List (List UInt8)} (h : Owns m m' l xs (ps.map (· ++ [0]))) : OwnedList m m' l ps := by
  obtain ⟨⟨⟩, m'', h1, h2⟩ := freeStrings_spec h
  exact ⟨⟨xs, h⟩, m'', h1, h2⟩

theorem drop_pre (x : List UInt8) : (pre ++ x).drop pre.length = x := List.drop_left

/-- C102 for `charstr_split`. -/
theorem split_owned (hA : A.Good) (h0 : a ≠ 0) (ha : m.get a = some (.bytes (pre ++ (s ++ 0 :: t)))) (hs : 0 ∉ s) {d : UInt8} (hd : d ≠ 0) (max : Nat) :
    ∃ l m' ps, Run (splitM A a pre.length d max) m l m' ∧ Split d max s ps ∧ OwnedList m m' l ps := by
  obtain ⟨ps, h1, h2⟩ := split_correct d hd max s t hs
  obtain ⟨l, m', h3, xs, h4⟩ := splitM_spec hA h0 ha pre.length d max (by rw [drop_pre]; exact h1)
  exact ⟨l, m', ps, h3, h2, ownedList h4⟩

/-- C102 for `charstr_split_atoms`. -/
theorem split_atoms_owned (hA : A.Good) (h0 : a ≠ 0) (ha : m.get a = some (.bytes (pre ++ (s ++ 0 :: t)))) (hs : 0 ∉ s) :
    ∃ l m' ps, Run (splitAtomsM A a pre.length) m l m' ∧ Atoms isWs s ps ∧ OwnedList m m' l ps := by
  obtain ⟨ps, h1, h2⟩ := split_atoms_correct s t hs
  obtain ⟨l, m', h3, xs, h4⟩ := splitAtomsM_spec hA h0 ha pre.length (by rw [drop_pre]; exact h1)
  exact ⟨l, m', ps, h3, h2, ownedList h4⟩

/-- C102 for `charstr_split_str`; the string and the delimiter may be in the same block. -/
theorem split_str_owned (hA : A.Good) (h0 : a ≠ 0) (ha : m.get a = some (.bytes (pre ++ (s ++ 0 :: t)))) (hs : 0 ∉ s) {b : Nat} (hb0 : b ≠ 0)
    {pre' d u : List UInt8} (hb : m.get b = some (.bytes (pre' ++ (d ++ 0 :: u)))) (hd : 0 ∉ d) (max : Nat) :
    ∃ l m' ps, Run (splitStrM A a pre.length b pre'.length max) m l m' ∧ SplitStr d max s ps ∧ OwnedList m m' l ps := by
  obtain ⟨ps, h1, h2, _⟩ := split_str_correct d u s t hd hs max
  obtain ⟨l, m', h3, xs, h4⟩ := splitStrM_spec hA h0 ha hb0 hb pre.length pre'.length max (by rw [drop_pre, drop_pre]; exact h1)
  exact ⟨l, m', ps, h3, h2, ownedList h4⟩

/-- C102 for `charstr_split_into_array`: the pieces are new strings, each in a block of its own, the array holds them from the start on and is
otherwise as before, and nothing else changes. -/
theorem split_into_array_owned (hA : A.Good) (h0 : a ≠ 0) (ha : m.get a = some (.bytes (pre ++ (s ++ 0 :: t)))) (hs : 0 ∉ s) {d : UInt8} (hd : d ≠ 0)
    (max : Nat) (hr0 : array ≠ 0) {arr : List (Option Nat)} (hr : m.get array = some (.slots arr)) (hmax : max < arr.length) :
    ∃ i m' qs ps, Run (splitIntoArrayM A a pre.length d array max) m i m' ∧ Split d max s ps ∧ i + 1 = ps.length ∧
      Fills m m' array arr qs (ps.map (· ++ [0])) := by
  obtain ⟨ps, h1, h2⟩ := split_correct d hd max s t hs
  obtain ⟨i, m', h3, qs, h4, h5⟩ := splitIntoArrayM_spec hA h0 ha hr0 hr pre.length d max hmax (by rw [drop_pre]; exact h1)
  have hl := h5.strings.length_eq
  rw [List.length_map] at hl
  have := h2.count
  exact ⟨i, m', qs, ps, h3, h2, by omega, h5⟩

/-- The text " key = a = b" split at its equals signs, in a memory with another block. -/
example : ∃ l m' ps, Run (splitM Alloc.example 7 1 61 1) [(3, .slots [none]), (7, .bytes [32, 107, 61, 97, 61, 98, 0, 9])] l m' ∧
    Split 61 1 [107, 61, 97, 61, 98] ps ∧ OwnedList [(3, .slots [none]), (7, .bytes [32, 107, 61, 97, 61, 98, 0, 9])] m' l ps :=
  split_owned Alloc.example_good (by decide) (pre := [32]) (t := [9]) (by decide +kernel) (by decide) (by decide) 1

example : ∃ i m' qs ps, Run (splitIntoArrayM Alloc.example 7 1 61 3 1) [(3, .slots [none, some 5, some 6]), (7, .bytes [32, 107, 61, 97, 61, 98, 0, 9])] i m' ∧
    Split 61 1 [107, 61, 97, 61, 98] ps ∧ i + 1 = ps.length ∧
    Fills [(3, .slots [none, some 5, some 6]), (7, .bytes [32, 107, 61, 97, 61, 98, 0, 9])] m' 3 [none, some 5, some 6] qs (ps.map (· ++ [0])) :=
  split_into_array_owned Alloc.example_good (by decide) (pre := [32]) (t := [9]) (by decide +kernel) (by decide) (by decide) 1 (by decide) (by decide +kernel) (by decide)

/-- An array of `max_split` elements is too short. -/
theorem split_into_array_short : Crashes (splitIntoArrayM Alloc.example 7 0 61 3 1) [(3, .slots [none]), (7, .bytes [97, 61, 98, 0])] := by
  decide +kernel

section
open Verif.Puny Verif.Unicode Verif.Unidata
open Verif.Spec.Unicode (encs)

variable {u : Ucd} {id : Idna} {fresh : Nat → List UInt8} {b : List UInt8}

/-- C103: `charstr_idna_encode` returns whenever the functional model of it does, and then it returns NULL and leaves memory as it was, or it
returns a new block with the encoded name and nothing else is changed or left behind; all work areas are freed, in every case. -/
theorem idna_encode_owned (hA : A.Good) (h0 : a ≠ 0) (ha : m.get a = some (.bytes b)) :
    (∀ r, Returns (idnaEncode u id fresh b) r → ∃ p m', Run (idnaEncodeM A u id fresh a) m p m') ∧
    (∀ p m', Run (idnaEncodeM A u id fresh a) m p m' → ∃ r, Returns (idnaEncode u id fresh b) r ∧ Gives m r p m') := by
  refine ⟨fun r h => ?_, fun p m' h => ?_⟩
  · obtain ⟨p, m', h1, _⟩ := idnaEncodeM_spec hA h0 ha h
    exact ⟨p, m', h1⟩
  · obtain ⟨r, hr⟩ := idnaEncodeM_inv hA h0 ha h
    exact ⟨r, hr, (idnaEncodeM_spec hA h0 ha hr).run h⟩

/-- C103: freeing the result leaves memory as it was. -/
theorem idna_encode_freed (hA : A.Good) (h0 : a ≠ 0) (ha : m.get a = some (.bytes b)) {p : Nat} {m' : Mem}
    (h : Run (idnaEncodeM A u id fresh a) m p m') : ∃ m'', Run (M.free p) m' () m'' ∧ ∀ x, m''.get x = m.get x := by
  obtain ⟨r, _, hg⟩ := (idna_encode_owned hA h0 ha).2 p m' h
  unfold Gives at hg
  cases r with
  | none => obtain ⟨rfl, hg⟩ := hg; exact ⟨m', run_free_null m', hg⟩
  | some d =>
    obtain ⟨g1, g2, g3, g4⟩ := hg
    refine ⟨_, run_free g1 g3, fun x => ?_⟩
    rw [Mem.get_del]
    by_cases hx : p = x
    · subst hx; simp [g2]
    · rw [if_neg hx, g4 x (by simpa using Ne.symm hx)]

/-- A name that goes through all work areas, with the tables of Unicode 13. -/
theorem idna_owned_sample (hA : A.Good) (h0 : a ≠ 0) (h : Real id) (hfr : ∀ n, (fresh n).length = n) {r : List UInt8}
    (ha : m.get a = some (.bytes (encs (points "Bücher.example") ++ 0 :: r))) :
    ∃ p m', Run (idnaEncodeM A unicode13 id fresh a) m p m' ∧ Gives m (some (bytes "xn--bcher-kva.example" ++ [0])) p m' :=
  (idnaEncodeM_spec hA h0 ha (idna13_sample h hfr r)).out

/-- A name that is refused. -/
theorem idna_owned_refused (hA : A.Good) (h0 : a ≠ 0) (h : Real id) (hfr : ∀ n, (fresh n).length = n) {r : List UInt8}
    (ha : m.get a = some (.bytes (encs [0x1D160] ++ 0 :: r))) :
    ∃ p m', Run (idnaEncodeM A unicode13 id fresh a) m p m' ∧ Gives m none p m' :=
  (idnaEncodeM_spec hA h0 ha (idna13_refuses h hfr r).2.2.1).out

end

/-- C104: `charstr_vprintf` and `charstr_printf` return NULL and change nothing if the formatter fails or the text has 2^31 bytes or more;
otherwise they return a new block that holds exactly the text and its NUL. The formatter reads only memory that is live before the call. -/
theorem printf_owned (hA : A.Good) {fresh : Nat → List UInt8} (hfr : ∀ n, (fresh n).length = n) {fmt : Mem → Option (List UInt8)}
    (hloc : ∀ m', (∀ x, m.get x ≠ none → m'.get x = m.get x) → fmt m' = fmt m) :
    ∃ p m', Run (vprintfM A fresh fmt) m p m' ∧
      (p = 0 → (fmt m = none ∨ ∃ t, fmt m = some t ∧ 2 ^ 31 ≤ t.length) ∧ ∀ x, m'.get x = m.get x) ∧
      (p ≠ 0 → ∃ t, fmt m = some t ∧ t.length < 2 ^ 31 ∧ m.get p = none ∧ m'.get p = some (.bytes (t ++ [0])) ∧ ∀ x, x ≠ p → m'.get x = m.get x) := by
  obtain ⟨p, m', h1, h2⟩ := vprintfM_spec (m := m) hA hfr hloc rfl
  refine ⟨p, m', h1, ?_⟩
  cases hf : fmt m with
  | none => rw [hf] at h2; exact ⟨fun _ => ⟨.inl rfl, h2.2⟩, fun hp => absurd h2.1 hp⟩
  | some t =>
    rw [hf] at h2
    by_cases hl : t.length < 2 ^ 31
    · simp only [Option.filter, hl, decide_true, if_true, Option.map_some] at h2
      exact ⟨fun hp => absurd hp h2.1, fun _ => ⟨t, rfl, hl, h2.2.1, h2.2.2.1, fun x hx => h2.2.2.2 x (by simpa using hx)⟩⟩
    · simp only [Option.filter, hl, decide_false] at h2
      exact ⟨fun _ => ⟨.inr ⟨t, rfl, by omega⟩, h2.2⟩, fun hp => absurd h2.1 hp⟩

/-- "%s" with the string at address 5. -/
def percentS (m : Mem) : Option (List UInt8) := match m.get 5 with
  | some (.bytes b) => some (b.takeWhile (· ≠ 0))
  | _ => none

example : ∃ p m', Run (vprintfM Alloc.example (fun n => List.replicate n 170) percentS) [(5, .bytes [104, 105, 0, 1])] p m' ∧
    m'.get p = some (.bytes [104, 105, 0]) := by
  have hf : percentS [(5, .bytes [104, 105, 0, 1])] = some [104, 105] := by decide +kernel
  obtain ⟨p, m', h1, h2, h3⟩ := printf_owned (m := [(5, .bytes [104, 105, 0, 1])]) (fresh := fun n => List.replicate n 170) (fmt := percentS)
    Alloc.example_good (by simp) (fun m' h => by unfold percentS; rw [h 5 (by decide +kernel)])
  refine ⟨p, m', h1, ?_⟩
  rw [hf] at h2 h3
  by_cases hp : p = 0
  · rcases (h2 hp).1 with h | ⟨t, h, h'⟩
    · cases h
    · cases h; simp at h'
  · obtain ⟨t, h, -, -, h4, -⟩ := h3 hp
    cases h
    exact h4

end Verif.Owned
