import Verif.Proofs.IdnaGen

/-!
# C78, C79, C83: what `gen_idna_table` emits (gen_idna_table.c)

The data file is a status and a mapping for each code point below `n`. The specification is the data itself: a predicate for status `s` ought
to hold of a code point below `n` just if the data gives it status `s`, and of no other integer.
-/

namespace Verif.IdnaGen

variable {σ : Type} [DecidableEq σ]

/-- The code point has status `s` in the data. -/
def Has (n : Nat) (status : Nat → σ) (s : σ) (x : Int) : Prop := 0 ≤ x ∧ x < n ∧ status x.toNat = s

/-- The code point lies in a run of status `s` reaching the last code point. -/
def InLastRun (n : Nat) (status : Nat → σ) (s : σ) (x : Int) : Prop := ∀ y : Nat, x ≤ y → y < n → status y = s

/-- C78 for the five predicates made by `generate_test`: exactly the code points with the status are reported, except those in a run
reaching the last code point. Missing: those, see `idna_test_violated`. -/
theorem idna_test_exact_partial (n : Nat) (status : Nat → σ) (s : σ) (x : Int) :
    runTest (generateTest n status s) x = true ↔ Has n status s x ∧ ¬ InLastRun n status s x := by
  by_cases hx : x < 0
  · rw [runTest_neg _ _ hx]
    simp only [Bool.false_eq_true, false_iff]
    rintro ⟨⟨h, _⟩, _⟩
    omega
  · obtain ⟨k, rfl⟩ := Int.eq_ofNat_of_zero_le (show 0 ≤ x by omega)
    rw [generateTest, testLoop_spec status s n 0 none k (by simp) (fun z h1 h2 => by omega)]
    simp only [Option.getD_none, Nat.zero_le, true_and, Nat.zero_add, Has, InLastRun, Int.natCast_nonneg, Int.toNat_natCast, Nat.cast_lt, Nat.cast_le]
    constructor
    · rintro ⟨h1, y, h2, h3, h4⟩
      exact ⟨⟨by omega, h1⟩, fun h => h4 (h y (by omega) h3)⟩
    · rintro ⟨⟨h1, h2⟩, h3⟩
      push Not at h3
      obtain ⟨y, h4, h5, h6⟩ := h3
      refine ⟨h2, y, ?_, h5, h6⟩
      by_contra h
      have : y = k := by omega
      rw [this] at h6; exact h6 h2

/-- The predicate is exact if the last code point has another status. -/
theorem idna_test_exact (n : Nat) (status : Nat → σ) (s : σ) (hlast : 0 < n → status (n - 1) ≠ s) (x : Int) :
    runTest (generateTest n status s) x = true ↔ Has n status s x := by
  rw [idna_test_exact_partial]
  constructor
  · exact And.left
  · intro h
    exact ⟨h, fun h' => hlast (by have := h.1; have := h.2.1; omega) (h' (n - 1) (by have := h.1; have := h.2.1; omega) (by have := h.1; have := h.2.1; omega))⟩

/-- C78 is violated: whatever the data, the last code point is not reported by the predicate for its status. In the data file of the
repository U+10FFFF is `disallowed`, and so is all of U+E01F0..U+10FFFF. -/
theorem idna_test_violated (n : Nat) (hn : 0 < n) (status : Nat → σ) :
    Has n status (status (n - 1)) (n - 1 : Nat) ∧ runTest (generateTest n status (status (n - 1))) (n - 1 : Nat) = false := by
  refine ⟨⟨by omega, by omega, by simp⟩, ?_⟩
  rw [← Bool.not_eq_true, idna_test_exact_partial]
  rintro ⟨_, h⟩
  refine h fun y h1 h2 => ?_
  have : y = n - 1 := by omega
  rw [this]

/-- C78 for the two predicates made by `generate_set`, when there is a member other than code point 0: every code point is decided rightly
without undefined behaviour, except that the largest member is not reported, or that asking for it reads outside the array. Missing: the
largest member, negative arguments and sets without a positive member, see `idna_set_violated`, `idna_set_reads_outside` and
`idna_set_fails`. -/
theorem idna_set_exact_partial (n m : Nat) (status : Nat → σ) (s : σ) (hm : m < n) (hpos : 0 < m) (hs : status m = s)
    (hmax : ∀ x, m < x → x < n → status x ≠ s) :
    ∃ set, generateSet n status s = .ok set ∧
      (∀ x : Int, 0 ≤ x → x ≠ m → ∃ b, runSet set x = .ok b ∧ (b = true ↔ Has n status s x)) ∧
      runSet set m = if m % 64 = 0 then .error .ub else .ok false := by
  have hmo : maxOn status s n = m := by
    obtain ⟨_, h2⟩ | ⟨m', h1, h2, h3, h4⟩ := maxOn_spec status s n
    · exact absurd hs (h2 m hm)
    · rw [h1]
      have : m' = m := by
        rcases Nat.lt_trichotomy m m' with h | h | h
        · exact absurd h3 (hmax m' h h2)
        · exact h.symm
        · exact absurd hs (h4 m h hm)
      rw [this]
  obtain ⟨words, h1, h2, h3⟩ := generateSet_spec status s n m hmo hpos
  refine ⟨(words, m), h1, fun x hx hne => ?_, ?_⟩
  · obtain ⟨k, rfl⟩ := Int.eq_ofNat_of_zero_le hx
    by_cases hk : k ≤ m
    · have hlt : k < m := by omega
      refine ⟨_, runSet_in words m k hk (by omega), ?_⟩
      rw [h3 k (by omega)]
      simp only [Has, Int.toNat_natCast]
      constructor
      · rintro ⟨_, h⟩; exact ⟨by omega, by omega, h⟩
      · rintro ⟨_, _, h⟩; exact ⟨hlt, h⟩
    · refine ⟨false, by rw [runSet, if_pos (by simp only; omega)], ?_⟩
      simp only [Bool.false_eq_true, false_iff, Has, Int.toNat_natCast]
      rintro ⟨_, h4, h5⟩
      exact hmax k (by omega) (by omega) h5
  · split
    · rename_i h0
      rw [runSet, if_neg (by simp), if_neg (by omega)]
      simp only [Int.toNat_natCast]
      rw [List.getElem?_eq_none (by omega)]
    · rename_i h0
      rw [runSet_in words m m (Nat.le_refl _) (by omega)]
      congr 1
      rw [← Bool.not_eq_true, h3 m (by omega)]
      omega

/-- C78 is violated: the largest member is not reported. In the data file of the repository U+2FA1D is the last `mapped` code point. -/
theorem idna_set_violated : ∃ set, generateSet 0x110000 (fun x => decide (x = 0x2FA1D)) true = .ok set ∧
    runSet set 0x2FA1D = .ok false ∧ Has 0x110000 (fun x => decide (x = 0x2FA1D)) true 0x2FA1D := by
  obtain ⟨set, h1, _, h3⟩ := idna_set_exact_partial 0x110000 0x2FA1D (fun x => decide (x = 0x2FA1D)) true (by omega) (by omega) (by simp)
    (fun x h _ => by simp; omega)
  refine ⟨set, h1, ?_, ?_⟩
  · rw [if_neg (by omega)] at h3; exact h3
  · exact ⟨by omega, by omega, by simp⟩

/-- C78 is violated: if the largest member is a multiple of 64, the predicate reads behind its array. -/
theorem idna_set_reads_outside : ∃ set, generateSet 0x110000 (fun x => decide (x = 0x2FA40)) true = .ok set ∧
    runSet set 0x2FA40 = .error .ub := by
  obtain ⟨set, h1, _, h3⟩ := idna_set_exact_partial 0x110000 0x2FA40 (fun x => decide (x = 0x2FA40)) true (by omega) (by omega) (by simp)
    (fun x h _ => by simp; omega)
  refine ⟨set, h1, ?_⟩
  rw [if_pos (by omega)] at h3; exact h3

/-- Without a member other than code point 0 the generator itself has an array of size 0 and reads before it. -/
theorem idna_set_fails (n : Nat) (status : Nat → σ) (s : σ) (h : ∀ x, 0 < x → x < n → status x ≠ s) :
    generateSet n status s = .error .ub := by
  have hz : maxOn status s n = -1 ∨ maxOn status s n = 0 := by
    obtain ⟨h1, _⟩ | ⟨m, h1, h2, h3, _⟩ := maxOn_spec status s n
    · exact Or.inl h1
    · right
      rw [h1]
      by_contra hne
      exact h m (by omega) h2 h3
  rcases hz with hz | hz <;> rw [generateSet, hz] <;> rfl

/-- A negative argument not below the array's start is out of bounds for the set predicates. -/
theorem idna_set_negative (words : List UInt64) (m : Nat) (x : Int) (hx : x < 0) : runSet (words, (m : Int)) x = .error .ub := by
  rw [runSet, if_neg (by simp only; omega), if_pos hx]

/-- The code points whose status is lost: the largest `valid` and the largest `mapped` one, and for other statuses those in the last run. -/
def Lost (n v m : Nat) (status : Nat → String) (x : Nat) : Prop :=
  x = v ∨ x = m ∨ (status x ≠ "valid" ∧ status x ≠ "mapped" ∧ InLastRun n status (status x) x)

/-- C83: `charstr_idna_status` with the predicates made from a data file: it names the recorded status of every code point, except that the
largest `valid` and the largest `mapped` code point (if no multiple of 64) and the code points in the last run are reported as `?`. -/
theorem idna_status_partial (n v m : Nat) (status : Nat → String) (hall : ∀ x, x < n → status x ∈ statuses)
    (hv : v < n ∧ 0 < v ∧ status v = "valid" ∧ ∀ x, v < x → x < n → status x ≠ "valid")
    (hm : m < n ∧ 0 < m ∧ status m = "mapped" ∧ ∀ x, m < x → x < n → status x ≠ "mapped") (hv64 : v % 64 ≠ 0) (hm64 : m % 64 ≠ 0) :
    ∃ t, generate n status = .ok t ∧ ∀ x : Nat,
      (x < n → ¬ Lost n v m status x → charstrIdnaStatus t x = .ok (status x)) ∧
      (x < n → Lost n v m status x → charstrIdnaStatus t x = .ok "?") ∧
      (n ≤ x → charstrIdnaStatus t x = .ok "?") := by
  obtain ⟨valid, hgv, hval, hvm⟩ := idna_set_exact_partial n v status "valid" hv.1 hv.2.1 hv.2.2.1 hv.2.2.2
  obtain ⟨mapped, hgm, hmap, hmm⟩ := idna_set_exact_partial n m status "mapped" hm.1 hm.2.1 hm.2.2.1 hm.2.2.2
  rw [if_neg hv64] at hvm
  rw [if_neg hm64] at hmm
  have hvset : ∀ x : Nat, runSet valid x = .ok (decide (x < n ∧ x ≠ v ∧ status x = "valid")) := by
    intro x
    by_cases hx : x = v
    · subst hx; rw [hvm]; simp
    · obtain ⟨b, h1, h2⟩ := hval x (by omega) (by omega)
      rw [h1, show b = decide (x < n ∧ x ≠ v ∧ status x = "valid") by rw [Bool.eq_iff_iff, h2]; simp [Has, hx]]
  have hmset : ∀ x : Nat, runSet mapped x = .ok (decide (x < n ∧ x ≠ m ∧ status x = "mapped")) := by
    intro x
    by_cases hx : x = m
    · subst hx; rw [hmm]; simp
    · obtain ⟨b, h1, h2⟩ := hmap x (by omega) (by omega)
      rw [h1, show b = decide (x < n ∧ x ≠ m ∧ status x = "mapped") by rw [Bool.eq_iff_iff, h2]; simp [Has, hx]]
  have htest : ∀ s (x : Nat), runTest (generateTest n status s) x = true ↔ x < n ∧ status x = s ∧ ¬ InLastRun n status s x := by
    intro s x; rw [idna_test_exact_partial]; simp [Has, and_assoc]
  refine ⟨⟨valid, mapped, generateTest n status "ignored", generateTest n status "deviation", generateTest n status "disallowed",
    generateTest n status "disallowed_STD3_valid", generateTest n status "disallowed_STD3_mapped"⟩, by rw [generate, hgv, hgm], fun x => ?_⟩
  have hfalse : ∀ s (x : Nat), ¬ (x < n ∧ status x = s ∧ ¬ InLastRun n status s x) → runTest (generateTest n status s) x = false := by
    intro s x h; rw [← Bool.not_eq_true, htest]; exact h
  rw [charstrIdnaStatus, hvset, hmset]
  refine ⟨fun hx hl => ?_, fun hx hl => ?_, fun hx => ?_⟩
  · obtain ⟨h1, h2, h3⟩ : x ≠ v ∧ x ≠ m ∧ (status x ≠ "valid" → status x ≠ "mapped" → ¬ InLastRun n status (status x) x) := by
      simp only [Lost] at hl
      push Not at hl
      exact hl
    have hs := hall x hx
    simp only [statuses, List.mem_cons, List.not_mem_nil, or_false] at hs
    have hother : ∀ s, status x ≠ s → runTest (generateTest n status s) x = false := fun s h => hfalse s x (fun h' => h h'.2.1)
    have hself : status x ≠ "valid" → status x ≠ "mapped" → runTest (generateTest n status (status x)) x = true :=
      fun h4 h5 => (htest _ x).2 ⟨hx, rfl, h3 h4 h5⟩
    rcases hs with h | h | h | h | h | h | h <;> rw [h] at hself hother ⊢ <;>
      simp [h, hx, h1, h2, hself, hother]
  · have hall' : ∀ s, s ≠ "valid" → s ≠ "mapped" → runTest (generateTest n status s) x = false := by
      intro s h1 h2
      refine hfalse s x ?_
      rintro ⟨_, h3, h4⟩
      rcases hl with rfl | rfl | ⟨_, _, h⟩
      · rw [hv.2.2.1] at h3; exact h1 h3.symm
      · rw [hm.2.2.1] at h3; exact h2 h3.symm
      · rw [h3] at h; exact h4 h
    have hnv : ¬ (x < n ∧ x ≠ v ∧ status x = "valid") := by
      rintro ⟨_, h1, h2⟩
      rcases hl with rfl | rfl | ⟨h, _, _⟩
      · exact h1 rfl
      · rw [hm.2.2.1] at h2; simp at h2
      · exact h h2
    have hnm : ¬ (x < n ∧ x ≠ m ∧ status x = "mapped") := by
      rintro ⟨_, h1, h2⟩
      rcases hl with rfl | rfl | ⟨_, h, _⟩
      · rw [hv.2.2.1] at h2; simp at h2
      · exact h1 rfl
      · exact h h2
    simp [hnv, hnm, hall']
  · have hall' : ∀ s, runTest (generateTest n status s) x = false := fun s => hfalse s x (fun h => by omega)
    simp [show ¬ x < n by omega, hall']

/-- C79: the emitted lookup returns the mapping recorded for the code point and NULL if there is none (the empty mapping counts as none),
without reading outside its table, for every data with a mapping. -/
theorem idna_mapping_exact (n : Nat) (mapping : Nat → List UInt8) (h : ∃ x, x < n ∧ mapping x ≠ []) (cp : Int) :
    Returns (lookup (generateMappings n mapping) cp)
      (if 0 ≤ cp ∧ cp < n ∧ mapping cp.toNat ≠ [] then some (mapping cp.toNat) else none) :=
  lookup_spec n mapping cp (Or.inr h)

/-- The same without any mapping in the data, for code points. -/
theorem idna_mapping_none (n : Nat) (mapping : Nat → List UInt8) (h : ∀ x, x < n → mapping x = []) (cp : Int) (hcp : 0 ≤ cp) :
    Returns (lookup (generateMappings n mapping) cp) none := by
  have := lookup_spec n mapping cp (Or.inl hcp)
  rwa [if_neg (by rintro ⟨h1, h2, h3⟩; exact h3 (h _ (by omega)))] at this

/-- Three letters of the data: upper case ASCII letters are mapped to lower case, the rest is valid. -/
example : let mapping := fun x : Nat => if 65 ≤ x ∧ x ≤ 90 then [UInt8.ofNat (x + 32)] else []
    Returns (lookup (generateMappings 0x110000 mapping) 66) (some [98]) ∧ Returns (lookup (generateMappings 0x110000 mapping) 91) none ∧
    Returns (lookup (generateMappings 0x110000 mapping) 64) none := by
  intro mapping
  have h : ∃ x, x < 0x110000 ∧ mapping x ≠ [] := ⟨65, by omega, by simp [mapping]⟩
  refine ⟨?_, ?_, ?_⟩
  · simpa [mapping] using idna_mapping_exact 0x110000 mapping h 66
  · simpa [mapping] using idna_mapping_exact 0x110000 mapping h 91
  · simpa [mapping] using idna_mapping_exact 0x110000 mapping h 64

/-- A small table of this shape: letters are valid, upper case letters mapped, the rest disallowed. -/
def smallStatus (x : Nat) : String :=
  if 97 ≤ x ∧ x ≤ 122 then "valid" else if 65 ≤ x ∧ x ≤ 90 then "mapped" else if x = 0xAD then "ignored" else "disallowed"

example : ∃ t, generate 0x110000 smallStatus = .ok t ∧ charstrIdnaStatus t 98 = .ok "valid" ∧ charstrIdnaStatus t 66 = .ok "mapped" ∧
    charstrIdnaStatus t 0xAD = .ok "ignored" ∧ charstrIdnaStatus t 44 = .ok "disallowed" ∧ charstrIdnaStatus t 122 = .ok "?" ∧
    charstrIdnaStatus t 0x10FFFF = .ok "?" := by
  have hst : ∀ x, smallStatus x ∈ statuses := by
    intro x; unfold smallStatus; repeat' split
    all_goals simp [statuses]
  obtain ⟨t, h, hx⟩ := idna_status_partial 0x110000 122 90 smallStatus (fun x _ => hst x)
    ⟨by omega, by omega, by simp [smallStatus], fun x h _ => by
      rw [smallStatus, if_neg (by omega), if_neg (by omega)]; split <;> simp⟩
    ⟨by omega, by omega, by simp [smallStatus], fun x h _ => by
      rw [smallStatus]; split
      · simp
      · rw [if_neg (by omega)]; split <;> simp⟩ (by omega) (by omega)
  have hnot : ∀ x : Nat, x < 0xAE → ¬ InLastRun 0x110000 smallStatus (smallStatus x) x ∨ smallStatus x = "disallowed" := by
    intro x hx
    by_cases hd : smallStatus x = "disallowed"
    · exact Or.inr hd
    · left; intro hr
      have := hr 0xAE (by omega) (by omega)
      rw [← this] at hd; simp [smallStatus] at hd
  have h44 : ¬ InLastRun 0x110000 smallStatus (smallStatus 44) 44 := by
    intro hr
    have := hr 98 (by omega) (by omega)
    simp [smallStatus] at this
  have hlast : InLastRun 0x110000 smallStatus (smallStatus 0x10FFFF) 0x10FFFF := by
    intro y h1 h2
    have : y = 0x10FFFF := by omega
    rw [this]
  refine ⟨t, h, ?_, ?_, ?_, ?_, ?_, ?_⟩
  · simpa [smallStatus] using (hx 98).1 (by omega) (by simp [Lost, smallStatus])
  · simpa [smallStatus] using (hx 66).1 (by omega) (by simp [Lost, smallStatus])
  · refine (hx 0xAD).1 (by omega) ?_
    rcases hnot 0xAD (by omega) with h | h
    · rintro (h1 | h1 | ⟨_, _, h1⟩)
      · omega
      · omega
      · exact h h1
    · simp [smallStatus] at h
  · refine (hx 44).1 (by omega) ?_
    rintro (h1 | h1 | ⟨_, _, h1⟩)
    · omega
    · omega
    · exact h44 h1
  · exact (hx 122).2.1 (by omega) (Or.inl rfl)
  · exact (hx 0x10FFFF).2.1 (by omega) (Or.inr (Or.inr ⟨by simp [smallStatus], by simp [smallStatus], hlast⟩))

example : let status := fun x : Nat => decide (65 ≤ x ∧ x ≤ 90)
    runTest (generateTest 0x110000 status true) 66 = true ∧ runTest (generateTest 0x110000 status true) 91 = false ∧
    (∃ set, generateSet 0x110000 status true = .ok set ∧ runSet set 66 = .ok true ∧ runSet set 91 = .ok false ∧ runSet set 64 = .ok false) := by
  intro status
  refine ⟨?_, ?_, ?_⟩
  · rw [idna_test_exact _ _ _ (by simp [status])]; exact ⟨by omega, by omega, by simp [status]⟩
  · rw [← Bool.not_eq_true, idna_test_exact _ _ _ (by simp [status])]; rintro ⟨_, _, h⟩; simp [status] at h
  · obtain ⟨set, h1, h2, _⟩ := idna_set_exact_partial 0x110000 90 status true (by omega) (by omega) (by simp [status])
      (fun x h _ => by simp [status]; omega)
    refine ⟨set, h1, ?_, ?_, ?_⟩
    · obtain ⟨b, h3, h4⟩ := h2 66 (by omega) (by omega)
      rw [h3, h4.2 ⟨by omega, by omega, by simp [status]⟩]
    · obtain ⟨b, h3, h4⟩ := h2 91 (by omega) (by omega)
      have : b = false := by rw [← Bool.not_eq_true, h4]; rintro ⟨_, _, h⟩; simp [status] at h
      rw [h3, this]
    · obtain ⟨b, h3, h4⟩ := h2 64 (by omega) (by omega)
      have : b = false := by rw [← Bool.not_eq_true, h4]; rintro ⟨_, _, h⟩; simp [status] at h
      rw [h3, this]

end Verif.IdnaGen
