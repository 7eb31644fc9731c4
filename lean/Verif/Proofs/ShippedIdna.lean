import Verif.Proofs.Shipped
import Verif.Proofs.ShippedScan
import Verif.Props.Idna13

/-!
What the functions of ShippedScan.lean find: the parts that all files share, and IdnaMappingTable.txt.
-/

set_option autoImplicit false

namespace Verif.Shipped
open Verif.Unidata Verif.UniGen

/-! ### Bytes -/

theorem bit_any {c : Nat} (h : bit mAny c = true) : c < 256 ∧ c ≠ 0 ∧ c ≠ 10 := by
  have : ∀ c < 256, bit mAny c = true → c ≠ 0 ∧ c ≠ 10 := by decide +kernel
  have hl := bit_lt (by decide) h
  exact ⟨hl, this c hl h⟩

theorem bit_ascii {c : Nat} (h : bit mAscii c = true) : 32 ≤ c ∧ c < 127 := by
  have : ∀ c < 256, bit mAscii c = true → 32 ≤ c ∧ c < 127 := by decide +kernel
  exact this c (bit_lt (by decide) h) h

theorem bit_free {c : Nat} (h : bit mFree c = true) : 32 ≤ c ∧ c < 127 ∧ c ≠ 35 ∧ c ≠ 59 := by
  have : ∀ c < 256, bit mFree c = true → 32 ≤ c ∧ c < 127 ∧ c ≠ 35 ∧ c ≠ 59 := by decide +kernel
  exact this c (bit_lt (by decide) h) h

theorem bit_word {c : Nat} (h : bit mWord c = true) : 32 < c ∧ c < 127 ∧ c ≠ 35 ∧ c ≠ 59 := by
  have : ∀ c < 256, bit mWord c = true → 32 < c ∧ c < 127 ∧ c ≠ 35 ∧ c ≠ 59 := by decide +kernel
  exact this c (bit_lt (by decide) h) h

theorem bit_space {c : Nat} (h : bit mSpace c = true) : c = 32 := by
  have : ∀ c < 256, bit mSpace c = true → c = 32 := by decide +kernel
  exact this c (bit_lt (by decide) h) h

/-! ### Scanning -/

theorem span_sound {mask k n : Nat} {K : List Nat → Nat → Nat → Bool} (h : span mask k n K = true) :
    ∃ f k' n', unpack k n = f ++ unpack k' n' ∧ (∀ c ∈ f, bit mask c = true) ∧ K f.reverse k' n' = true := by
  have key : ∀ (k n : Nat) (acc : List Nat), Nat.rec (motive := fun _ => Nat → List Nat → Bool) (fun n acc => K acc (nat_lit 0) n)
      (fun k ih n acc => Bool.rec (K acc (Nat.succ k) n) (ih (Nat.shiftRight n (nat_lit 8)) (Nat.land n (nat_lit 255) :: acc)) (bit mask (Nat.land n (nat_lit 255)))) k n acc = true →
      ∃ f k' n', unpack k n = f ++ unpack k' n' ∧ (∀ c ∈ f, bit mask c = true) ∧ K (f.reverse ++ acc) k' n' = true := by
    intro k
    induction k with
    | zero => intro n acc h; exact ⟨[], 0, n, rfl, by simp, h⟩
    | succ k ih =>
      intro n acc h
      simp only at h
      rw [land_255, shift_8] at h
      cases hb : bit mask (n % 256) with
      | false =>
        simp only [hb] at h
        exact ⟨[], k + 1, n, rfl, by simp, h⟩
      | true =>
        simp only [hb] at h
        obtain ⟨f, k', n', h1, h2, h3⟩ := ih _ _ h
        refine ⟨n % 256 :: f, k', n', by rw [unpack, h1]; rfl, ?_, by simpa using h3⟩
        intro c hc
        rcases List.mem_cons.1 hc with rfl | hc
        · exact hb
        · exact h2 c hc
  obtain ⟨f, k', n', h1, h2, h3⟩ := key k n [] h
  exact ⟨f, k', n', h1, h2, by simpa using h3⟩

theorem eat_sound {d k n : Nat} {K : Nat → Nat → Bool} (h : eat d k n K = true) : ∃ k' n', unpack k n = d :: unpack k' n' ∧ K k' n' = true := by
  cases k with
  | zero => cases h
  | succ k =>
    have h' : both (Nat.beq (Nat.land n 255) d) (K k (Nat.shiftRight n 8)) = true := h
    rw [land_255, shift_8, both_iff, Nat.beq_eq] at h'
    exact ⟨k, n / 256, by rw [unpack, h'.1], h'.2⟩

theorem peek_sound {d n : Nat} {a b : Bool} (h : peek d n a b = true) : n % 256 = d ∧ a = true ∨ b = true := by
  rw [peek, land_255] at h
  cases hb : Nat.beq (n % 256) d with
  | true => rw [hb] at h; exact .inl ⟨Nat.eq_of_beq_eq_true hb, h⟩
  | false => rw [hb] at h; exact .inr h

theorem skip_sound {mask k n : Nat} {K : Nat → Nat → Bool} (h : skip mask k n K = true) :
    ∃ f k' n', unpack k n = f ++ 10 :: unpack k' n' ∧ (∀ c ∈ f, bit mask c = true) ∧ K k' n' = true := by
  obtain ⟨f, k1, n1, h1, h2, h3⟩ := span_sound h
  obtain ⟨k', n', h4, h5⟩ := eat_sound h3
  exact ⟨f, k', n', by rw [h1, h4], h2, h5⟩

/-- The next byte. -/
theorem head_unpack {k n : Nat} {s : List Nat} {c : Nat} (h : unpack k n = c :: s) : n % 256 = c := by
  cases k with
  | zero => simp [unpack] at h
  | succ k => simp only [unpack, List.cons.injEq] at h; exact h.1

theorem eqL_iff {l : List Nat} : ∀ {m : List Nat}, eqL l m = true ↔ l = m := by
  induction l with
  | nil => intro m; cases m <;> simp [eqL]
  | cons c l ih =>
    intro m
    cases m with
    | nil => simp [eqL]
    | cons d m =>
      have : eqL (c :: l) (d :: m) = both (Nat.beq c d) (eqL l m) := rfl
      rw [this, both_iff, ih, Nat.beq_eq, List.cons.injEq]

/-- `s` is a number in hexadecimal. -/
def HexN (s : List Nat) (v : Nat) : Prop := hexOk s.reverse = true ∧ v = val 16 s.reverse

/-- A code point or a range. -/
def RangeN (s : List Nat) (lo hi : Nat) : Prop := HexN s lo ∧ hi = lo ∨ ∃ a b, s = a ++ [46, 46] ++ b ∧ HexN a lo ∧ HexN b hi

theorem range2_sound {w r : List Nat} {U : Nat → Nat → Bool} (h : range2 w r U = true) :
    ∃ a lo hi, r.reverse = a ++ [46] ∧ HexN a lo ∧ HexN w hi ∧ U lo hi = true := by
  cases r with
  | nil => cases h
  | cons d r =>
    have h' : both (Nat.beq d 46) (both (hexOk r) (both (hexOk w.reverse) (U (val 16 r) (val 16 w.reverse)))) = true := h
    simp only [both_iff, Nat.beq_eq] at h'
    obtain ⟨rfl, h1, h2, h3⟩ := h'
    exact ⟨r.reverse, _, _, by simp, ⟨by simpa using h1, by rw [List.reverse_reverse]⟩, ⟨h2, rfl⟩, h3⟩

theorem range_sound {r : List Nat} {U : Nat → Nat → Bool} (h : range r U = true) : ∃ lo hi, RangeN r.reverse lo hi ∧ U lo hi = true := by
  have key : ∀ (s w : List Nat), List.rec (motive := fun _ => List Nat → Bool) (fun _ => both (hexOk r) (U (val (nat_lit 16) r) (val (nat_lit 16) r)))
      (fun c s ih w => Bool.rec (ih (c :: w)) (range2 w s U) (Nat.beq c (nat_lit 46))) s w = true → r.reverse = s.reverse ++ w →
      ∃ lo hi, RangeN r.reverse lo hi ∧ U lo hi = true := by
    intro s
    induction s with
    | nil =>
      intro w h _
      have h' : both (hexOk r) (U (val 16 r) (val 16 r)) = true := h
      rw [both_iff] at h'
      exact ⟨_, _, .inl ⟨⟨by simpa using h'.1, by rw [List.reverse_reverse]⟩, rfl⟩, h'.2⟩
    | cons c s ih =>
      intro w h hr
      have h' : Bool.rec (List.rec (motive := fun _ => List Nat → Bool) (fun _ => both (hexOk r) (U (val (nat_lit 16) r) (val (nat_lit 16) r)))
        (fun c s ih w => Bool.rec (ih (c :: w)) (range2 w s U) (Nat.beq c (nat_lit 46))) s (c :: w)) (range2 w s U) (Nat.beq c 46) = true := h
      cases hc : Nat.beq c 46 with
      | false =>
        rw [hc] at h'
        exact ih _ h' (by simpa using hr)
      | true =>
        rw [hc] at h'
        have := Nat.eq_of_beq_eq_true hc
        subst this
        obtain ⟨a, lo, hi, h1, h2, h3, h4⟩ := range2_sound h'
        refine ⟨lo, hi, .inr ⟨a, w, ?_, h2, h3⟩, h4⟩
        rw [hr, List.reverse_cons, h1]
        simp
  exact key r [] h (by simp)

theorem lookN_sound {α : Type} {t : RTree α} {k : Nat} {f : Nat → Nat → α → Bool} (h : lookN t k f = true) : ∃ lo hi v, (lo, hi, v) ∈ t.toList ∧ f lo hi v = true := by
  induction t with
  | leaf => cases h
  | node l lo hi v r ihl ihr =>
    have h' : Bool.rec (lookN l k f) (Bool.rec (lookN r k f) (f lo hi v) (Nat.ble k hi)) (Nat.ble lo k) = true := h
    cases h1 : Nat.ble lo k with
    | false =>
      rw [h1] at h'
      obtain ⟨a, b, x, hm, hf⟩ := ihl h'
      exact ⟨a, b, x, by simp [RTree.toList, hm], hf⟩
    | true =>
      rw [h1] at h'
      simp only at h'
      cases h2 : Nat.ble k hi with
      | false =>
        rw [h2] at h'
        obtain ⟨a, b, x, hm, hf⟩ := ihr h'
        exact ⟨a, b, x, by simp [RTree.toList, hm], hf⟩
      | true =>
        rw [h2] at h'
        exact ⟨lo, hi, v, by simp [RTree.toList], h'⟩

theorem clip_subset {α : Type} (t : RTree α) (lo hi : Nat) : (clip t lo hi).toList ⊆ t.toList := by
  induction t with
  | leaf => exact fun _ h => h
  | node l a b v r ihl ihr =>
    have e : clip (.node l a b v r) lo hi = Bool.rec (Bool.rec (.node l a b v r) (Bool.rec (.node l a b v r) (clip r lo hi) (Nat.ble a lo)) (Nat.ble (Nat.succ b) lo))
      (clip l lo hi) (Nat.ble hi a) := rfl
    rw [e]
    cases Nat.ble hi a with
    | true => exact fun x hx => by simp [RTree.toList, ihl hx]
    | false =>
      cases Nat.ble (Nat.succ b) lo with
      | false => exact fun _ h => h
      | true =>
        cases Nat.ble a lo with
        | false => exact fun _ h => h
        | true => exact fun x hx => by simp [RTree.toList, ihr hx]

/-! ### Files -/

/-- The lines of a file: some say nothing, the others have an entry. -/
inductive Reads {E : Type} (Q : List Nat → Prop) (S : List Nat → E → Prop) : List (List Nat) → List E → Prop
  | nil : Reads Q S [] []
  | quiet (l : List Nat) (ls : List (List Nat)) (es : List E) (h : Q l) (hr : Reads Q S ls es) : Reads Q S (l :: ls) es
  | line (l : List Nat) (ls : List (List Nat)) (e : E) (es : List E) (h : S l e) (hr : Reads Q S ls es) : Reads Q S (l :: ls) (e :: es)

theorem Reads.append {E : Type} {Q : List Nat → Prop} {S : List Nat → E → Prop} {ls ls' : List (List Nat)} {es es' : List E} (h : Reads Q S ls es) (h' : Reads Q S ls' es') :
    Reads Q S (ls ++ ls') (es ++ es') := by
  induction h with
  | nil => exact h'
  | quiet l ls es h _ ih => exact .quiet _ _ _ h ih
  | line l ls e es h _ ih => exact .line _ _ _ _ h ih

/-- What a part of a text says: `m` entries with keys from `lo` up to `hi`. -/
def PartG {E : Type} (Q : List Nat → Prop) (S : List Nat → E → Prop) (key : E → Nat) (text : List Nat) (m lo hi : Nat) : Prop :=
  lo ≤ hi ∧ ∃ ls es, text = ls.flatMap (fun l => l ++ [10]) ∧ (∀ l ∈ ls, 10 ∉ l) ∧ Reads Q S ls es ∧ es.length = m ∧
    es.Pairwise (fun a b => key a < key b) ∧ ∀ e ∈ es, lo ≤ key e ∧ key e < hi

/-- `L` reads a line. -/
def SoundL {E : Type} (Q : List Nat → Prop) (S : List Nat → E → Prop) (key : E → Nat) (L : Nat → Nat → Nat → Nat → Cont → Bool) : Prop :=
  ∀ lo cnt k n K, L lo cnt k n K = true → ∃ l k' n', unpack k n = l ++ 10 :: unpack k' n' ∧ 10 ∉ l ∧
    (Q l ∧ K lo cnt k' n' = true ∨ ∃ e, S l e ∧ lo ≤ key e ∧ K (key e + 1) (cnt + 1) k' n' = true)

theorem chunkG_sound {E : Type} {Q : List Nat → Prop} {S : List Nat → E → Prop} {key : E → Nat} {L : Nat → Nat → Nat → Nat → Cont → Bool} (hL : SoundL Q S key L)
    {nl m lo hi k n : Nat} (h : chunkG L nl m lo hi k n = true) : PartG Q S key (unpack k n) m lo hi := by
  have main : ∀ (nl lo cnt k n : Nat), Nat.rec (motive := fun _ => Cont) (fun key cnt k _ => both (Nat.ble key hi) (both (Nat.beq cnt m) (Nat.beq k (nat_lit 0))))
      (fun _ ih key cnt k n => L key cnt k n ih) nl lo cnt k n = true → cnt ≤ m ∧ PartG Q S key (unpack k n) (m - cnt) lo hi := by
    intro nl
    induction nl with
    | zero =>
      intro lo cnt k n h
      have h' : both (Nat.ble lo hi) (both (Nat.beq cnt m) (Nat.beq k 0)) = true := h
      simp only [both_iff, Nat.ble_eq, Nat.beq_eq] at h'
      obtain ⟨h1, rfl, rfl⟩ := h'
      exact ⟨le_refl _, h1, [], [], rfl, by simp, .nil, by simp, .nil, by simp⟩
    | succ nl ih =>
      intro lo cnt k n h
      obtain ⟨l, k', n', h1, h2, ⟨hq, hK⟩ | ⟨e, hs, hlo, hK⟩⟩ := hL _ _ _ _ _ h
      · obtain ⟨hm, g0, ls, es, g1, g2, g3, g4, g5, g6⟩ := ih _ _ _ _ hK
        refine ⟨hm, g0, l :: ls, es, by rw [h1, g1]; simp, ?_, .quiet _ _ _ hq g3, g4, g5, g6⟩
        intro x hx
        rcases List.mem_cons.1 hx with rfl | hx
        · exact h2
        · exact g2 x hx
      · obtain ⟨hm, g0, ls, es, g1, g2, g3, g4, g5, g6⟩ := ih _ _ _ _ hK
        refine ⟨by omega, by omega, l :: ls, e :: es, by rw [h1, g1]; simp, ?_, .line _ _ _ _ hs g3, by simp [g4]; omega, .cons (fun b hb => ?_) g5, ?_⟩
        · intro x hx
          rcases List.mem_cons.1 hx with rfl | hx
          · exact h2
          · exact g2 x hx
        · have := (g6 b hb).1
          omega
        · intro x hx
          rcases List.mem_cons.1 hx with rfl | hx
          · exact ⟨hlo, by omega⟩
          · have := g6 x hx
            omega
  exact (main nl lo 0 k n h).2

theorem PartG.append {E : Type} {Q : List Nat → Prop} {S : List Nat → E → Prop} {key : E → Nat} {s t : List Nat} {m m' lo mid mid' hi : Nat}
    (h1 : PartG Q S key s m lo mid) (h2 : PartG Q S key t m' mid' hi) (h : mid ≤ mid') : PartG Q S key (s ++ t) (m + m') lo hi := by
  obtain ⟨a0, ls, es, a1, a2, a3, a4, a5, a6⟩ := h1
  obtain ⟨b0, ls', es', b1, b2, b3, b4, b5, b6⟩ := h2
  refine ⟨by omega, ls ++ ls', es ++ es', by simp [a1, b1], ?_, a3.append b3, by simp [a4, b4], ?_, ?_⟩
  · intro l hl
    rcases List.mem_append.1 hl with hl | hl
    · exact a2 l hl
    · exact b2 l hl
  · refine List.pairwise_append.2 ⟨a5, b5, fun a ha b hb => ?_⟩
    have := (a6 a ha).2
    have := (b6 b hb).1
    omega
  · intro e he
    rcases List.mem_append.1 he with he | he
    · have := a6 e he
      omega
    · have := b6 e he
      omega

/-- The parts follow each other. -/
def linkedG : List Piece → Nat → Nat → Bool
  | [], lo, hi => Nat.ble lo hi
  | c :: cs, lo, hi => Nat.ble lo c.lo && linkedG cs c.hi hi

/-- The number of entries. -/
def totalG : List Piece → Nat
  | [] => 0
  | c :: cs => c.m + totalG cs

theorem partsG {E : Type} {Q : List Nat → Prop} {S : List Nat → E → Prop} {key : E → Nat} {cs : List Piece}
    (h : ∀ c ∈ cs, PartG Q S key c.bytes c.m c.lo c.hi) : ∀ {lo hi : Nat}, linkedG cs lo hi = true → PartG Q S key (cs.flatMap Piece.bytes) (totalG cs) lo hi := by
  have nil : ∀ lo hi, lo ≤ hi → PartG Q S key [] 0 lo hi := fun lo hi h => ⟨h, [], [], rfl, by simp, .nil, rfl, .nil, by simp⟩
  induction cs with
  | nil =>
    intro lo hi hl
    exact nil _ _ (Nat.ble_eq.mp hl)
  | cons c cs ih =>
    intro lo hi hl
    simp only [linkedG, Bool.and_eq_true, Nat.ble_eq] at hl
    have h1 := (nil lo c.lo hl.1).append (h c (by simp)) (le_refl _)
    have := h1.append (ih (fun c hc => h c (by simp [hc])) hl.2) (le_refl _)
    simpa [totalG] using this

/-- Keys in order, each of the table, and as many as the table has: these are the keys of the table. -/
theorem keys_eq {as bs : List Nat} (h1 : as.Pairwise (· < ·)) (h2 : bs.Pairwise (· < ·)) (h : as ⊆ bs) (hl : bs.length ≤ as.length) : as = bs :=
  ((List.subperm_of_subset (h1.imp fun h => Nat.ne_of_lt h) h).perm_of_length_le hl).eq_of_pairwise (fun _ _ _ _ h1 h2 => absurd h1 (Nat.lt_asymm h2)) h1 h2

theorem bit_head {k n k' n' d : Nat} {f : List Nat} (h : unpack k n = f ++ 10 :: unpack k' n') (hd : n % 256 = d) (h10 : d ≠ 10) : ∃ g, f = d :: g := by
  cases f with
  | nil => exact absurd (hd.symm.trans (head_unpack (by simpa using h))) h10
  | cons c f => exact ⟨f, by rw [← hd, head_unpack (by simpa using h)]⟩

/-! ### IdnaMappingTable.txt -/

section Idna
open Verif.Spec.IdnaTable Verif.Spec.Charstr Verif.IdnaGen

def toB (l : List Nat) : List UInt8 := l.map UInt8.ofNat

theorem toB_append (a b : List Nat) : toB (a ++ b) = toB a ++ toB b := List.map_append

theorem not_mem_toB {l : List Nat} {d : Nat} (hd : d < 256) (h : ∀ c ∈ l, c < 256 ∧ c ≠ d) : UInt8.ofNat d ∉ toB l := by
  intro hm
  obtain ⟨c, hc, e⟩ := List.mem_map.1 hm
  obtain ⟨h1, h2⟩ := h c hc
  have := congrArg UInt8.toNat e
  simp at this
  omega

theorem digit_value : ∀ c < 256, (48 ≤ c ∧ c ≤ 57 ∨ 65 ≤ c ∧ c ≤ 70) → hexValue (UInt8.ofNat c) = some (digit c) := by decide +kernel

theorem HexN.hex {s : List Nat} {v : Nat} (h : HexN s v) : Hex (toB s) v := by
  obtain ⟨h, rfl⟩ := h
  rw [hexOk, both_iff, nonempty_iff, allB_iff] at h
  have key : ∀ r : List Nat, r ≠ [] → (∀ c ∈ r, bit 0x7E03FF000000000000 c = true) → Hex (toB r.reverse) (val 16 r) := by
    intro r
    induction r with
    | nil => intro h; exact absurd rfl h
    | cons c r ih =>
      intro _ hr
      have hb := hr c (by simp)
      have hl := bit_lt (by decide) hb
      have h1 := digit_value c hl ((bit_hex c hl).1 hb)
      by_cases hn : r = []
      · subst hn
        exact .one _ _ h1
      · have h4 := ih hn fun c hc => hr c (by simp [hc])
        have : val 16 (c :: r) = 16 * val 16 r + digit c := Nat.add_comm _ _
        rw [this, List.reverse_cons, toB_append]
        exact .more _ _ _ _ h4 h1
  have := key _ h.1 h.2
  rwa [List.reverse_reverse] at this

theorem RangeN.range {s : List Nat} {lo hi : Nat} (h : RangeN s lo hi) : Hex (toB s) lo ∧ hi = lo ∨ ∃ a b, toB s = a ++ [46, 46] ++ b ∧ Hex a lo ∧ Hex b hi := by
  obtain ⟨h1, h2⟩ | ⟨a, b, rfl, h1, h2⟩ := h
  · exact .inl ⟨h1.hex, h2⟩
  · exact .inr ⟨toB a, toB b, by simp [toB], h1.hex, h2.hex⟩

theorem blank_space {l : List Nat} (h : ∀ c ∈ l, c = 32) : ∀ c ∈ toB l, blank c = true := by
  intro c hc
  obtain ⟨d, hd, rfl⟩ := List.mem_map.1 hc
  rw [h d hd]
  rfl

theorem blank_word {l : List Nat} (h : ∀ c ∈ l, 32 < c ∧ c < 127) : ∀ c ∈ toB l, blank c = false ∧ 32 < c := by
  intro c hc
  obtain ⟨d, hd, rfl⟩ := List.mem_map.1 hc
  have : ∀ c < 127, 32 < c → blank (UInt8.ofNat c) = false ∧ 32 < UInt8.ofNat c := by decide +kernel
  exact this d (h d hd).2 (h d hd).1

theorem atoms_blank {c : UInt8} {s : List UInt8} {as : List (List UInt8)} (hc : blank c = true) (h : Atoms blank s as) : Atoms blank (c :: s) as := by
  cases h with
  | done s h => exact .done _ (by simpa [hc] using h)
  | atom w a r as hw h0 ha hr h =>
    have := Atoms.atom (c :: w) a r as (by simpa [hc] using hw) h0 ha hr h
    simpa using this

theorem words_no32 (r : List Nat) : ∀ (w : List Nat) (ws : List (List Nat)), (∀ c ∈ w, c ≠ 32) → (∀ w ∈ ws, ∀ c ∈ w, c ≠ 32) → ∀ w' ∈ words r w ws, ∀ c ∈ w', c ≠ 32 := by
  induction r with
  | nil =>
    intro w ws h1 h2 w' hw'
    rcases List.mem_cons.1 (show w' ∈ w.reverse :: ws from hw') with rfl | h
    · exact fun c hc => h1 c (by simpa using hc)
    · exact h2 w' h
  | cons c r ih =>
    intro w ws h1 h2
    have e : words (c :: r) w ws = Bool.rec (words r (c :: w) ws) (words r [] (w.reverse :: ws)) (Nat.beq c (nat_lit 32)) := rfl
    rw [e]
    cases hc : Nat.beq c (nat_lit 32) with
    | false =>
      have hne : c ≠ 32 := Nat.ne_of_beq_eq_false hc
      exact ih _ _ (by simpa [hne] using h1) h2
    | true =>
      refine ih _ _ (by simp) ?_
      intro w' hw'
      rcases List.mem_cons.1 hw' with rfl | h
      · exact fun c hc => h1 c (by simpa using hc)
      · exact h2 w' h

theorem numsSp_sound {ws : List (List Nat)} : ∀ {v : List Nat}, numsSp ws v = true → ws ≠ [] → Mapping (toB (List.intercalate [32] (ws.map List.reverse))) v := by
  induction ws with
  | nil => intro v _ h; exact absurd rfl h
  | cons w ws ih =>
    intro v h _
    -- the rest of the text
    have hrest : ∀ v, numsSp ws v = true → ∃ t, List.intercalate [32] ((w :: ws).map List.reverse) = w.reverse ++ t ∧ (∀ c ∈ (toB t).head?, blank c = true) ∧ Mapping (toB t) v := by
      intro v hv
      cases ws with
      | nil =>
        have : v = [] := by cases v with | nil => rfl | cons _ _ => cases hv
        subst this
        exact ⟨[], by simp [List.intercalate], by simp [toB], [], .done _ (by simp [toB]), .nil⟩
      | cons x ws =>
        obtain ⟨as, h1, h2⟩ := ih hv (by simp)
        refine ⟨32 :: List.intercalate [32] ((x :: ws).map List.reverse), ?_, by simp [toB, blank], as, atoms_blank (by decide) h1, h2⟩
        simp [List.intercalate]
    cases w with
    | nil =>
      obtain ⟨t, h1, _, h2⟩ := hrest v h
      rw [h1]
      exact h2
    | cons c w =>
      cases v with
      | nil => cases h
      | cons n v =>
        have h' : both (hexOk (c :: w)) (both (Nat.beq (val 16 (c :: w)) n) (numsSp ws v)) = true := h
        simp only [both_iff, Nat.beq_eq] at h'
        obtain ⟨h1, h2, h3⟩ := h'
        obtain ⟨t, e, ht, as, ha, hf⟩ := hrest v h3
        have hx : HexN (c :: w).reverse n := ⟨by rw [List.reverse_reverse]; exact h1, by rw [List.reverse_reverse, h2]⟩
        rw [e, toB_append]
        refine ⟨toB (c :: w).reverse :: as, ?_, .cons hx.hex hf⟩
        refine Atoms.atom [] _ _ _ (by simp) (by simp [toB]) ?_ ht ha
        rw [hexOk, both_iff, allB_iff] at h1
        refine fun x hx => (blank_word (fun y hy => ?_) x hx).1
        have hb := h1.2 y (List.mem_reverse.1 hy)
        have hl := bit_lt (by decide) hb
        have := (bit_hex y hl).1 hb
        omega

theorem words_ne (r w : List Nat) (ws : List (List Nat)) : words r w ws ≠ [] := by
  induction r generalizing w ws with
  | nil => simp [words]
  | cons c r ih =>
    have e : words (c :: r) w ws = Bool.rec (words r (c :: w) ws) (words r [] (w.reverse :: ws)) (Nat.beq c (nat_lit 32)) := rfl
    rw [e]
    cases Nat.beq c (nat_lit 32)
    · exact ih (c :: w) ws
    · exact ih [] (w.reverse :: ws)

theorem mapping_sound {f v : List Nat} (h : numsSp (words f.reverse [] []) v = true) : Mapping (toB f) v := by
  have := numsSp_sound h (words_ne _ _ _)
  rw [words_text] at this
  simpa [List.intercalate] using this

theorem status_name (s : Status) : toB (statusCode s).reverse = ascii s.name := by cases s <;> decide

/-- What a line with an entry says. -/
def IdnaSays (l : List Nat) (e : Line) : Prop := Says (toB (l ++ [10])) e ∧ ∃ r ∈ idnaTable.toList, Match e r

def IdnaQuiet (l : List Nat) : Prop := Silent (toB (l ++ [10]))

theorem idna_says {f0 s0 s1 f1 s2 com : List Nat} {fields : List (List Nat)} {e : Line} (h0 : ∀ c ∈ f0, bit mWord c = true) (g0 : ∀ c ∈ s0, bit mSpace c = true)
    (g1 : ∀ c ∈ s1, bit mSpace c = true) (h1 : ∀ c ∈ f1, bit mWord c = true) (g2 : ∀ c ∈ s2, bit mSpace c = true) (hf : ∀ f ∈ fields, ∀ c ∈ f, bit mFree c = true)
    (hlen : fields.length ≤ 2) (hc : ∀ c ∈ com, bit mAny c = true) (hc35 : ∃ g, com = 35 :: g) (hr : RangeN f0 e.lo e.hi) (hs : e.status = toB f1)
    (hm : fields = [] ∧ e.mapping = none ∨ ∃ f fs m, fields = f :: fs ∧ e.mapping = some m ∧ Mapping (toB f) m) :
    10 ∉ List.intercalate [59] ((f0 ++ s0) :: (s1 ++ f1 ++ s2) :: fields) ++ com ∧
      Says (toB (List.intercalate [59] ((f0 ++ s0) :: (s1 ++ f1 ++ s2) :: fields) ++ com ++ [10])) e := by
  have hfield : ∀ f ∈ (f0 ++ s0) :: (s1 ++ f1 ++ s2) :: fields, ∀ c ∈ f, 32 ≤ c ∧ c < 127 ∧ c ≠ 35 ∧ c ≠ 59 := by
    have hsp : ∀ c, bit mSpace c = true → 32 ≤ c ∧ c < 127 ∧ c ≠ 35 ∧ c ≠ 59 := fun c h => by rw [bit_space h]; decide
    have hw : ∀ c, bit mWord c = true → 32 ≤ c ∧ c < 127 ∧ c ≠ 35 ∧ c ≠ 59 := fun c h => by have := bit_word h; omega
    intro f hf' c hc'
    rcases List.mem_cons.1 hf' with rfl | hf'
    · rcases List.mem_append.1 hc' with h | h
      · exact hw c (h0 c h)
      · exact hsp c (g0 c h)
    · rcases List.mem_cons.1 hf' with rfl | hf'
      · rcases List.mem_append.1 hc' with h | h
        · rcases List.mem_append.1 h with h | h
          · exact hsp c (g1 c h)
          · exact hw c (h1 c h)
        · exact hsp c (g2 c h)
      · exact bit_free (hf f hf' c hc')
  have hbody : ∀ c ∈ List.intercalate [59] ((f0 ++ s0) :: (s1 ++ f1 ++ s2) :: fields), 32 ≤ c ∧ c < 127 ∧ c ≠ 35 := by
    generalize (f0 ++ s0) :: (s1 ++ f1 ++ s2) :: fields = fs at hfield
    intro c hc'
    simp only [List.intercalate, List.mem_flatten] at hc'
    obtain ⟨f, hf', hc'⟩ := hc'
    have : ∀ f ∈ List.intersperse [59] fs, f = [59] ∨ f ∈ fs := by
      clear hfield hf' hc'
      induction fs with
      | nil => simp
      | cons a fs ih =>
        cases fs with
        | nil => simp
        | cons b fs =>
          intro f hf
          simp only [List.intersperse_cons_cons, List.mem_cons] at hf ih ⊢
          rcases hf with rfl | rfl | hf
          · simp
          · simp
          · rcases ih f hf with h | h
            · exact .inl h
            · exact .inr (.inr h)
    rcases this f hf' with rfl | h
    · simp at hc'; subst hc'; decide
    · have := hfield f h c hc'
      omega
  obtain ⟨g, rfl⟩ := hc35
  have hmap : ∀ fs : List (List Nat), toB (List.intercalate [59] fs) = List.intercalate [59] (fs.map toB) := by
    intro fs
    induction fs with
    | nil => rfl
    | cons w ws ih =>
      cases ws with
      | nil => simp [List.intercalate]
      | cons x ws => simp_all [List.intercalate, toB]
  constructor
  · intro h
    rcases List.mem_append.1 h with h | h
    · have := hbody 10 h
      omega
    · exact (bit_any (hc 10 h)).2.2 rfl
  · refine ⟨toB (List.intercalate [59] ((f0 ++ s0) :: (s1 ++ f1 ++ s2) :: fields)), toB (35 :: g ++ [10]), toB (f0 ++ s0), toB (s1 ++ f1 ++ s2), fields.map toB, ?_, ?_, ?_, ?_, ?_, ?_, ?_, ?_, ?_, ?_, ?_⟩
    · rw [List.append_assoc, toB_append]
    · simp [toB]
    · exact not_mem_toB (d := 35) (by decide) fun c hc' => by have := hbody c hc'; omega
    · refine not_mem_toB (d := 0) (by decide) fun c hc' => ?_
      simp only [List.mem_append, List.mem_singleton] at hc'
      rcases hc' with (h | h) | rfl
      · have := hbody c h; omega
      · have := bit_any (hc c h); omega
      · decide
    · rw [hmap]
      rfl
    · intro f hf'
      rw [show toB (f0 ++ s0) :: toB (s1 ++ f1 ++ s2) :: fields.map toB = ((f0 ++ s0) :: (s1 ++ f1 ++ s2) :: fields).map toB from rfl] at hf'
      obtain ⟨f, hf'', rfl⟩ := List.mem_map.1 hf'
      exact not_mem_toB (d := 59) (by decide) fun c hc' => by have := hfield f hf'' c hc'; omega
    · simpa using hlen
    · refine ⟨toB f0, ⟨[], toB s0, by rw [toB_append]; rfl, by simp, blank_space fun c h => bit_space (g0 c h), ?_, ?_⟩, hr.range⟩
      · exact fun c hc' => (blank_word (fun c h => by have := bit_word (h0 c h); omega) c (List.mem_of_mem_head? hc')).1
      · exact fun c hc' => (blank_word (fun c h => by have := bit_word (h0 c h); omega) c (List.mem_of_getLast? hc')).1
    · rw [hs]
      refine ⟨toB s1, toB s2, by rw [toB_append, toB_append], blank_space fun c h => bit_space (g1 c h), blank_space fun c h => bit_space (g2 c h), ?_, ?_⟩
      · exact fun c hc' => (blank_word (fun c h => by have := bit_word (h1 c h); omega) c (List.mem_of_mem_head? hc')).1
      · exact fun c hc' => (blank_word (fun c h => by have := bit_word (h1 c h); omega) c (List.mem_of_getLast? hc')).1
    · rw [hs]
      exact fun c hc' => (blank_word (fun c h => by have := bit_word (h1 c h); omega) c hc').2
    · obtain ⟨rfl, h⟩ | ⟨f, fs, m, rfl, h2, h3⟩ := hm
      · exact .inl ⟨rfl, h⟩
      · exact .inr ⟨toB f, fs.map toB, m, rfl, h2, h3⟩

theorem idnaRow_sound {t : RTree (Status × List Nat)} (ht : t.toList ⊆ idnaTable.toList) {r0 r1 : List Nat} {M : List Nat → Bool} {key cnt k n : Nat} {K : Cont}
    (h : idnaRow t r0 r1 M key cnt k n K = true) (h35 : n % 256 = 35) : ∃ com k' n' lo hi s m, unpack k n = com ++ 10 :: unpack k' n' ∧ (∀ c ∈ com, bit mAny c = true) ∧
      (∃ g, com = 35 :: g) ∧ RangeN r0.reverse lo hi ∧ (lo, hi, (s, m)) ∈ idnaTable.toList ∧ toB r1.reverse = ascii s.name ∧ M m = true ∧ key ≤ lo ∧ K (lo + 1) (cnt + 1) k' n' = true := by
  obtain ⟨lo, hi, h1, h2⟩ := range_sound h
  simp only [both_iff, Nat.ble_eq] at h2
  obtain ⟨h2, h3, h4⟩ := h2
  obtain ⟨a, b, ⟨s, m⟩, h5, h6⟩ := lookN_sound h3
  simp only [both_iff, Nat.beq_eq, eqL_iff] at h6
  obtain ⟨rfl, rfl, rfl, h6⟩ := h6
  obtain ⟨com, k', n', h7, h8, h9⟩ := skip_sound h4
  exact ⟨com, k', n', lo, hi, s, m, h7, h8, bit_head h7 h35 (by decide), h1, ht h5, status_name s, h6, h2, h9⟩

theorem idna_quiet_comment {f : List Nat} (h : ∀ c ∈ f, bit mAny c = true) (h35 : ∃ g, f = 35 :: g) : 10 ∉ f ∧ IdnaQuiet f := by
  obtain ⟨g, rfl⟩ := h35
  refine ⟨fun h' => (bit_any (h 10 h')).2.2 rfl, [], _, rfl, by simp [toB], by simp, ?_, by simp⟩
  refine not_mem_toB (d := 0) (by decide) fun c hc => ?_
  rcases List.mem_append.1 hc with hc | hc
  · have := bit_any (h c hc); omega
  · simp at hc; omega

theorem idnaLine_sound {t : RTree (Status × List Nat)} (ht : t.toList ⊆ idnaTable.toList) : SoundL IdnaQuiet IdnaSays Line.lo (idnaLine t) := by
  intro lo cnt k n K h
  rw [idnaLine] at h
  obtain ⟨h35, h⟩ | h := peek_sound h
  · obtain ⟨f, k', n', h1, h2, h3⟩ := skip_sound h
    obtain ⟨h4, h5⟩ := idna_quiet_comment h2 (bit_head h1 h35 (by decide))
    exact ⟨f, k', n', h1, h4, .inl ⟨h5, h3⟩⟩
  obtain ⟨_, h⟩ | h := peek_sound h
  · obtain ⟨k', n', h1, h2⟩ := eat_sound h
    exact ⟨[], k', n', h1, by simp, .inl ⟨⟨_, [], by simp; rfl, by simp, by decide, by decide, by decide⟩, h2⟩⟩
  obtain ⟨f0, _, _, e0, p0, h⟩ := span_sound h
  obtain ⟨s0, _, _, e1, p1, h⟩ := span_sound h
  obtain ⟨_, _, e2, h⟩ := eat_sound h
  obtain ⟨s1, _, _, e3, p3, h⟩ := span_sound h
  obtain ⟨f1, _, _, e4, p4, h⟩ := span_sound h
  obtain ⟨s2, _, _, e5, p5, h⟩ := span_sound h
  obtain ⟨h35, h⟩ | h := peek_sound h
  · obtain ⟨com, k', n', lo', hi, s, m, e6, hc, hc35, hr, hmem, hst, hM, hkey, hK⟩ := idnaRow_sound ht h h35
    rw [List.reverse_reverse] at hr hst
    obtain ⟨q1, q2⟩ := idna_says (e := ⟨lo', hi, ascii s.name, none⟩) (fields := []) p0 p1 p3 p4 p5 (by simp) (by simp) hc hc35 hr hst.symm (.inl ⟨rfl, rfl⟩)
    refine ⟨_, k', n', ?_, q1, .inr ⟨_, ⟨q2, _, hmem, rfl, rfl, rfl, (isNil_iff.1 hM).symm⟩, hkey, hK⟩⟩
    rw [e0, e1, e2, e3, e4, e5, e6]
    simp [List.intercalate]
  obtain ⟨_, _, e6, h⟩ := eat_sound h
  obtain ⟨f2, _, _, e7, p7, h⟩ := span_sound h
  obtain ⟨h35, h⟩ | h := peek_sound h
  · obtain ⟨com, k', n', lo', hi, s, m, e8, hc, hc35, hr, hmem, hst, hM, hkey, hK⟩ := idnaRow_sound ht h h35
    rw [List.reverse_reverse] at hr hst
    obtain ⟨q1, q2⟩ := idna_says (e := ⟨lo', hi, ascii s.name, some m⟩) (fields := [f2]) p0 p1 p3 p4 p5 (by simpa using p7) (by simp) hc hc35 hr hst.symm
      (.inr ⟨f2, [], m, rfl, rfl, mapping_sound hM⟩)
    refine ⟨_, k', n', ?_, q1, .inr ⟨_, ⟨q2, _, hmem, rfl, rfl, rfl, rfl⟩, hkey, hK⟩⟩
    rw [e0, e1, e2, e3, e4, e5, e6, e7, e8]
    simp [List.intercalate]
  obtain ⟨_, _, e8, h⟩ := eat_sound h
  obtain ⟨f3, _, _, e9, p9, h⟩ := span_sound h
  obtain ⟨h35, h⟩ | h := peek_sound h
  · obtain ⟨com, k', n', lo', hi, s, m, e10, hc, hc35, hr, hmem, hst, hM, hkey, hK⟩ := idnaRow_sound ht h h35
    rw [List.reverse_reverse] at hr hst
    obtain ⟨q1, q2⟩ := idna_says (e := ⟨lo', hi, ascii s.name, some m⟩) (fields := [f2, f3]) p0 p1 p3 p4 p5 (by simpa using ⟨p7, p9⟩) (by simp) hc hc35 hr hst.symm
      (.inr ⟨f2, [f3], m, rfl, rfl, mapping_sound hM⟩)
    refine ⟨_, k', n', ?_, q1, .inr ⟨_, ⟨q2, _, hmem, rfl, rfl, rfl, rfl⟩, hkey, hK⟩⟩
    rw [e0, e1, e2, e3, e4, e5, e6, e7, e8, e9, e10]
    simp [List.intercalate]
  · cases h

theorem Piece.idna {c : Piece} (h : c.okIdna = true) : PartG IdnaQuiet IdnaSays Line.lo c.bytes c.m c.lo c.hi :=
  chunkG_sound (idnaLine_sound (clip_subset ..)) h

end Idna

end Verif.Shipped
