import Verif.Model.ByteArray
import Verif.Spec.ByteArray

/-! Helper lemmas for `bytearray.c`. -/

namespace Verif.BA

theorem sub64_eq {a b : Nat} (h : b ≤ a) (ha : a < 2 ^ 64) : sub64 a b = a - b := by
  simp only [sub64]; omega

theorem add64_eq {a b : Nat} (h : a + b < 2 ^ 64) : add64 a b = a + b := Nat.mod_eq_of_lt h

/-- `pos + len - cursor` is right even if `pos + len` wraps. -/
theorem subadd64_eq {p l c : Nat} (h : c ≤ p + l) (h2 : p + l - c < 2 ^ 64) (hc : c < 2 ^ 64) :
    sub64 (add64 p l) c = p + l - c := by
  simp only [sub64, add64]; omega

theorem roundUp_spec (k t : Nat) (ht : t < 2 ^ 64) (hk : k ≤ 64) : t ≤ roundUp k t ∧ roundUp k t < 2 ^ 64 ∨ 2 ^ k ≥ t := by
  by_cases h : 2 ^ k < t
  · left
    induction hn : 64 - k generalizing k with
    | zero =>
      have : k = 64 := by omega
      subst this; omega
    | succ n ih =>
      rw [roundUp, if_pos h]
      split
      · omega
      · rename_i h2
        have hk63 : k < 63 := by
          by_contra hge
          have : 2 ^ 63 ≤ 2 ^ k := Nat.pow_le_pow_right (by omega) (by omega)
          omega
        by_cases h3 : 2 ^ (k + 1) < t
        · exact ih (k + 1) (by omega) h3 (by omega)
        · rw [roundUp, if_neg h3]
          have : 2 ^ (k + 1) ≤ 2 ^ 63 := Nat.pow_le_pow_right (by omega) (by omega)
          omega
  · right; omega

theorem roundUp_zero (t : Nat) (ht : t < 2 ^ 64) : t ≤ roundUp 0 t ∧ roundUp 0 t < 2 ^ 64 := by
  rcases roundUp_spec 0 t ht (by omega) with h | h
  · exact h
  · rw [roundUp, if_neg (by omega)]
    simp at h ⊢; omega

/-- The invariant: the block has `size` bytes, contents and a byte `z` after them are inside it and inside the limit. -/
structure Ends (z : UInt8) (a : BA) : Prop where
  len : a.data.length = a.size
  size64 : a.size < 2 ^ 64
  max64 : a.maxSize < 2 ^ 64
  curSize : a.cursor < a.size
  curMax : a.cursor < a.maxSize
  nul : a.data[a.cursor]? = some z

/-- The contents are followed by a NUL. -/
abbrev Inv (a : BA) : Prop := Ends 0 a

/-- The bytes stored. -/
def contents (a : BA) : List UInt8 := a.data.take a.cursor

theorem contents_length {z : UInt8} {a : BA} (h : Ends z a) : (contents a).length = a.cursor := by
  have h1 := h.len
  have h2 := h.curSize
  simp [contents]; omega

theorem realloc_length (j : Junk) (d : List UInt8) (n : Nat) : (realloc j d n).length = n := by simp [realloc]

theorem realloc_get (j : Junk) (d : List UInt8) (n i : Nat) (h : i < n) : (realloc j d n)[i]? = some (d.getD i (j i)) := by
  simp [realloc, h]

theorem realloc_get_old (j : Junk) (d : List UInt8) (n i : Nat) (h : i < n) (hd : i < d.length) : (realloc j d n)[i]? = d[i]? := by
  rw [realloc_get _ _ _ _ h, List.getD_eq_getElem?_getD, List.getElem?_eq_getElem hd]; rfl

theorem realloc_take (j : Junk) (d : List UInt8) (n k : Nat) (hn : k ≤ n) (hd : k ≤ d.length) :
    (realloc j d n).take k = d.take k := by
  apply List.ext_getElem?
  intro i
  simp only [List.getElem?_take]
  split
  · exact realloc_get_old _ _ _ _ (by omega) (by omega)
  · rfl

/-- `ensure_space` succeeds iff contents, addition and NUL fit the limit; then the block has room for them. -/
theorem ensureSpace_spec (j : Junk) {z : UInt8} {a : BA} (h : Ends z a) (len : Nat) :
    (a.maxSize ≤ a.cursor + len ∧ ensureSpace j a len = none) ∨
    (a.cursor + len < a.maxSize ∧ ∃ a', ensureSpace j a len = some a' ∧ Ends z a' ∧ contents a' = contents a ∧
      a'.cursor = a.cursor ∧ a'.maxSize = a.maxSize ∧ a.cursor + len < a'.size) := by
  have h1 := h.len; have h2 := h.size64; have h3 := h.max64; have h4 := h.curSize; have h5 := h.curMax
  unfold ensureSpace
  rw [sub64_eq (by omega) h3]
  by_cases hm : len ≥ a.maxSize - a.cursor
  · left; rw [if_pos hm]; exact ⟨by omega, rfl⟩
  · right
    refine ⟨by omega, ?_⟩
    rw [if_neg hm, sub64_eq (by omega) h2]
    by_cases hs : len ≥ a.size - a.cursor
    · rw [if_pos hs]
      rw [add64_eq (show a.cursor + len < 2 ^ 64 by omega), add64_eq (show a.cursor + len + 1 < 2 ^ 64 by omega)]
      obtain ⟨r1, r2⟩ := roundUp_zero (a.cursor + len + 1) (by omega)
      refine ⟨_, rfl, ⟨by simp [realloc_length], r2, h3, ?_, h5, ?_⟩, ?_, rfl, rfl, ?_⟩
      · simp only; omega
      · simp only
        rw [realloc_get_old _ _ _ _ (by omega) (by omega)]
        exact h.nul
      · simp only [contents]
        exact realloc_take _ _ _ _ (by omega) (by omega)
      · simp only; omega
    · rw [if_neg hs]
      exact ⟨a, rfl, h, rfl, rfl, rfl, by omega⟩

theorem splice_get_lt {α : Type} (d bs : List α) (p i : Nat) (h : i < p) (hp : p ≤ d.length) : (splice d p bs)[i]? = d[i]? := by
  simp only [splice]
  rw [List.append_assoc, List.getElem?_append_left (by simp; omega), List.getElem?_take, if_pos h]

theorem splice_get_ge {α : Type} (d bs : List α) (p i : Nat) (hp : p ≤ d.length) (h : p + bs.length ≤ i) :
    (splice d p bs)[i]? = d[i]? := by
  simp only [splice]
  rw [List.getElem?_append_right (by simp; omega), List.getElem?_drop]
  congr 1
  simp; omega

theorem splice_take {α : Type} (d bs : List α) (p : Nat) (h : p + bs.length ≤ d.length) :
    (splice d p bs).take (p + bs.length) = d.take p ++ bs := by
  simp only [splice]
  rw [List.take_left' (by simp; omega)]

/-- Writing the NUL leaves everything before it. -/
theorem terminate_spec {a : BA} (h1 : a.data.length = a.size) (h2 : a.size < 2 ^ 64) (h3 : a.maxSize < 2 ^ 64)
    (h4 : a.cursor < a.size) (h5 : a.cursor < a.maxSize) :
    ∃ a', terminate a = .ok a' ∧ Inv a' ∧ contents a' = a.data.take a.cursor ∧ a'.maxSize = a.maxSize ∧ a'.cursor = a.cursor ∧
      a'.size = a.size := by
  unfold terminate
  rw [wr_ok (by omega)]
  refine ⟨_, rfl, ⟨by simp [h1], h2, h3, h4, h5, ?_⟩, ?_, rfl, rfl, rfl⟩
  · simp only
    rw [List.getElem?_set_self (by omega)]
  · simp only [contents]
    rw [List.take_set_of_le (Nat.le_refl _)]

theorem memmove_ok {d : List UInt8} {p : Nat} {bs : List UInt8} (h : p + bs.length ≤ d.length) :
    memmove d p bs = .ok (splice d p bs) := by simp [memmove, h]

theorem append_ends (j : Junk) {z : UInt8} {a : BA} (h : Ends z a) (bs : List UInt8) :
    ∃ a', append j a bs = .ok ((Spec.ByteArray.append a.maxSize (contents a) bs).1, a') ∧
      Ends (if (Spec.ByteArray.append a.maxSize (contents a) bs).1 then 0 else z) a' ∧
      contents a' = (Spec.ByteArray.append a.maxSize (contents a) bs).2 ∧ a'.maxSize = a.maxSize := by
  unfold append Spec.ByteArray.append
  rw [contents_length h]
  rcases ensureSpace_spec j h bs.length with ⟨h1, h2⟩ | ⟨h1, a1, h2, hi, hc, hcur, hmax, hroom⟩
  · rw [h2, if_neg (by omega)]
    exact ⟨a, rfl, h, rfl, rfl⟩
  · rw [h2, if_pos h1]
    have g1 := hi.len; have g2 := hi.size64; have g3 := hi.max64; have g4 := hi.curSize; have g5 := hi.curMax
    have hfit : a1.cursor + bs.length ≤ a1.data.length := by omega
    simp only [memmove_ok hfit]
    rw [add64_eq (by omega)]
    obtain ⟨a2, e1, e2, e3, e4, _, _⟩ := terminate_spec (a := { a1 with data := splice a1.data a1.cursor bs, cursor := a1.cursor + bs.length })
      (by simp only; rw [splice_length hfit, g1]) g2 g3 (by simp only; omega) (by simp only; omega)
    rw [e1]
    refine ⟨a2, rfl, e2, ?_, by rw [e4]; exact hmax⟩
    rw [e3]
    simp only
    rw [splice_take _ _ _ hfit]
    rw [← hc]; rfl

theorem append_spec (j : Junk) {a : BA} (h : Inv a) (bs : List UInt8) :
    ∃ a', append j a bs = .ok ((Spec.ByteArray.append a.maxSize (contents a) bs).1, a') ∧ Inv a' ∧
      contents a' = (Spec.ByteArray.append a.maxSize (contents a) bs).2 ∧ a'.maxSize = a.maxSize := by
  have := append_ends j h bs
  rwa [ite_self] at this

theorem copyTail_ends {z : UInt8} {a : BA} (h : Ends z a) (pos : Nat) (bs : List UInt8) (hpos : pos ≤ a.cursor) (hroom : pos + bs.length < a.size)
    (hmax : pos + bs.length < a.maxSize) :
    ∃ a', copyTail a pos bs = .ok (true, a') ∧ Ends (if bs.length > a.cursor - pos then 0 else z) a' ∧
      contents a' = (contents a).take pos ++ bs ++ (contents a).drop (pos + bs.length) ∧ a'.maxSize = a.maxSize := by
  have g1 := h.len; have g2 := h.size64; have g3 := h.max64; have g4 := h.curSize; have g5 := h.curMax
  unfold copyTail
  have hfit : pos + bs.length ≤ a.data.length := by omega
  rw [memmove_ok hfit]
  simp only
  rw [sub64_eq hpos (by omega)]
  by_cases hgt : bs.length > a.cursor - pos
  · rw [if_pos hgt, add64_eq (by omega)]
    obtain ⟨a2, e1, e2, e3, e4, _, _⟩ := terminate_spec (a := { a with data := splice a.data pos bs, cursor := pos + bs.length })
      (by simp only; rw [splice_length hfit, g1]) g2 g3 (by simp only; omega) (by simp only; omega)
    rw [e1]
    refine ⟨a2, rfl, by rw [if_pos hgt]; exact e2, ?_, e4⟩
    rw [e3]
    simp only
    rw [splice_take _ _ _ hfit, List.drop_eq_nil_of_le (by rw [contents_length h]; omega), List.append_nil]
    simp only [contents, List.take_take]
    congr 2; omega
  · rw [if_neg hgt]
    refine ⟨_, rfl, ⟨by simp only; rw [splice_length hfit, g1], g2, g3, g4, g5, ?_⟩, ?_, rfl⟩
    · simp only
      rw [splice_get_ge _ _ _ _ (by omega) (by omega), if_neg hgt]
      exact h.nul
    · simp only [contents]
      apply List.ext_getElem?
      intro i
      have hsl := splice_length hfit
      simp only [splice, List.getElem?_take, List.getElem?_append, List.getElem?_drop, List.length_append, List.length_take]
      grind

theorem copy_ends (j : Junk) {z : UInt8} {a : BA} (h : Ends z a) (pos : Nat) (bs : List UInt8) (hbs : bs.length < 2 ^ 64) :
    ∃ a', copy j a pos bs = .ok ((Spec.ByteArray.copy a.maxSize (contents a) pos bs).1, a') ∧
      Ends (if (contents a).length < (Spec.ByteArray.copy a.maxSize (contents a) pos bs).2.length then 0 else z) a' ∧
      contents a' = (Spec.ByteArray.copy a.maxSize (contents a) pos bs).2 ∧ a'.maxSize = a.maxSize := by
  have g1 := h.len; have g2 := h.size64; have g3 := h.max64; have g4 := h.curSize; have g5 := h.curMax
  unfold copy Spec.ByteArray.copy
  rw [contents_length h]
  by_cases hp : pos > a.cursor
  · rw [if_pos hp, if_neg (by omega)]
    exact ⟨a, rfl, by rw [if_neg (by rw [contents_length h]; omega)]; exact h, rfl, rfl⟩
  · rw [if_neg hp, sub64_eq (by omega) (by omega)]
    have hl : ((contents a).take pos ++ bs ++ (contents a).drop (pos + bs.length)).length = max a.cursor (pos + bs.length) := by
      simp only [List.length_append, List.length_take, List.length_drop, contents_length h]
      omega
    by_cases hgt : bs.length > a.cursor - pos
    · rw [if_pos hgt, subadd64_eq (by omega) (by omega) (by omega)]
      rcases ensureSpace_spec j h (pos + bs.length - a.cursor) with ⟨h1, h2⟩ | ⟨h1, a1, h2, hi, hc, hcur, hmax, hroom⟩
      · rw [h2, if_neg (by omega)]
        exact ⟨a, rfl, by rw [if_neg (by rw [contents_length h]; omega)]; exact h, rfl, rfl⟩
      · rw [h2, if_pos (by omega)]
        obtain ⟨a2, e1, e2, e3, e4⟩ := copyTail_ends hi pos bs (by omega) (by omega) (by omega)
        rw [if_pos (by omega)] at e2
        exact ⟨a2, e1, by rw [if_pos (by rw [hl]; omega)]; exact e2, by rw [e3, hc], by rw [e4, hmax]⟩
    · rw [if_neg hgt, if_pos (by omega)]
      have := copyTail_ends h pos bs (by omega) (by omega) (by omega)
      rw [if_neg hgt] at this
      rw [if_neg (by rw [hl]; omega)]
      exact this

theorem copy_spec (j : Junk) {a : BA} (h : Inv a) (pos : Nat) (bs : List UInt8) (hbs : bs.length < 2 ^ 64) :
    ∃ a', copy j a pos bs = .ok ((Spec.ByteArray.copy a.maxSize (contents a) pos bs).1, a') ∧ Inv a' ∧
      contents a' = (Spec.ByteArray.copy a.maxSize (contents a) pos bs).2 ∧ a'.maxSize = a.maxSize := by
  have := copy_ends j h pos bs hbs
  rwa [ite_self] at this

theorem resizeTail_spec {a : BA} (h1 : a.data.length = a.size) (h2 : a.size < 2 ^ 64) (h3 : a.maxSize < 2 ^ 64) (n : Nat)
    (hn : n < a.size) (hm : n < a.maxSize) :
    ∃ a', resizeTail a n = .ok (true, a') ∧ Inv a' ∧ contents a' = a.data.take n ∧ a'.maxSize = a.maxSize := by
  unfold resizeTail
  obtain ⟨a2, e1, e2, e3, e4, _, _⟩ := terminate_spec (a := { a with cursor := n }) h1 h2 h3 hn hm
  rw [e1]
  exact ⟨a2, rfl, e2, e3, e4⟩

theorem resize_ends (j : Junk) {z : UInt8} {a : BA} (h : Ends z a) (n : Nat) (c : UInt8) (hn : n < 2 ^ 64) :
    ∃ a', resize j a n c = .ok ((Spec.ByteArray.resize a.maxSize (contents a) n c).1, a') ∧
      Ends (if (Spec.ByteArray.resize a.maxSize (contents a) n c).1 then 0 else z) a' ∧
      contents a' = (Spec.ByteArray.resize a.maxSize (contents a) n c).2 ∧ a'.maxSize = a.maxSize := by
  have g1 := h.len; have g2 := h.size64; have g3 := h.max64; have g4 := h.curSize; have g5 := h.curMax
  unfold resize Spec.ByteArray.resize
  rw [contents_length h]
  by_cases hgt : n > a.cursor
  · rw [if_pos hgt, if_neg (by omega), sub64_eq (by omega) hn]
    rcases ensureSpace_spec j h (n - a.cursor) with ⟨h1, h2⟩ | ⟨h1, a1, h2, hi, hc, hcur, hmax, hroom⟩
    · rw [h2, if_neg (by omega)]
      exact ⟨a, rfl, h, rfl, rfl⟩
    · rw [h2, if_pos (by omega)]
      have k1 := hi.len; have k2 := hi.size64
      simp only
      rw [sub64_eq (by omega) hn, hcur]
      have hfit : a.cursor + (List.replicate (n - a.cursor) c).length ≤ a1.data.length := by simp; omega
      rw [memmove_ok hfit]
      simp only
      obtain ⟨a2, e1, e2, e3, e4⟩ := resizeTail_spec (a := { a1 with data := splice a1.data a.cursor (List.replicate (n - a.cursor) c) })
        (by simp only; rw [splice_length hfit, k1]) k2 hi.max64 n (by simp only; omega) (by simp only; omega)
      refine ⟨a2, e1, e2, ?_, by rw [e4]; exact hmax⟩
      rw [e3]
      simp only
      have : List.take n (splice a1.data a.cursor (List.replicate (n - a.cursor) c)) =
          List.take (a.cursor + (List.replicate (n - a.cursor) c).length) (splice a1.data a.cursor (List.replicate (n - a.cursor) c)) := by
        congr 1; simp; omega
      rw [this, splice_take _ _ _ hfit]
      rw [← hc]; simp only [contents, hcur]
  · rw [if_neg hgt, if_pos (by omega)]
    obtain ⟨a2, e1, e2, e3, e4⟩ := resizeTail_spec g1 g2 g3 n (by omega) (by omega)
    refine ⟨a2, e1, e2, ?_, e4⟩
    rw [e3]
    simp only [contents, List.take_take]
    congr 1; omega

theorem resize_spec (j : Junk) {a : BA} (h : Inv a) (n : Nat) (c : UInt8) (hn : n < 2 ^ 64) :
    ∃ a', resize j a n c = .ok ((Spec.ByteArray.resize a.maxSize (contents a) n c).1, a') ∧ Inv a' ∧
      contents a' = (Spec.ByteArray.resize a.maxSize (contents a) n c).2 ∧ a'.maxSize = a.maxSize := by
  have := resize_ends j h n c hn
  rwa [ite_self] at this

theorem clear_spec {z : UInt8} {a : BA} (h : Ends z a) : ∃ a', clear a = .ok a' ∧ Inv a' ∧ contents a' = [] ∧ a'.maxSize = a.maxSize := by
  have g1 := h.len; have g2 := h.size64; have g3 := h.max64; have g4 := h.curSize; have g5 := h.curMax
  unfold clear
  obtain ⟨a2, e1, e2, e3, e4, _, _⟩ := terminate_spec (a := { a with cursor := 0 }) g1 g2 g3 (by simp only; omega) (by simp only; omega)
  exact ⟨a2, e1, e2, by rw [e3]; simp, e4⟩

theorem make_spec (j : Junk) (max : Nat) (h0 : 0 < max) (h64 : max < 2 ^ 64) :
    ∃ a, make j max = .ok a ∧ Inv a ∧ contents a = [] ∧ a.maxSize = max := by
  unfold make
  simp only
  have hl : ∀ n, (malloc j n).length = n := by intro n; simp [malloc]
  generalize hs : (if 128 > max then max else 128) = n
  have hn : 0 < n ∧ n < 2 ^ 64 := by split at hs <;> omega
  rw [wr_ok (by rw [hl]; omega)]
  refine ⟨_, rfl, ⟨by simp [hl], hn.2, h64, hn.1, h0, ?_⟩, by simp [contents], rfl⟩
  simp only
  rw [List.getElem?_set_self (by rw [hl]; omega)]

/-- What a well-behaved callback may do with a buffer of `len` bytes. -/
def CbOk (cb : ReadCb) : Prop :=
  ∀ len, (cb len).1.length ≤ len ∧ (cb len).2 ≤ (cb len).1.length

/-- A callback that stores nothing when it reports no data. -/
def CbClean (cb : ReadCb) : Prop := ∀ len, (cb len).2 ≤ 0 → (cb len).1 = []

theorem streamTail_spec (j : Junk) {z : UInt8} {a : BA} (h : Ends z a) (cb : ReadCb) (hcb : CbOk cb) (len : Nat)
    (hlen : a.cursor + len < a.maxSize) :
    ∃ a', streamTail j a cb len = .ok ((cb len).2, a') ∧ contents a' = contents a ++ (cb len).1.take (cb len).2.toNat ∧
      a'.maxSize = a.maxSize ∧ Ends (if 0 < (cb len).2 then 0 else (cb len).1.headD z) a' := by
  unfold streamTail
  rcases ensureSpace_spec j h len with ⟨h1, h2⟩ | ⟨h1, a1, h2, hi, hc, hcur, hmax, hroom⟩
  · omega
  · rw [h2]
    have g1 := hi.len; have g2 := hi.size64; have g3 := hi.max64; have g4 := hi.curSize; have g5 := hi.curMax
    obtain ⟨c1, c2⟩ := hcb len
    have hfit : a1.cursor + (cb len).1.length ≤ a1.data.length := by omega
    simp only [memmove_ok hfit]
    by_cases hpos : (cb len).2 > 0
    · rw [if_pos hpos, add64_eq (by omega)]
      obtain ⟨a2, e1, e2, e3, e4, _, _⟩ := terminate_spec
        (a := { a1 with data := splice a1.data a1.cursor (cb len).1, cursor := a1.cursor + (cb len).2.toNat })
        (by simp only; rw [splice_length hfit, g1]) g2 g3 (by simp only; omega) (by simp only; omega)
      rw [e1]
      refine ⟨a2, rfl, ?_, by rw [e4]; exact hmax, by rw [if_pos hpos]; exact e2⟩
      rw [e3, ← hc]
      simp only [contents, splice, List.append_assoc]
      rw [List.take_append, List.take_of_length_le (by simp)]
      congr 1
      have hl : (List.take a1.cursor a1.data).length = a1.cursor := by simp; omega
      rw [hl, Nat.add_sub_cancel_left, List.take_append_of_le_length (by omega)]
    · rw [if_neg hpos]
      refine ⟨_, rfl, ?_, hmax, ?_⟩
      · rw [← hc]
        have : (cb len).2.toNat = 0 := by omega
        rw [this]
        simp only [contents, List.take_zero, List.append_nil, splice, List.append_assoc]
        rw [List.take_left' (by simp; omega)]
      · rw [if_neg hpos]
        refine ⟨by simp only; rw [splice_length hfit, g1], g2, g3, g4, g5, ?_⟩
        simp only
        cases hb : (cb len).1 with
        | nil => simp only [splice_nil, List.headD_nil]; exact hi.nul
        | cons b bs =>
          simp only [splice, List.append_assoc, List.headD_cons]
          rw [List.getElem?_append_right (by simp), List.length_take_of_le (by omega)]
          simp

theorem strlen_spec (s t : List UInt8) (h : (0 : UInt8) ∉ s) : strlen (s ++ 0 :: t) = .ok s.length := by
  induction s with
  | nil => rfl
  | cons c s ih =>
    simp only [List.mem_cons, not_or] at h
    simp only [List.cons_append, strlen, Ne.symm h.1, if_false, ih h.2, List.length_cons]

end Verif.BA
