import Verif.Proofs.InPlace
import Verif.Props.Base64
import Verif.Props.Unicode

/-!
# C121: the output may overwrite the input

The object is given from the destination on; the source begins at offset `k`, which may be 0.
-/

set_option autoImplicit false

namespace Verif.Base64
open Verif.Spec.Base64

/-- C121: a call of `base64_decode_buffer` with the destination at or before the source in the same object does what a call with a destination
of its own does, for every source, valid or not: it returns the same and stores the same, and nothing else in the object changes. -/
theorem base64_decode_in_place_same (mem : List UInt8) (k n size : Nat) (hs : size ≤ mem.length) (pos62 pos63 : UInt8) (ign : Bool) :
    decodeBufferIn mem k n size pos62 pos63 ign =
      (decodeBuffer (mem.drop k) n (mem.take size) pos62 pos63 ign).map fun x => (x.1, x.2 ++ mem.drop size) := by
  have h := decodeBufferIn_eq (mem.take size) (mem.drop size) k n pos62 pos63 ign
  rwa [List.take_append_drop, List.length_take, Nat.min_eq_left hs] at h

/-- C121: what is decoded in place is what was encoded, and the rest of the object is as it was. -/
theorem base64_decode_in_place (mem : List UInt8) (k n size : Nat) (hs : size ≤ mem.length) (pos62 pos63 : UInt8) (ign : Bool)
    (hr : Readable (mem.drop k) n) (hobj : mem.length < 2 ^ 63) (ha : Alphabet (dflt pos62 43) (dflt pos63 47)) (bs : List UInt8)
    (hv : Valid (dflt pos62 43) (dflt pos63 47) ign (text (mem.drop k) n) bs) (hb : bs.length ≤ size) :
    decodeBufferIn mem k n size pos62 pos63 ign = .ok (.count bs.length, bs ++ mem.drop bs.length) := by
  rw [base64_decode_in_place_same mem k n size hs,
    base64_decode_complete _ _ _ _ _ _ hr (by simp only [List.length_drop]; omega) ha bs hv]
  simp only [Except.map, over, List.length_take, Nat.min_eq_left hs, List.take_of_length_le hb, Except.ok.injEq, Prod.mk.injEq, true_and]
  rw [List.append_assoc]
  congr 1
  rw [List.drop_take]
  conv_rhs => rw [← List.take_append_drop (size - bs.length) (mem.drop bs.length), List.drop_drop, Nat.add_sub_cancel' hb]

/-- "TWFu", NUL: the three bytes of "Man" take the place of the first three characters. -/
example : Readable ([84, 87, 70, 117, 0] : List UInt8) (2 ^ 64 - 1) ∧ Valid 43 47 true (text ([84, 87, 70, 117, 0] : List UInt8) (2 ^ 64 - 1)) [77, 97, 110] ∧
    decodeBufferIn [84, 87, 70, 117, 0] 0 (2 ^ 64 - 1) 5 0xFF 0xFF true = .ok (.count 3, [77, 97, 110, 117, 0]) := by
  have h1 : Readable ([84, 87, 70, 117, 0] : List UInt8) (2 ^ 64 - 1) := Or.inr (by simp)
  have h2 : Valid 43 47 true (text ([84, 87, 70, 117, 0] : List UInt8) (2 ^ 64 - 1)) [77, 97, 110] :=
    ⟨[84, 87, 70, 117], [], by simp [text, pad], by decide, by simp⟩
  exact ⟨h1, h2, base64_decode_in_place [84, 87, 70, 117, 0] 0 _ 5 (by decide) 0xFF 0xFF true h1 (by simp) alphabet_std [77, 97, 110] h2 (by decide)⟩

end Verif.Base64

namespace Verif.Unicode
open Verif.Utf8 Verif.Spec.Unicode Verif.Spec.Utf8 Verif.Unidata Verif.UniGen

/-- C121: a call of `charstr_unicode_recompose` with the output at or before the text in the same object does what a call with an output buffer
of its own does, for every text, valid or not. -/
theorem unicode_recompose_in_place_same {mem t : List UInt8} {k e : Nat} {lim : Option Nat} (hp : Input (mem.drop k, lim) t) (he : e ≤ mem.length) :
    recomposeIn unicode13 mem k lim (some e) = recompose unicode13 (mem.drop k, lim) mem (some e) :=
  recomposeIn_eq tables.toTable hp he

/-- Normalizing with one buffer: decompose into it, then recompose what is there. -/
def normalizeIn (p : Pos) (buf : List UInt8) (e : Nat) : D (Res × List UInt8) := do
  let (_, b) ← decompose unicode13 p buf (some e)
  recomposeIn unicode13 b 0 none (some e)

/-- C121: decomposing into a buffer and recomposing there yields normalization form C, for texts without long runs of marks. -/
theorem unicode_normalize_in_place {p : Pos} {t : List UInt8} (hp : Input p t) {cps : List Nat} (hs : Seq Legal t cps)
    {buf : List UInt8} {e : Nat} (he : e ≤ buf.length) (hf : 3 * t.length + 1 ≤ e)
    (hrun : ∀ d, NFD13 cps d → ∀ x b y, d = x ++ b ++ y → (∀ c ∈ b, unicode13.ccc c ≠ 0) → b.length ≤ 100) :
    ∃ y buf', NFC13 cps y ∧ Returns (normalizeIn p buf e) (.ptr (encs y).length, encs y ++ 0 :: buf') := by
  obtain ⟨rfl, hsc⟩ := legal_encs hs
  have h0 : 0 ∉ cps := by
    rw [← encs_zero hsc]
    obtain ⟨r, _, h, _⟩ := hp
    exact h
  obtain ⟨d, h1, h2, h3⟩ := unicode_decompose_13 hp (seq_loose hs)
  have hsd := nfd_scalar h1 hsc
  have hin := input_encs hsd (nfd_nonzero h1 h0) (buf.drop ((encs d).length + 1))
  have hlen : (encs d ++ 0 :: buf.drop ((encs d).length + 1)).length = buf.length := by
    simp only [List.length_append, List.length_cons, List.length_drop]; omega
  obtain ⟨y, h4, h5⟩ := unicode_recompose_room_partial hin (scan_true.1 (scan_encs hsd)) (hrun d h1)
    (buf := encs d ++ 0 :: buf.drop ((encs d).length + 1)) (e := e) (by omega) (by omega)
  refine ⟨y, (encs d ++ 0 :: buf.drop ((encs d).length + 1)).drop ((encs y).length + 1), ⟨d, h1, h4⟩, ?_⟩
  rw [normalizeIn, returns_bind (h3 buf e he (by omega))]
  simp only
  rw [unicode_recompose_in_place_same (by simpa using hin) (by omega)]
  exact h5

/-- Ångström sign (U+212B) and a mark above and one below, in a buffer of 40 bytes: the five bytes of the answer take the place of the eight of
the decomposition. -/
example : ∃ buf', Returns (normalizeIn (encs [0x212B, 0x301, 0x323] ++ [0], none) (List.replicate 40 7) 40)
    (.ptr (encs [0x1EA0, 0x30A, 0x301]).length, encs [0x1EA0, 0x30A, 0x301] ++ 0 :: buf') := by
  have h : NFD13 [0x212B, 0x301, 0x323] [0x41, 0x323, 0x30A, 0x301] := by
    unfold NFD13; rw [unicode13_eq]
    exact nfd_iff.2 ⟨[0x41, 0x30A] ++ ([0x301] ++ ([0x323] ++ [])), .cons (fullF_full 5 _ _ (by decide +kernel))
      (.cons (fullF_full 5 _ _ (by decide +kernel)) (.cons (fullF_full 5 _ _ (by decide +kernel)) .nil)), by decide +kernel⟩
  have hc : Compose unicode13.ccc (pairs unicode13) [] [0x41, 0x323, 0x30A, 0x301] [0x1EA0, 0x30A, 0x301] := by
    refine (compose_iff tables.toTable).2 ?_
    rw [unicode13_eq]
    decide +kernel
  obtain ⟨y, buf', hy, hr⟩ := unicode_normalize_in_place (p := (encs [0x212B, 0x301, 0x323] ++ [0], none)) (buf := List.replicate 40 7) (e := 40)
    (input_encs (by decide) (by decide) []) (seq_encs (by decide)) (by simp) (by decide) (by
      intro d hd x b y he _
      have := congrArg List.length (nfd_unique hd h)
      rw [he] at this; simp at this; omega)
  obtain ⟨d, hd, hy⟩ := nfc_primary.1 hy
  rw [nfd_unique hd h, compose_iff tables.toTable] at hy
  rw [compose_iff tables.toTable] at hc
  rw [hc, ← hy]
  exact ⟨buf', hr⟩

/-- Decomposing in place is another matter: `Åb` is refused, since the second byte of the ring (U+030A) takes the place of the `b` before the
`b` has been read. With a buffer of its own it is decomposed. -/
theorem unicode_decompose_in_place_fails (room : List UInt8) (e : Nat) (he : 4 ≤ e) (h : e ≤ room.length + 4) :
    (∃ mem, Returns (decomposeIn unicode13 ([0xC3, 0x85, 0x62, 0] ++ room) 0 none (some e)) (.null .eilseq, mem)) ∧
    (5 ≤ e → ∃ buf, Returns (decompose unicode13 ([0xC3, 0x85, 0x62, 0] ++ room, none) ([0xC3, 0x85, 0x62, 0] ++ room) (some e)) (.ptr 4, buf)) := by
  have hfull : Full unicode13.decomp 0xC5 [0x41, 0x30A] := by
    rw [unicode13_eq]; exact fullF_full 5 _ _ (by decide +kernel)
  have hsc : ∀ c ∈ [0x41, 0x30A], IsScalar c := by decide
  have henc : encs [0x41, 0x30A] = [0x41, 0xCC, 0x8A] := by decide
  constructor
  · have h1 := decomposeFully_fits unicode13 hfull (buf := [0xC3, 0x85, 0x62, 0] ++ room) (s := 0) (e := e) hsc (by rw [henc]; simp; omega)
      (by simp; omega)
    rw [henc] at h1
    have hd : decode ([0xC3, 0x85, 0x62, 0] ++ room, none) = .ok (some (0xC5, ([0x62, 0] ++ room, none))) := rfl
    have hd2 : decode ([0x8A, 0] ++ room, none) = .ok none := rfl
    have hm : splice ([0xC3, 0x85, 0x62, 0] ++ room) 0 [0x41, 0xCC, 0x8A] = [0x41, 0xCC, 0x8A, 0] ++ room := rfl
    rw [hm] at h1
    refine ⟨[0x41, 0xCC, 0x8A, 0] ++ room, ?_⟩
    have hl : decomposeLoopIn unicode13 0 none ([0xC3, 0x85, 0x62, 0] ++ room) 0 (some e) = pure (.error .eilseq, [0x41, 0xCC, 0x8A, 0] ++ room) := by
      rw [decomposeLoopIn]
      simp only [List.drop_zero, reduceCtorEq, if_false, List.cons_append, List.nil_append] at hd h1 ⊢
      rw [if_neg (by decide), liftC_bind hd]
      simp only []
      rw [returns_bind h1]
      simp only [List.length_cons, show room.length + 1 + 1 + 1 + 1 - (room.length + 1 + 1) = 2 by omega]
      rw [decomposeLoopIn]
      simp only [List.drop_succ_cons, List.drop_zero, reduceCtorEq, if_false, List.cons_append, List.nil_append] at hd2 ⊢
      rw [if_neg (by decide), liftC_bind hd2]
    rw [decomposeIn, hl]
    simp
  · intro h5
    have hin : Input ([0xC3, 0x85, 0x62, 0] ++ room, none) [0xC3, 0x85, 0x62] := ⟨0 :: room, rfl, by decide, Or.inr ⟨⟨room, rfl⟩, by simp⟩⟩
    have hs : Seq Loose [0xC3, 0x85, 0x62] [0xC5, 0x62] := scan_true.1 (scan_encs (d := [0xC5, 0x62]) (by decide))
    have hn : NFD13 [0xC5, 0x62] [0x41, 0x30A, 0x62] := by
      unfold NFD13; rw [unicode13_eq]
      exact nfd_iff.2 ⟨[0x41, 0x30A] ++ ([0x62] ++ []), .cons (fullF_full 5 _ _ (by decide +kernel)) (.cons (fullF_full 5 _ _ (by decide +kernel)) .nil),
        by decide +kernel⟩
    have := unicode_decompose_correct unicode13 hin hs hn (by decide) (buf := [0xC3, 0x85, 0x62, 0] ++ room) (e := e) (by simp; omega)
      (by rw [show (encs [0x41, 0x30A, 0x62]).length = 4 by decide]; omega)
    exact ⟨_, this⟩

end Verif.Unicode
